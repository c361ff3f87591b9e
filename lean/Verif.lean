import Verif.Props.Codecs
import Verif.Props.Rlp
import Verif.Props.BigInt
import Verif.Props.Division
import Verif.Props.Gcd
import Verif.Props.Modular
import Verif.Props.Curve
import Verif.Props.Keys
import Verif.Props.Random
import Verif.Props.Signing
import Verif.Props.Recovery
import Verif.Props.Encoding
import Verif.Props.Sha2
import Verif.Props.Sha3
import Verif.Props.Ssz
import Verif.Props.EthereumTypes
import Verif.Props.Transactions
import Verif.Props.Builder
import Verif.Props.Accounts
import Verif.Props.Defaults
import Verif.Props.Published
import Verif.Props.Acceptance
import Verif.Props.TxPanics
import Verif.Props.Texts
import Verif.Spec.Client
import Verif.Props.Client
import Verif.Props.RandomTests
import Verif.Props.RandomEcdsa
import Verif.Model.Ethereum.Display
import Verif.Spec.Display
import Verif.Lemmas.Ethereum.Display
import Verif.Props.Display
import Verif.Lemmas.RlpPanic
import Verif.Model.Examples
import Verif.Spec.Programs
import Verif.Lemmas.Programs
import Verif.Lemmas.Vanity
import Verif.Props.Programs
import Verif.Props.Vanity
import Verif.Props.Wire
import Verif.Model.Crypto.Statics
import Verif.Lemmas.Crypto.Statics
import Verif.Props.Statics
import Verif.Spec.Builds
import Verif.Lemmas.Builds
import Verif.Lemmas.Builds.BigInt
import Verif.Lemmas.Builds.Math
import Verif.Lemmas.Builds.Hash
import Verif.Lemmas.Builds.Rlp
import Verif.Lemmas.Builds.Crypto
import Verif.Lemmas.Builds.Ethereum
import Verif.Lemmas.Builds.Ssz
import Verif.Lemmas.Builds.Programs
import Verif.Props.Builds
import Verif.Props.Binding
import Verif.Spec.Widths
import Verif.Lemmas.Widths
import Verif.Lemmas.Widths.Math
import Verif.Lemmas.Widths.Crypto
import Verif.Lemmas.Widths.Ethereum
import Verif.Lemmas.Widths.Programs
import Verif.Props.Widths
import Verif.Model.RlpTarget
import Verif.Spec.RlpTarget
import Verif.Lemmas.RlpTarget
import Verif.Props.RlpTarget
import Verif.Model.ConstTime
import Verif.Spec.ConstTime
import Verif.Lemmas.ConstTime
import Verif.Props.ConstTime
import Verif.Spec.Size
import Verif.Lemmas.Size
import Verif.Props.Size
import Verif.Spec.Collision
import Verif.Lemmas.Hash.Permutation
import Verif.Lemmas.Hash.Collision
import Verif.Props.Collision
import Verif.Spec.Nonces
import Verif.Lemmas.Crypto.Nonces
import Verif.Props.Nonces
import Verif.Model.ErrorText
import Verif.Props.ErrorText
import Verif.Props.Tamper
import Verif.Spec.Unsigned
import Verif.Props.Unsigned
import Verif.Props.Rounds
import Verif.Model.Hash.Sha3Target
import Verif.Lemmas.Hash.Target
import Verif.Props.Target
import Verif.Conformance
import Verif.Replay.Ssz
import Verif.Replay.BigInt
import Verif.Replay.Rlp
import Verif.Model.BigInt.Memory
import Verif.Lemmas.BigInt.Memory
import Verif.Props.Memory
import Verif.Props.Cofactor
import Verif.Model.Equality
import Verif.Spec.Equality
import Verif.Lemmas.Equality
import Verif.Props.Equality
import Verif.Props.Sender
import Verif.Props.Mac
import Verif.Spec.Sec1Error
import Verif.Props.Sec1Error
import Verif.Lemmas.Crypto.Fuel
import Verif.Spec.KeyClient
import Verif.Props.KeyClient
import Verif.Spec.WalletClient
import Verif.Lemmas.Ethereum.Mismatch
import Verif.Props.WalletClient
import Verif.Props.WalletPublished
import Verif.Model.RlpTypes
import Verif.Spec.RlpTypes
import Verif.Lemmas.RlpTypes
import Verif.Props.RlpTypes
import Verif.Spec.P256
import Verif.Model.Crypto.TestCurves
import Verif.Lemmas.Crypto.P256Primes
import Verif.Lemmas.Math.Cubic
import Verif.Lemmas.Crypto.P256
import Verif.Props.UserCurves
import Verif.Spec.W25519
import Verif.Lemmas.Crypto.W25519Primes
import Verif.Lemmas.Crypto.W25519
import Verif.Props.UserCurvesMore
import Verif.Spec.RlpTypesPanic
import Verif.Lemmas.RlpTypesPanic
import Verif.Lemmas.Math.Pocklington
import Verif.Lemmas.Math.ValidCurve
import Verif.Spec.NamedCurves
import Verif.Lemmas.Crypto.NamedPrimes
import Verif.Lemmas.Crypto.NamedCheck
import Verif.Lemmas.Crypto.P521Chain1
import Verif.Lemmas.Crypto.P521Chain2
import Verif.Lemmas.Crypto.P521Chain3
import Verif.Lemmas.Crypto.P521Root
import Verif.Lemmas.Crypto.P521Order
import Verif.Lemmas.Crypto.P521
import Verif.Lemmas.Crypto.NamedCurves
import Verif.Lemmas.Crypto.NamedDomain
import Verif.Props.NamedCurves
import Verif.Props.Unaligned
import Verif.Model.VectorTests
import Verif.Spec.VectorTests
import Verif.Lemmas.VectorTests
import Verif.Props.VectorTests
import Verif.Model.TestingTools
import Verif.Lemmas.TestingTools
import Verif.Props.TestingTools
import Verif.Props.Benches
import Verif.Model.TransactionTests
import Verif.Spec.TransactionTests
import Verif.Lemmas.TransactionTests
import Verif.Props.TransactionTests
import Verif.Props.TransactionTestsExamples
import Verif.Model.KeyTests
import Verif.Spec.KeyTests
import Verif.Lemmas.KeyTests
import Verif.Props.KeyTests
import Verif.Model.SigningTests
import Verif.Spec.SigningTests
import Verif.Props.SigningTests
import Verif.Props.SigningTestsExamples
import Verif.Props.CurveRecoveryTests
import Verif.Spec.PublishedSignatures
import Verif.Props.PublishedSignatures
import Verif.Model.RlpTests
import Verif.Spec.RlpTests
import Verif.Lemmas.RlpTests
import Verif.Props.RlpTests
import Verif.Model.OsRandomTests
import Verif.Props.OsRandomTests
import Verif.Model.SszExample
import Verif.Spec.SszExample
import Verif.Lemmas.Ssz.Example
import Verif.Props.SszExample
import Verif.Model.P256Tests
import Verif.Spec.P256Tests
import Verif.Props.P256Tests
import Verif.Props.P256TestsSha512
import Verif.Props.RlpItems
import Verif.Model.RlpWriter
import Verif.Spec.RlpWriter
import Verif.Props.RlpWriter
import Verif.Spec.SszItems
import Verif.Props.SszItems
import Verif.Props.SszWriter
