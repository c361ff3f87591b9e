import Verif.Model.Ethereum.Types
import Verif.Model.Crypto.Ecdsa

/-!
# Externally-owned accounts

Models `/repo/src/blockchain/ethereum/account/eoa.rs`.
-/

namespace LCT.Ethereum
open LCT.BigInt LCT.Crypto
variable {ε : Type}

/-- `/repo/src/blockchain/ethereum/account/eoa.rs:23-26` `EoaPrivateKey::new`; the parameter is a `[u8; 32]`. -/
def EoaPrivateKey.new (m : Build) (w : Nat) (data : List UInt8) (_len : data.length = 32) : Out ε (Option PrivateKey) := do
  let d ← BInt.fromBeBytes w data .positive
  let cp ← secp256k1 w
  PrivateKey.new m w d cp

/-- `/repo/src/blockchain/ethereum/account/eoa.rs:28-30` `EoaPrivateKey::public_key`. -/
def EoaPrivateKey.publicKey (m : Build) (w : Nat) (k : PrivateKey) : Out ε PublicKey := k.publicKey m w

/-- `/repo/src/blockchain/ethereum/account/eoa.rs:37-41` `EoaPublicKey::address`. -/
def EoaPublicKey.address (m : Build) (w : Nat) (k : PublicKey) : Out ε Address := do
  let bytes ← k.params.pointToBytes m w k.data
  let (hash, _) ← Hash.Sha3.Keccak256.digest m Hash.Sha3.Keccak256.fresh bytes
  rassert (decide (12 ≤ hash.length))
  unwrap (Address.fromBytes (hash.drop 12))

end LCT.Ethereum
