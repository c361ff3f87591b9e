# Formal model of weipin/lightcryptotools: design

## Layout

* `lean/Verif/Model/*` is the model, function by function. Every definition cites the file and lines it models.
* `lean/Verif/Spec/*` has small specifications that do not mention the model: positional notation, the curve group,
  FIPS 180-4, FIPS 202, RFC 2104, RFC 6979, SEC 1, IEEE P1363, the Yellow Paper's RLP, the transaction EIPs, SSZ.
* `lean/Verif/Lemmas/*` has the helper lemmas.
* `lean/Verif/Props/*` has the property theorems and, beside each, examples that meet its hypotheses.
* `properties.jsonl` states the properties in English; `MANIFEST.json` maps them to theorems.
* `AXIOMS.md` lists the axioms of each theorem; `seeded/LOG.jsonl` records the wrong programs the theorems were tested against.

## Modelling conventions

* A function that may fail returns `Out ε α`: `ok a`, `err e`, `panic` or `hang`. Every panic of the Rust text is modelled:
  indexing and slicing out of bounds, `unwrap`, `assert!`, division by zero, and, where `Build` is a parameter,
  `debug_assert!` and overflow checks, which only debug builds have. A theorem that says `.Returns` rules out the last two results.
* A `loop` or `while` without a syntactic bound takes fuel and gives `hang` when it runs out. Theorems then give an amount of
  fuel that is always enough, or prove that no amount is (`C27_stall`).
* `&mut` parameters become returned values; `Vec` and slices are `List`; an object with methods is a state and functions on it.
* `usize` lengths are `Nat`, except where their overflow is observable (RLP headers, SSZ offsets): there the 64-bit and 32-bit
  computations are modelled exactly.
* Big integers are modelled at the level of digits everywhere, also in the modules above: a little-endian list of digits, a
  count of digits in use, and a sign, with the digit width `w` as a parameter throughout. The relation `Yields x z`
  ("`x` is a well-formed big integer for the integer `z`") carries each operation to integer arithmetic.
* A generic parameter that the property depends on through its contract is a parameter of the model: the hash function of signing
  and of RFC 6979, the operating system's replies, the source of extra randomness.
* Rust's associative containers, traits and operator forwarding have no model of their own: a trait method is modelled at each of its
  implementations, `&a + b`, `a + &b` and `a + b` are the same function.

## Properties: what is modelled and how it is proved

| id | model | specification | proof |
|----|-------|---------------|-------|
| C01 | add.rs, sub.rs, neg.rs digit loops | `Int` | value of a digit list, induction over the lists |
| C02 | mul.rs | `Int` | induction, accumulator at most B^2 - 1 |
| C03 | divrem.rs: one digit, Knuth D with normalisation, trial quotient, multiply and subtract, add back | `Int.tdiv`, `Int.tmod` | loop invariant, Knuth's two theorems on the trial quotient |
| C04 | shift.rs | powers of two | value lemmas; negation for 0 shifted by a multiple of the digit width |
| C05 | cmp.rs | order of `Int` | order of canonical digit lists |
| C06 | bytes.rs, from_be_bytes, to_be_bytes | positional notation | induction |
| C07 | from_hex, to_lower_hex | positional notation, hex digits | round trip, acceptance |
| C08 | from_str_radix | numerals | negation (a digit equal to the radix is accepted), exact acceptance |
| C09 | from_u128, from_i128, From | `Int` | arithmetic |
| C10 | bits.rs, math.rs, byte_len | `Nat.log2`, divisibility | value lemmas |
| C11 | gcd.rs with Lehmer steps | `Int.gcd`, Bezout | Collins' condition, invariant of the continuants, logarithmic termination measure (the product halves every round) |
| C12 | biguint.rs | sign; the integer a history computes (Spec/Unsigned) | negation; refinement: a BigUint holds exactly the integer computed |
| C13 | modular.rs | `Int.emod`, `ZMod` | value lemmas |
| C14 | modular.rs sqrt | `ZMod p` | Tonelli-Shanks invariant |
| C15, C16 | elliptic_curve.rs | Mathlib's group of `WeierstrassCurve.Affine.Point` | case analysis of the group law, induction over the bits |
| C17 | codecs.rs | hex digits | induction |
| C18-C20 | p1363.rs, sec1.rs, elliptic_curve_params.rs | SEC 1, P1363 | round trip, exact acceptance; negations where the code is lax or panics |
| C21-C25 | ecdsa/*.rs | ECDSA over an abstract group of prime order | group algebra; negation for hashes that are multiples of the order |
| C26 | rfc6979.rs | RFC 6979 3.2 | refinement |
| C27 | the signing loop over a stream of nonces | first usable nonce | induction on its index; a stream without one never ends |
| C28 | hmac.rs | RFC 2104 | unfolding |
| C29, C30, C33 | sha2 | FIPS 180-4 over bit strings | refinement of the unrolled rounds, padding arithmetic |
| C31 | sha3 | FIPS 202 over bit strings | refinement of the unrolled permutation to theta, rho, pi, chi and iota |
| C32 | all hashers | one-shot hash | the result does not depend on the state before |
| C34, C35 | rlp encoding and decoding of nested items | Yellow Paper, appendix B | structural induction |
| C36, C37 | rlp/decoding.rs, decoder.rs | relaxed RLP grammar (headers need not be shortest) | 64-bit header arithmetic; exact acceptance and exact panics |
| C38 | typed RLP values | Yellow Paper scalars | minimal big-endian lemmas |
| C39 | address.rs, storage_key.rs | EIP-55 | hex codec lemmas |
| C40-C42 | transaction/types/*_rlp.rs, access_list_rlp.rs | EIP-155, 2930, 1559 field lists | RLP lemmas; negation for the chain id |
| C43, C44, C46 | transaction/types/*.rs, payload/*.rs | signing preimages | RLP injectivity with ECDSA recovery |
| C45 | builder.rs, payload/*.rs | last value set for each field | induction over the calls |
| C47 | account/eoa.rs | Keccak-256 of the point, low 20 bytes | composition |
| C48-C51 | ssz/* over a universe of types | SSZ `serialize`; `Reads` and `Crashes` for all data | mutual induction over types |
| C52 | random/linux.rs, os/linux.rs, apple, windows | the operating system as a stream of replies | induction over chunks |
| C53 | secp256k1.rs | SEC 2 | Pratt certificates and a double-and-add run, checked by the kernel |
| C54 | ecdsa_core.rs | two bits | case analysis |
| C55 | codable/core.rs and the encoding items | a new item | induction over histories |
| C56, C57, C59 | transaction decoders on all byte strings | relaxed grammar with field kinds; the panicking byte strings in the same terms (Spec/TxPanics.lean) | exact acceptance, exact panics, re-encoding |
| C58 | currency_unit.rs, chain_id.rs, eoa_nonce.rs | unsigned numerals | from C07 and C08 |
| C60 | `Display` of transactions, payloads, access lists | lines of text | unfolding; injectivity of the numerals, hex and EIP-55 texts, and of joining lines |
| C61 | examples/ethereum/tx_decoder.rs | the text of the transaction that the bytes encode | from C17, C57 and C60 |
| C62 | signing, encoding, decoding and recovery together | the one transaction that the bytes encode | composition of C40-C44, C61 |
| C63 | examples/ethereum/eoa_key_to_address.rs | EIP-55 text of the address | from C17 and C47 |
| C64 | examples/ethereum/rlp_decoder.rs up to the JSON value | `jsonOf` on nested items | from C36; exact panics |
| C65 | examples/ethereum/eoa_gen_vanity_address.rs, clocks and keys as sequences | first key that fits | induction over rounds |
| C66 | examples/randombytes.rs | bytes written by the kernel | from C52 |
| C67 | secp256k1.rs: the `static mut` variable and its `Once`, threads and schedules | constants of SEC 2 (C53) | invariant over the steps of any schedule; progress by well-founded descent of the initialising thread |
| C68 | every model function that takes a `Build` | `SameResult`: panic in debug, or equal outcomes | outcomes ordered with panic at the bottom; every function is shown monotone in the build, those with loops by induction |
| C69 | ecdsa_verifying.rs, signature.rs, as for C21 to C25 | `EcdsaVerifies`, counting with `Finset.card` | the verifier's point R satisfies s•R = e•G + r•Q, so that R determines e, Q or s; at most two (four) points have abscissa r modulo n |
| C70 | every model function that takes a digit width | `Agree` with `SameInt`, `SamePoint`, ... (Spec/Widths): same value, same error, or the same kind of failure | both programs are gone through in parallel (tactic `agree`); integers by their denotation; loops by induction, with a separate argument where the fuel depends on the storage size |
| C71 | the RLP decoder with the width of `usize` as a parameter (Model/RlpTarget) | `TruncatedItem`, `TruncatedSeq`, `OverflowsTarget`, `Declares` (Spec/RlpTarget): what a decoder that keeps the low bits of a length accepts | case analysis on the form of the header; exact acceptance and exact panics by induction on the items; agreement for all data without huge declarations |
| C72 | the hex codec as two programs of a small language whose semantics records branches, overflow and bounds tests, loop tests, indices and allocations (Model/ConstTime) | `seen` for two arguments is equal; `firstBad` (Spec/ConstTime) | closed form of what is seen, by induction on the argument; the programs are proved to compute the functions of C17; a table encoder is proved to leak everything, as a control |
| C73 | `decodeTree` (Model/Rlp), `decode (impl t)` (Model/Ssz) | `rlp`, `serialize` measure values; `nodes`, `volume`, `depth`, `Ty.levels` (Spec/Size) | induction over the accepted grammars of C37 and C51; the bound for SSZ is attained by a nest of containers whose offsets are all zero |
| C74 | the hashers of C29–C31 | `CompressionCollides`, `TruncationCollides`, `OutputCollides`, `InnerCollides` (Spec/Collision), on the blocks and states of the two messages | C29–C31 reduce to the standards; induction from the last block (SHA-2, using the length field); Keccak-f is injective: θ by squaring the shift operator on column parities six times, χ by rows, ρ, π, ι by their inverses |
| C75 | `PrivateKey.publicKey`, `toSec1Hex`, `EoaPublicKey.address` | coordinates compared as integers; texts; for addresses the states of the sponge after the two public keys | the base point has prime order, so `d ↦ d•G` is injective on `[1, n-1]`; points with the same abscissa are equal or opposite; C19, C20 for the texts; C47 and C74 for addresses |
| C76 | `verifyWithOptions`, `PrivateKey.sign` | `sameRSecrets` (Spec/Nonces): two numbers computed from `r, s, s', e, e'` | C25 gives the two verification equations; the verifier's points are equal or opposite; linear algebra modulo `n` |
| C77 | `Rfc6979.generateNonce`, `signWithOptions` | `queries`, `nonceHashes`, `NonceCollision` (Spec/Nonces): everything hashed on the way to the nonces | C26 reduces to RFC 6979; induction backwards over the rejected candidates of both runs, down to the seeds, which are injective; then HMAC's two hashes |
| C78 | Display messages (Model/ErrorText) | equality of errors | first characters tell the constructors apart, decimal numerals are injective |
| C79 | `recoverWithOptions`, `EoaPublicKey.address` | `Payload` (Spec), core collisions of Keccak-256 (Spec/Collision) | C23 gives the verifier's point, which the recovery id determines; linear algebra modulo `n`; C44 for the preimages, C74 for the collision |
| C80 | gcd.rs, `pow`, `sqrt` with limits on the rounds | the limits | the product of the pair halves in each gcd round; the exponent halves; the least non-residue `c` has `c(c-1) < p`; reciprocity for secp256k1 |
| C81 | core.rs on a target of either byte order (Model/Hash/Sha3Target) | FIPS 202 | swapping bytes is an involution and distributes over xor; the big-endian state is the little-endian one with its words swapped, its bytes are the same |
| C82 | the same, `bytes_to_lower_hex`, `eip_55_checksum_encode` | UTF-8 as in Lean's library | hex digits are ASCII; pieces of eight bytes |
| C83 | `add_digits`, `sub_digits`, `mul_digits`, `div_rem_digits`, `gcd_digits` with the contents of their buffers as inputs (`Model/BigInt/Memory.lean`) | two histories of the memory, same lengths | simulation: the in-place functions equal the value model, round after round of the gcd |
| C84 | derived `PartialEq` of curves, parameters and public keys (Model/Equality) | `SameInt w w`, `SamePoint w w`, …: the same integers (Spec/Widths); `Answers`, `EqualInt`, … (Spec/Equality) | `==` decides sameness, by C05; sameness is preserved by every operation: the relational lemmas of C70, with one digit width |
| C85 | `hmac` over any hasher (`Model/Hash/Core.lean`) | equal codes give the same message and one key, or two of the hashed messages collide | C28 reduces to RFC 2104; the padded keys have the length of a block, so the two parts of what is hashed can be told apart; xor with a constant is injective |
| C86 | the bodies of the crate's random tests, with the gcd implementations that only the tests use (`Model/RandomTests.lean`) | `DrawnHex`, `DrawnSignedHex` (Spec/RandomTests): what the generators draw; each test returns `true` | each step of a test computes on numbers (C01-C10, C14, C17); loops of the test-only gcds by induction with the gcd as invariant; signing by the analysis of C76: a signature verifies for the next hash exactly if the two verifier points are opposite |
| C87 | the `BigInt` calls used by a program: construction, parsing, arithmetic, comparison, printing (no new model) | `Client`, `Ideal`, `IdealRun` (Spec/Client): a client that chooses each call from the replies so far, and how the integers answer | one call from the theorems on that call (C01-C08); sessions by induction on the run, with `Matches` (each number held stands for the integer) as invariant |
| C88 | the calls on private keys, public keys and signatures that a program makes, besides those of C87 (no new model; `keyAnswer`, `keySession` only join the calls) | `KeyClient`, `KeyIdeal`, `KeyRun` (Spec/KeyClient): a client that chooses each call from the replies so far, and how textbook ECDSA on the curve answers, with RFC 6979 nonces, SEC 1 and P1363 texts and the order of the checks | one call from the theorems on that call (C19-C27, C84, C87, `C20_error`); sessions by induction with `KeyMatches` (each object stands for the number, point or pair) as invariant; that enough fuel suffices from `C27_progress`, `C27_random_error` and the monotonicity of signing in its fuel |
| C89 | the `Encodable`/`Decodable` impls of the scalar types and `Vec<T>`, put together by users into structs the way access_list_rlp.rs does (Model/RlpTypes: a universe `Ty` of the types one can compose) | `itemOf`, `ReadsAs` (Spec/RlpTypes): the item that stands for a value, and when an item can be read as one; by recursion over the type; `Chokes` (Spec/RlpTypesPanic) says of every type and item whether decoding panics in debug builds (`C36_types_panics_iff_partial`: exactly then) |
| C90 | the calls of an Ethereum wallet: private keys from bytes, addresses, the transaction builder with its setters, building, signing, encoding, decoding and printing transactions of the four kinds, besides the calls of C88 (no new model; `walletAnswer`, `walletSession` only join the calls; in Rust signing uses up the payload, here a client may use it again) | `WalletClient`, `WalletIdeal`, `WalletRun` (Spec/WalletClient): a client that chooses each call from the replies so far, and how the yellow paper, EIP-55, EIP-155, EIP-2718, EIP-2930, EIP-1559 and EIP-2681 answer, with the decoders' deviations (C37, C41, C56, C59) and the texts of amounts (C58) written out | one call from the theorems on that call (C36-C49, C56-C59, C84-C85, C88); sessions by induction with `WalletMatches` as invariant; that enough fuel suffices from C88 and the monotonicity of signing in its fuel; `C90_published`: a client that meets the hypotheses and sees the transaction printed in EIP-155 |
| C91 | the curves that the test suite supplies as a user would: `nist_p256`, `secp256r1` (the same curve with `a` written as a residue) and `w25519` (Model/Crypto/TestCurves), and secp224r1, secp384r1, secp521r1, brainpool_p256r1, brainpool_p320r1, brainpool_p384r1 and brainpool_p512r1 | the constants as published (Spec/P256, Spec/W25519), primality, the order of the base point and the number of points of the curve, all proved: Pratt certificates, a certificate that the cubic has no root (P-256), a point of order 8 together with the bound `2p + 1 < 16n` (Curve25519). For the other curves the orders have Pocklington certificates (for P-521 with a chain of points on curves for the large factor), and the fields are prime because a point of order `n` is on the curve modulo each of their factors (Lemmas/Math/ValidCurve). Then C88 for P-256 and the named curves with any hash function, and the signatures of RFC 6979 A.2.5 computed in the kernel. Partial: as C88, and on `w25519` validating or recovering with the point of order two panics (`C91_w25519_violated`) |
| C92 | the three tests over published vectors (Model/VectorTests): loops over groups and vectors with the hasher reused, the assertions, the slices, the parsing of the lines of the known answers | what labels claim (Spec/VectorTests), in terms of textbook verification, HMAC and digests; each loop decides the conjunction of the claims, by induction on the file | 
| C93 | the generators of the random tests, `random_hex` and `byte_aligned_hex`, and the benchmarks of division, public keys and signing with one round of the measured closure (Model/TestingTools); quickcheck's source is an arbitrary sequence of draws | a generator's texts are described by `DrawnHex` (Spec/RandomTests), both inclusions by induction on the length; benchmarks by the theorems on parsing, division, keys and signing | Props/TestingTools, Props/Benches |
| C94 | the four tests over the published transactions of ethers.js with their loops, filters, text handling and comparison (Model/TransactionTests); JSON parsing is not modelled, a vector is a record of optional texts | what the texts stand for is specified without the code (Spec/TransactionTests: `U64Text`, `KeyText`, `LimitText`, `NonceText`, `FeeText`, `AccessText`, …), `SignsTo` is the signed transaction of the standards; every reading step yields the only value that the specification admits or panics (`Reading`), the tail is C43/C27/C40; induction over the file |
| C95 | the tests with published keys, points, addresses and signatures to be refused, with their loops and comparisons (Model/KeyTests); reading the files is not modelled, an entry is a record of texts | what the texts claim is specified without the code (Spec/KeyTests: `NumberText`, `TwoPieces`, `SumClaim`, `PointText`, `ScalarClaim`, `EncodedClaim`, `RefusedClaim`, `AccountClaim`, …); each step decides or reads (`Decides`, `Reading`), from C07, C08, C19, C20, C25, C47, C63; induction over the entries |
| C96 | the tests that sign published hashes, demand refusals and recover public keys, with their loops, options and comparisons (Model/SigningTests); reading the files is not modelled, an entry is a record of texts | what the texts claim is specified without the code (Spec/SigningTests: `SigningClaim`, `RefusalClaim`, `RecoveryClaim`); from C25, C26, C27 (the nonce is unique, and signing finds it), C19 and C23 (recovered keys are exactly those that accept the signature, without repetition), C91 (the curves of the test suite are valid domains); induction over the entries |
| C97 | the two tests over published RLP encodings with the conversion from and to JSON values, the loop and the comparison (Model/RlpTests); parsing JSON is not modelled, and the kinds of JSON values that the tests refuse are one case | Spec/RlpTests: `Describes` (what item a value means), `RightEncoding` (Yellow Paper), `RightDecoding` (relaxed grammar of C37); mutual induction over values and items, from C17, C34–C37; induction over the entries |
| C98 | the tests of random bytes (Model/OsRandomTests) over the model of the three systems (Model/Random) | a pass as a condition on the replies of the system, from C52 |
| C99 | the structs of the worked example of SSZ with their hand-written implementations of the trait, and the test, for any value and text (Model/SszExample) | Spec/SszExample: the layout written out; the implementations equal those of the container types of C48–C51 up to the change of representation (Lemmas/Ssz/Example) |
| C100 | the three tests of signing and verifying on P-256, for any key text, message and expected text (Model/P256Tests) | Spec/P256Tests: the claim about key, message and signature; from C25, C27, C21 and the validity of P-256 (C91) |
| C101 | `RlpDecodingItem::new_from_data`, `decode_as_bytes`, `decode_as_items` (Model/Rlp) | relaxed RLP grammar (Spec/Rlp) | from the acceptance and panic lemmas of C36, C37; exact acceptance, exact panics |
| C102 | histories of calls on any number of `RlpEncodingItem`s (Model/RlpWriter) | Spec/RlpWriter: an encoding item stands for the sequence of items written into it | invariant over the history: the data are the encodings of that sequence; from C35, C34 |
| C103 | `decode_as_items` of the SSZ decoding item with any sizes (Model/Ssz) | Spec/SszItems: the elements that the headers describe, read from first to last | induction over the code's loop, which runs from last to first |
| C104 | the calls that add fields to an SSZ encoding item and take the data, any number of times (Model/Ssz: `runOps`) | `assemble` (Spec/Ssz), the layout of the consensus specification | from the lemmas of C50 and C55, by induction over the containers |

All properties can be expressed in the model.

## Where the code does not have the property

Each is proved as a theorem about the model with a concrete witness, beside a theorem ending in `_partial` for the cases in which the property
does hold. Where possible a further theorem says exactly which inputs are affected.

| id | what happens | theorem |
|----|--------------|---------|
| C04 | `0 << 64` keeps zero digits, so it is not equal to 0 | `C04_shl_zero_violated` |
| C08 | `from_str_radix` accepts a digit equal to the radix | `C08_violated` |
| C12 | a negative `BigUint` from a signed text or a subtraction | `C12_violated` |
| C19 | SEC 1 encoding panics on a valid key with a coordinate of 0 or at least n | `C19_panics`, `C19_violated_secp256k1` |
| C20 | compressed points with surplus zero bytes are accepted | `C20_violated_secp256k1` |
| C20 | on every curve with an even cofactor decoding panics on some text, e.g. on the test curve w25519 | `C20_even_cofactor_panics`, `C20_w25519_panics` |
| C23 | on curves with a cofactor, recovery with the produced id can return several keys; with an even cofactor it can panic | `C23_several_violated`, `C23_even_cofactor_panics` |
| C25 | the option that rejects zero hashes accepts multiples of the order | `C25_zero_modulo_order_accepted_secp256k1` |
| C27 | signing never ends when a deterministic nonce is unusable | `C27_stall`, `C27_stall_example` |
| C36, C56 | a declared length of at least 2^64 - 9 panics with overflow checks | `C36_panics`, `C56_panics` |
| C36 | `Vec<T>` decoded from the bytes of a single value panics in debug builds, whatever `T`; for composed types the panicking items are exactly those of `Chokes` | `C36_types_panic`, `C36_types_panics_iff_partial` |
| C101 | taking apart a list in which a header declares a length of at least 2^64 - 9 panics in both builds | `C101_panics` |
| C37, C59 | encodings with longer headers than necessary are accepted | `C37_not_canonical`, `C59_*_violated` |
| C41 | the chain id is read as (v - 35) / 4 instead of (v - 35) / 2 | `C41_chain_id_violated` |
| C43 | the recovery id's high bit is lost in a transaction | `C43_high_x_violated` |
| C46 | the legacy decoder accepts EIP-155 transactions with v < 256 | `C46_eip155_as_legacy_violated` |
| C48, C49 | the empty list of elements of variable size panics when decoded | `C48_violated`, `C49_violated` |
| C51 | containers and vectors accept gaps, overlaps and trailing bytes | `C51_violated_*` |
| C58 | "-5", "a", "", "0x" and "0x+12" are accepted as amounts | `C58_violated*` |
| C61, C62 | EIP-155 transactions are shown, and signed data reconstructed, with a wrong chain id | `C61_chain_id_violated`, `C62_eip155_receiver_violated` |
| C64 | the RLP decoder program panics on huge declared lengths | `C64_panics` |
| C65 | prefixes of 13 or more digits: overflow panic, or division by zero | `C65_long_prefix_violated` |
| C70 | `0 << 8` is zero with 64-bit digits and not equal to zero with 8-bit digits | `C70_shl_violated` |
| C71 | 32-bit targets drop the high bits of declared lengths: they accept messages that 64-bit targets reject, and panic on `bb ff ff ff ff` | `C71_violated`, `C71_violated_panic` |
| C72 | reading hex digits returns at the first wrong character: its position is seen | `C72_decode_violated` |
| C73 | a Simple Serialize offset may point into the fixed part, so the same bytes are read again at every level: n bytes become a value of (d+1)·n bytes | `C73_ssz_violated` |
| C86 | random tests that correct draws break: left shift of zero by a digit (8-bit digits), RLP headers with lengths near 2^64 (every build), with longer draws than the tests make also point encoding and signing | `C86_shift_left_violated`, `C86_rlp_violated`, `C86_sec1_violated`, `C86_sign_violated` |
| C87 | a client that takes zero, shifts it left by 64 bits and asks whether it is zero is told no, or panics in debug builds | `C87_violated` |
| C88 | a client on secp256k1 that reads a public key whose abscissa is the group order and writes it again panics | `C88_violated` |
| C90 | a client that decodes a ten-byte string as a transaction of any kind panics | `C90_violated` |
| C91 | on `w25519`, as the test suite supplies it, asking for a public key with the point `u = 0` panics (from coordinates and from its compressed encoding), and so does recovery for any signature whose first half is its abscissa reduced | `C91_w25519_violated` |
| C91 | on P-521 and Curve25519 (orders of 521 and 253 bits), and on any curve whose order is not a whole number of bytes long, signing, verifying and recovering with the default options never work: every non-empty hash panics in debug builds and is refused for its length in release builds | `C91_unaligned_violated`, `C91_unaligned_examples` |
| C93 | the benchmarks of division, public keys and signing panic if zero is drawn, and the two latter if a number not below the order is drawn | `C93_violated` |

## Trusted base

* Lean 4.33.0's kernel, and the Mathlib it was built with.
* The axioms `propext`, `Classical.choice` and `Quot.sound`, and no others. `AXIOMS.md` lists them for each theorem. There is no `sorry`, no
  `native_decide`, no `bv_decide` and no axiom of our own.
* The specifications in `Verif/Spec`, as transcriptions of the standards they name.
* The reading of the Rust text: nothing but the citations ties the model to the code. The code was not run. The model was: the crate's unit
  tests of integers, modular arithmetic, curves, codecs, RLP, SSZ and payloads are replayed on it by the kernel (`Verif/Replay/`), and
  `conformance/` compiles it and runs it on the test vectors in `/repo/tests/data`. Both are tests of the model, and no theorem uses them.
* For C52, the operating system: its replies are arbitrary, but a reply that reports n bytes is taken to have written them.

## What is modelled

All of the library that has observable results on a 64-bit target:

* `bigint`: all arithmetic, comparison, shifts, conversions, bit queries, gcd, and `BigUint`.
* `math`: modular arithmetic with square roots, and elliptic curves.
* `crypto`: hex codec, SHA-2, SHA-3 (for targets of both byte orders), HMAC, RFC 6979, curve parameters and point validation, SEC 1, P1363, keys, signing, verifying, recovery,
  and the constants of secp256k1 with the variable that threads share.
* `random` and `os`: the loops and error handling around the system calls for Linux, Apple and Windows.
* `blockchain/ethereum`: RLP, SSZ, the value types, four kinds of transaction with payloads, builder and printed form, and accounts.
* `tools`: byte helpers, slices, encoding items.
* `examples`: all five programs, as functions from the first argument to the text printed. The pretty printer of `serde_json` is a parameter;
  clocks and random bytes are arbitrary sequences.

## What is not modelled

* Memory allocation and its failure. Timing and side channels, except for the hex codec (C72), the one part for which the project claims
  constant time; there the usual leakage model is used (branches, indices, allocation sizes), not compilers or hardware.
* `Debug` output.
* The `extern` declarations of the system calls, and the choice of operating system by `cfg`.
* Weak memory: the threads of C67 run on sequentially consistent memory, relying on what `Once` documents (the closure happens before every
  return from `call_once`).
* 32-bit targets, except RLP decoding (C71): all modules are generic in the digit width, but `usize` has 64 bits elsewhere. The one other place
  where the width could be seen is `32_usize.pow` in the address search, which overflows from 7 digits on instead of 13.
* Hashers that are fed more than 2^61 bytes, beyond what the theorems' hypotheses allow, as the standards do.
* The benchmarks of hash functions (they only call `digest`) and the integration tests, except those over published vectors (C92), transactions (C94), keys, points and addresses (C95), signatures and
  recovery (C96), RLP encodings (C97), random bytes (C98), the worked example of SSZ (C99) and signing on P-256 (C100) (of the unit tests, the
  random ones are modelled, C86; of quickcheck only that it draws, C93: the theorems quantify over all draws). Program arguments that are not UTF-8.
