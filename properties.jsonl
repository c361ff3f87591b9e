{"id": "C01", "title": "BigInt addition, subtraction, negation are exact", "statement": "For any two BigInt values a, b, the values denoted by a+b, a-b and -a are exactly the mathematical integer sum, difference and negation, for every sign combination and operand length, for both supported digit widths, with no panic; the result's digit array has no superfluous leading zero digits.", "quantifier": "all pairs of integers of any size and sign, all digit widths", "why_tests_cant": "Unbounded operand sizes and all carry/borrow patterns; a carry chain can be arbitrarily long, tests sample a handful of sizes.", "anchors": ["src/bigint/add.rs: Add for &BigInt, add_digits", "src/bigint/sub.rs: Sub for &BigInt, sub_digits", "src/bigint/neg.rs: Neg", "src/bigint/helper_methods.rs"]}
{"id": "C02", "title": "BigInt multiplication is exact", "statement": "For any two BigInt values a, b the product a*b denotes exactly the integer product, sign included, with no intermediate overflow of the double-width accumulator; the result is canonical.", "quantifier": "all pairs of integers of any size and sign, all digit widths", "why_tests_cant": "The absence of accumulator overflow must hold for every digit value and every operand length.", "anchors": ["src/bigint/mul.rs: Mul for &BigInt, mul_digits"]}
{"id": "C03", "title": "BigInt division is truncated Euclidean division", "statement": "For every dividend a and every non-zero divisor b, a/b and a%b satisfy a = (a/b)*b + a%b, |a%b| < |b|, and a%b is zero or has the sign of a; no overflow, underflow or out-of-bounds access happens on any path (including the add-back step); division panics exactly when b is zero.", "quantifier": "all integer pairs of any size and sign, all digit widths", "why_tests_cant": "Knuth's Algorithm D has branches (second trial-quotient correction, add-back) hit with probability about 2/2^64; random tests essentially never reach them.", "anchors": ["src/bigint/divrem.rs: Div/Rem, div_rem_digits, sub_mul_digits", "src/tools/slice.rs: rwindows_mut_each"]}
{"id": "C04", "title": "BigInt shifts are multiplication / division by powers of two", "statement": "For every value a and every amount k, a << k denotes a*2^k and a >> k denotes the sign of a times floor(|a|/2^k), and the result is in canonical form.", "quantifier": "all integers, all shift amounts", "why_tests_cant": "Digit-boundary shift amounts, zero operands and cross-digit bits form an unbounded family of corner cases.", "anchors": ["src/bigint/shift.rs: Shl, Shr, shift_left, shift_right"]}
{"id": "C05", "title": "BigInt comparison is the integer order", "statement": "For all a, b: a==b, a<b, a>b agree with the order of the integers they denote (in particular +0 == -0), so the ordering is total, antisymmetric and transitive.", "quantifier": "all pairs of integers, including both encodings of zero", "why_tests_cant": "Totality and transitivity are statements over all triples of values.", "anchors": ["src/bigint/cmp.rs: PartialEq, Ord, cmp_digits"]}
{"id": "C06", "title": "BigInt byte conversions are inverse and minimal", "statement": "to_be_bytes returns the big-endian base-256 digits of |a| with no leading zero byte (empty for 0); from_be_bytes of any non-empty byte string returns the integer it denotes, leading zeros ignored; hence from_be_bytes(to_be_bytes(a)) = |a| for a != 0. from_be_bytes of the empty string panics.", "quantifier": "all integers, all byte strings of every length (aligned or not to the digit size)", "why_tests_cant": "Alignment to digit boundaries and leading zeros interact at every length.", "anchors": ["src/bigint/bytes.rs", "src/bigint/bigint_new.rs: from_be_bytes", "src/bigint/bigint_into.rs: to_be_bytes"]}
{"id": "C07", "title": "BigInt hex parsing and printing are inverse", "statement": "For every integer a, from_hex(to_lower_hex(a)) = a; to_lower_hex is lower-case, has an even number of digits and uses the fewest bytes; from_hex accepts exactly the strings made of an optional sign followed by an even number of hex digits (plus the empty string, meaning 0; a lone sign is rejected) and returns the denoted integer.", "quantifier": "all integers, all strings", "why_tests_cant": "Acceptance must be decided for every string, the round trip for every integer.", "anchors": ["src/bigint/bigint_new.rs: from_hex", "src/bigint/bigint_into.rs: to_lower_hex", "src/crypto/codecs.rs"]}
{"id": "C08", "title": "BigInt radix parsing accepts exactly the numerals of that radix", "statement": "For every radix 2..=36, from_str_radix accepts exactly the strings that are an optional sign followed by digits smaller than the radix, and returns the integer denoted; every other string is rejected with an error.", "quantifier": "all strings, all radices 2..=36", "why_tests_cant": "The set of strings is infinite; an off-by-one in the digit bound only shows up on the digit equal to the radix.", "anchors": ["src/bigint/bigint_new.rs: from_str_radix"]}
{"id": "C09", "title": "Conversions from primitive integers are exact", "statement": "Creating a BigInt from any u128 / i128 (and the narrower primitive types) yields exactly that integer, including the most negative i128.", "quantifier": "all 2^128 values of each type", "why_tests_cant": "2^128 inputs, boundary at i128::MIN and at digit boundaries.", "anchors": ["src/bigint/bigint_new.rs: from_u128, from_i128", "src/bigint/bigint_from.rs"]}
{"id": "C10", "title": "Bit-level queries describe the integer", "statement": "bit_len is 0 for zero and otherwise the unique k with 2^(k-1) <= |a| < 2^k; byte_len is ceil(bit_len/8); is_even/is_odd agree with divisibility by two; trailing_zeros is the exponent of the largest power of two dividing a non-zero a; the little-endian bit sequence sums to |a|.", "quantifier": "all integers", "why_tests_cant": "Must hold for every magnitude, across digit boundaries.", "anchors": ["src/bigint/bits.rs", "src/bigint/bytes.rs: byte_len", "src/bigint/math.rs"]}
{"id": "C11", "title": "Extended gcd terminates with Bezout coefficients", "statement": "For all a > b > 0 the extended gcd returns (g, x, y) with g = gcd(a,b) and a*x + b*y = g; it terminates on all inputs without panic, overflow or buffer overrun, on the double-digit fast path as well as on the fallback path.", "quantifier": "all pairs a > b > 0 of any size, all digit widths", "why_tests_cant": "Lehmer's quotient prediction is only right if an invariant about approximations holds for all possible leading digits; wrong predictions are astronomically rare in random tests.", "anchors": ["src/bigint/gcd.rs: gcd"]}
{"id": "C12", "title": "BigUint never holds a negative value", "statement": "Every value of type BigUint obtained through its public constructors and operators denotes a non-negative integer.", "quantifier": "all histories of public constructor and operator calls", "why_tests_cant": "An invariant over all sequences of calls.", "anchors": ["src/bigint/biguint.rs"]}
{"id": "C13", "title": "Modular reduction, inverse and power are correct", "statement": "modulo(a, n) is the unique r with 0 <= r < n and r = a mod n, for negative a too; invert(a, n) returns Some(x) with 0 <= x < n and a*x = 1 mod n exactly when gcd(a, n) = 1, None otherwise (and panics exactly when a = 0 mod n); pow(a, e, n) = a^e mod n for all e >= 0 and n > 1.", "quantifier": "all integers a, all moduli n > 1, all exponents", "why_tests_cant": "Number-theoretic identities over all moduli.", "anchors": ["src/math/modular.rs: modulo, invert, pow"]}
{"id": "C14", "title": "Modular square root is sound and complete for odd primes", "statement": "For every odd prime p and 0 < a < p, sqrt(a, p) terminates without panic, returns None exactly when a is not a square mod p, and otherwise returns the two roots x and p-x with x^2 = a mod p.", "quantifier": "all odd primes, all residues", "why_tests_cant": "Tonelli-Shanks' loop invariant concerns the 2-adic order of an arbitrary element; p is arbitrary.", "anchors": ["src/math/modular.rs: sqrt"]}
{"id": "C15", "title": "Point addition and doubling implement the elliptic-curve group law", "statement": "On every curve y^2=x^3+ax+b over a prime field with p > 3, non-zero discriminant and b != 0, adding two points of the curve returns a point of the curve equal to their group sum (identity, inverse, equal and generic cases), without panic except when doubling a point with y = 0.", "quantifier": "all non-singular curves, all pairs of points", "why_tests_cant": "Closure and agreement with the group law are polynomial identities over all points of all fields.", "anchors": ["src/math/elliptic_curve.rs: add_points, double_point"]}
{"id": "C16", "title": "Scalar multiplication is repeated addition", "statement": "For every point P of odd order on such a curve and every n >= 0, mul_point(n, P) terminates without panic and returns P added to itself n times (identity for 0), hence mul(m+n) = mul m + mul n and mul(order) = identity; scalars may be reduced modulo the order.", "quantifier": "all scalars, all points of odd order, all curves", "why_tests_cant": "Induction over the bit length of an arbitrary scalar.", "anchors": ["src/math/elliptic_curve.rs: mul_point"]}
{"id": "C17", "title": "Hex codec round trip and exact acceptance", "statement": "bytes_to_lower_hex then hex_to_bytes returns the original bytes, for every byte string; hex_to_bytes accepts exactly the even-length strings over [0-9a-fA-F], is case-insensitive, reports NotByteAligned exactly for odd lengths and InvalidCharFound exactly when the length is even and some character is not a hex digit; re-encoding an accepted string gives its lower-casing.", "quantifier": "all byte strings, all strings (every Unicode scalar / byte)", "why_tests_cant": "The branch-free arithmetic must classify every one of the possible characters, in every position of strings of any length.", "anchors": ["src/crypto/codecs.rs: bytes_to_lower_hex, hex_to_bytes"]}
{"id": "C18", "title": "P1363 signature encoding round-trips and decodes strictly", "statement": "For every signature (r, s) with 0 < r, s < n, the P1363 encoding has fixed length 4*byte_len(n) hex digits and decodes back to the same (r, s); decoding any string either returns a signature in range whose encoding is the lower-cased input, or an error, never a panic.", "quantifier": "all signatures, all strings, all group orders", "why_tests_cant": "Fixed-width padding must be right for every magnitude of r and s, rejection for every string.", "anchors": ["src/crypto/p1363.rs"]}
{"id": "C19", "title": "SEC1 point encoding round-trips", "statement": "For every valid public point both the compressed and the uncompressed SEC1 encodings succeed and decode back to the same point.", "quantifier": "all valid points of the curve, both forms", "why_tests_cant": "Needs square roots to exist and the parity rule to select the right one, for every point.", "anchors": ["src/crypto/sec1.rs: encode_point, decode_point", "src/crypto/elliptic_curve_params.rs: validate_point, point_to_bytes"]}
{"id": "C20", "title": "SEC1 decoding yields only valid points, canonically", "statement": "Decoding any string either fails with an error or yields a point that is on the curve, not the identity, with coordinates in [0,p); it never panics; and each accepted string is the (case-insensitive) encoding of the returned point, so no two different strings of one form decode to the same point.", "quantifier": "all strings", "why_tests_cant": "Adversarial inputs range over all strings; invalid-curve points and malleable encodings are not sampled by tests.", "anchors": ["src/crypto/sec1.rs: decode_point"]}
{"id": "C21", "title": "Every signature produced verifies", "statement": "For every private key d in [1, n-1], every message hash (of admissible length) and every nonce k in [1, n-1], if signing produces a signature then r and s lie in [1, n-1] and verification with the matching public key and the same hash returns true.", "quantifier": "all keys, all hashes, all nonces, all curves with prime-order base point", "why_tests_cant": "2^256 keys times 2^256 nonces times all hashes.", "anchors": ["src/crypto/ecdsa/ecdsa_core.rs: PrivateKey::sign, PublicKey::verify", "src/crypto/ecdsa/ecdsa_signing.rs"]}
{"id": "C22", "title": "Low-s normalisation is sound", "statement": "With enforce_low_s, every produced signature has s <= n/2, still verifies, and its recovery id still identifies the signer; exactly one of (r,s) and (r,n-s) is low-s; and (r,s) verifies if and only if (r,n-s) verifies.", "quantifier": "all keys, hashes, nonces and signatures", "why_tests_cant": "Requires the group law for arbitrary points and the parity flip for arbitrary y.", "anchors": ["src/crypto/ecdsa/ecdsa_signing.rs", "src/crypto/ecdsa/ecdsa_core.rs: is_low_s"]}
{"id": "C23", "title": "Public-key recovery is sound and complete", "statement": "Every key returned by recovery verifies the given signature on the given hash; if the signature was produced by key d, recovery with the produced recovery id returns exactly the signer's public key, and recovery without an id returns a list containing it.", "quantifier": "all signatures, hashes, recovery ids", "why_tests_cant": "Quantifies over all signatures and the rare x >= n case.", "anchors": ["src/crypto/ecdsa/ecdsa_public_key_recovery.rs"]}
{"id": "C24", "title": "Keys are always in range and public keys valid", "statement": "A private key can only be constructed with 0 < d < n; its public key is d*G and always passes point validation without panic; a public key can only be constructed from a non-identity curve point with coordinates in [0,p).", "quantifier": "all integers d, all candidate points", "why_tests_cant": "All 2^256 candidate secrets; validity of d*G needs the group order argument.", "anchors": ["src/crypto/ecdsa/ecdsa_key.rs"]}
{"id": "C25", "title": "Signing and verifying options are enforced in order", "statement": "Signing rejects empty hashes always, wrong-length hashes when strict length is on and zero hashes unless allowed; verification returns the error for the first violated check in the order empty, low-s, length, zero; otherwise its answer is the ECDSA equation. A hash that is zero as a number modulo the group order can never be accepted while zero hashes are disallowed.", "quantifier": "all option combinations, hashes, signatures", "why_tests_cant": "Decision logic over the full product of options and inputs.", "anchors": ["src/crypto/ecdsa/ecdsa_signing.rs: sign_with_options", "src/crypto/ecdsa/ecdsa_verifying.rs: verify_with_options"]}
{"id": "C26", "title": "Deterministic nonces follow RFC 6979 and are in range", "statement": "With no extra random data the nonce is a function of key and hash only and equals the value prescribed by RFC 6979 3.2; every returned nonce lies in [1, q-1]; the octet conversions have the prescribed length.", "quantifier": "all keys, hashes, group orders and hash functions", "why_tests_cant": "The rejection loop may run any number of times; bit lengths not divisible by eight matter.", "anchors": ["src/crypto/rfc6979.rs"]}
{"id": "C27", "title": "The signing loop makes progress", "statement": "Signing terminates whenever some nonce of the generated sequence yields non-zero r and s, and never returns an out-of-range signature.", "quantifier": "all random sources, keys and hashes", "why_tests_cant": "A liveness statement over infinite nonce sequences.", "anchors": ["src/crypto/ecdsa/ecdsa_signing.rs: sign_with_options"]}
{"id": "C28", "title": "HMAC equals RFC 2104", "statement": "For every hash function, key of any length (shorter, equal, longer than the block) and message, the computed MAC is H((K0 xor opad) || H((K0 xor ipad) || m)).", "quantifier": "all hash functions with output not longer than the block, keys, messages", "why_tests_cant": "Key-length cases and arbitrary lengths.", "anchors": ["src/crypto/hash/hmac.rs"]}
{"id": "C29", "title": "SHA-256 equals FIPS 180-4 on every message", "statement": "For every message shorter than 2^61 bytes the digest returned by Sha256 is the one specified by FIPS 180-4 (padding, message schedule, compression, constants).", "quantifier": "all byte strings of every admissible length", "why_tests_cant": "Padding depends on length mod 64; known-answer tests cover a few lengths, the constants and unrolled rounds must be right for all data.", "anchors": ["src/crypto/hash/sha2/sha256.rs", "src/crypto/hash/sha2/core.rs"]}
{"id": "C30", "title": "SHA-384 and SHA-512 equal FIPS 180-4 on every message", "statement": "For every message shorter than 2^61 bytes the digests of Sha512 and Sha384 are those specified by FIPS 180-4.", "quantifier": "all byte strings of every admissible length", "why_tests_cant": "As for SHA-256 with a 128-byte block and 128-bit length field.", "anchors": ["src/crypto/hash/sha2/sha384_512.rs", "src/crypto/hash/sha2/core.rs"]}
{"id": "C31", "title": "SHA-3 and Keccak-256 equal the FIPS 202 sponge on every message", "statement": "For every message the digests of Sha3_224/256/384/512 (suffix 01) and Keccak256 (original padding) equal the sponge construction with the Keccak-f[1600] permutation and pad10*1.", "quantifier": "all byte strings", "why_tests_cant": "The unrolled permutation must equal the five step maps on all 2^1600 states; padding when one byte is left coincides with the final bit.", "anchors": ["src/crypto/hash/sha3/core.rs"]}
{"id": "C32", "title": "Hashers can be reused", "statement": "The digest returned by a hasher object depends only on the message, not on what the object hashed before.", "quantifier": "all histories of digest calls on one object", "why_tests_cant": "A statement over all call histories.", "anchors": ["src/crypto/hash/core.rs: UnkeyedHash", "src/crypto/hash/sha2/sha256.rs", "src/crypto/hash/sha2/sha384_512.rs", "src/crypto/hash/sha3/core.rs"]}
{"id": "C33", "title": "Merkle-Damgard padding is well formed and injective", "statement": "For every message length the SHA-2 padding makes the total a multiple of the block size, adds the minimum number of zero bits, and different messages have different padded forms.", "quantifier": "all message lengths", "why_tests_cant": "Depends on the length modulo the block size; must hold for all lengths.", "anchors": ["src/crypto/hash/sha2/core.rs: calculate_k"]}
{"id": "C34", "title": "RLP round trip", "statement": "For every (arbitrarily nested) RLP item, decoding its encoding returns the item.", "quantifier": "all byte strings and all finitely nested lists of them", "why_tests_cant": "Unbounded nesting depth and payload lengths crossing every header-size boundary.", "anchors": ["src/blockchain/ethereum/rlp/encoding.rs", "src/blockchain/ethereum/rlp/decoding.rs", "src/blockchain/ethereum/rlp/encoder.rs", "src/blockchain/ethereum/rlp/decoder.rs"]}
{"id": "C35", "title": "RLP encoding is the Yellow-Paper function, injective and prefix-free", "statement": "The encoder produces exactly the RLP defined in the Ethereum Yellow Paper; distinct items have distinct encodings and no encoding is a proper prefix of another.", "quantifier": "all pairs of items", "why_tests_cant": "Injectivity and prefix-freeness are statements over all pairs.", "anchors": ["src/blockchain/ethereum/rlp/encoding.rs: encode_payload_length, encode_item"]}
{"id": "C36", "title": "RLP decoding never panics and respects buffer bounds", "statement": "Decoding any byte string as an RLP item, list or typed value returns a value or an error: no panic, no arithmetic overflow, no out-of-bounds slice, whatever the bytes and whatever the declared lengths.", "quantifier": "all byte strings", "why_tests_cant": "Adversarial length fields close to 2^64 are not in any test vector.", "anchors": ["src/blockchain/ethereum/rlp/decoding.rs: decode_data_header, decode_data, decode_list_payload", "src/blockchain/ethereum/rlp/decoder.rs"]}
{"id": "C37", "title": "RLP decoding accepts only canonical encodings", "statement": "If a byte string decodes to an item then the byte string is the encoding of that item (so signed or hashed data cannot be re-encoded differently).", "quantifier": "all byte strings", "why_tests_cant": "Non-canonical strings are an infinite adversarial family.", "anchors": ["src/blockchain/ethereum/rlp/decoding.rs: decode_data_header", "src/blockchain/ethereum/rlp/decoder.rs: u64, BigUint"]}
{"id": "C38", "title": "RLP scalars are minimal and round-trip", "statement": "Encoding a u64 or a BigUint uses the shortest big-endian form with no leading zero byte (empty for zero), and decodes back to the same number; Wei, ChainId, nonce, String and byte arrays round-trip too; a nonce of 2^64-1 is rejected.", "quantifier": "all 2^64 integers, all big integers, all strings", "why_tests_cant": "Every integer size class has its own header.", "anchors": ["src/blockchain/ethereum/rlp/encoder.rs", "src/blockchain/ethereum/rlp/decoder.rs", "src/blockchain/ethereum/types/"]}
{"id": "C39", "title": "Addresses and storage keys parse exactly and print checksummed", "statement": "Address / StorageKey construction accepts exactly the right number of bytes; parsing text requires the 0x prefix and 40 / 64 hex digits; printing an address produces the EIP-55 form, which parses back to the same address and is a fixed point of print-after-parse.", "quantifier": "all byte strings, all text strings, all addresses", "why_tests_cant": "2^160 addresses; case selection depends on a hash of the address.", "anchors": ["src/blockchain/ethereum/types/address.rs", "src/blockchain/ethereum/types/storage_key.rs"]}
{"id": "C40", "title": "Legacy transaction round trip", "statement": "Encoding any signed legacy transaction and decoding the bytes returns the same transaction.", "quantifier": "all field values", "why_tests_cant": "All nonces, amounts, data and signatures.", "anchors": ["src/blockchain/ethereum/transaction/types/transaction_legacy_rlp.rs"]}
{"id": "C41", "title": "EIP-155 transaction round trip", "statement": "Encoding any signed EIP-155 transaction and decoding the bytes returns the same transaction, in particular the same chain id.", "quantifier": "all field values and chain ids", "why_tests_cant": "All chain ids and parities; a wrong shift is invisible if tests only re-encode.", "anchors": ["src/blockchain/ethereum/transaction/types/transaction_eip_155_rlp.rs", "src/blockchain/ethereum/transaction/types/transaction_eip_155.rs"]}
{"id": "C42", "title": "EIP-2930 and EIP-1559 transaction round trip", "statement": "Encoding any signed typed transaction produces the type byte followed by an RLP list, and decoding the bytes after the type byte returns the same transaction, access list included.", "quantifier": "all field values, access lists of any length", "why_tests_cant": "Nested lists of arbitrary length.", "anchors": ["src/blockchain/ethereum/transaction/types/transaction_eip_2930_rlp.rs", "src/blockchain/ethereum/transaction/types/transaction_eip_1559_rlp.rs", "src/blockchain/ethereum/types/access_list_rlp.rs"]}
{"id": "C43", "title": "A signed transaction authenticates its sender", "statement": "Signing a payload with an account key hashes exactly the specified signing preimage; from the resulting v / y_parity, r and s the signer's public key is recovered by the documented procedure; v is 27/28 for legacy and 35/36 + 2*chain_id for EIP-155.", "quantifier": "all payloads, keys, random sources", "why_tests_cant": "All keys and payloads, plus the low-s parity flip.", "anchors": ["src/blockchain/ethereum/transaction/types/transaction_legacy.rs", "src/blockchain/ethereum/transaction/types/transaction_eip_155.rs", "src/blockchain/ethereum/transaction/types/transaction_eip_2930.rs", "src/blockchain/ethereum/transaction/types/transaction_eip_1559.rs"]}
{"id": "C44", "title": "Signing preimages are injective and domain separated", "statement": "Two payloads with the same signing preimage are the same payload of the same type with equal fields (so a signature for one chain, type or recipient is never a signature for another).", "quantifier": "all pairs of payloads across the four types", "why_tests_cant": "A statement over all pairs; replay protection depends on it.", "anchors": ["src/blockchain/ethereum/transaction/payload/legacy_rlp.rs", "src/blockchain/ethereum/transaction/payload/eip_155_rlp.rs", "src/blockchain/ethereum/transaction/payload/eip_2930_rlp.rs", "src/blockchain/ethereum/transaction/payload/eip_1559_rlp.rs"]}
{"id": "C45", "title": "The transaction builder is all-or-nothing", "statement": "take_and_build_* succeeds exactly when all mandatory fields of that type were set and then returns exactly the last values set, with empty data / access list defaults; otherwise it reports missing fields and leaves the builder unchanged, for every sequence of with_* and build calls.", "quantifier": "all sequences of builder calls", "why_tests_cant": "An invariant over histories of calls.", "anchors": ["src/blockchain/ethereum/transaction/builder.rs", "src/blockchain/ethereum/transaction/payload/"]}
{"id": "C46", "title": "Legacy and EIP-155 encodings are told apart by v", "statement": "Decoding as EIP-155 reports a type mismatch exactly for v < 35 on well-formed lists, so no encoded legacy transaction decodes as EIP-155 and vice versa.", "quantifier": "all encoded transactions", "why_tests_cant": "All v values and field contents.", "anchors": ["src/blockchain/ethereum/transaction/types/transaction_eip_155_rlp.rs", "src/blockchain/ethereum/transaction/types/transaction_legacy_rlp.rs"]}
{"id": "C47", "title": "Account addresses are derived as specified", "statement": "For every private key accepted, the account's address is the last 20 bytes of Keccak-256 of the 64-byte big-endian x||y of d*G, computed without panic.", "quantifier": "all 32-byte strings", "why_tests_cant": "All 2^256 keys, including points with short coordinates.", "anchors": ["src/blockchain/ethereum/account/eoa.rs", "src/crypto/elliptic_curve_params.rs: point_to_bytes"]}
{"id": "C48", "title": "SSZ round trip", "statement": "For every value of every supported SSZ type (booleans, uintN, vectors, lists, containers, arbitrarily nested) whose serialization fits in 32-bit offsets, decoding its encoding returns the value.", "quantifier": "all types of the type grammar, all values", "why_tests_cant": "Types nest arbitrarily; offsets depend on all preceding lengths.", "anchors": ["src/blockchain/ethereum/ssz/"]}
{"id": "C49", "title": "SSZ decoding never panics", "statement": "Decoding any byte string as any supported SSZ type returns a value or an error, never a panic.", "quantifier": "all types, all byte strings", "why_tests_cant": "Adversarial and truncated inputs.", "anchors": ["src/blockchain/ethereum/ssz/list_types.rs", "src/blockchain/ethereum/ssz/array_types.rs", "src/blockchain/ethereum/ssz/container_types.rs"]}
{"id": "C50", "title": "SSZ serialization follows the specification layout", "statement": "The encoder output equals the SSZ specification's serialize function: fixed parts (or 4-byte little-endian offsets) followed by the variable parts in order; fixed-size types always serialize to their declared size.", "quantifier": "all types, all values", "why_tests_cant": "Arbitrary nesting and counts.", "anchors": ["src/blockchain/ethereum/ssz/encoder.rs", "src/blockchain/ethereum/ssz/array_types.rs", "src/blockchain/ethereum/ssz/container_types.rs"]}
{"id": "C51", "title": "SSZ decoding accepts only canonical encodings", "statement": "If a byte string decodes to a value then it is that value's encoding.", "quantifier": "all types, all byte strings", "why_tests_cant": "Offsets with gaps, overlaps and trailing bytes are an adversarial family.", "anchors": ["src/blockchain/ethereum/ssz/array_types.rs", "src/blockchain/ethereum/ssz/container_types.rs"]}
{"id": "C52", "title": "OS randomness fills the whole buffer or fails", "statement": "get_os_random_bytes returns Ok only if every byte of the destination was written by the OS source, for any buffer length and any sequence of OS replies; otherwise it returns an error.", "quantifier": "all buffer lengths, all OS behaviours", "why_tests_cant": "The OS can return short reads or errors at any call.", "anchors": ["src/random/linux.rs", "src/os/linux.rs", "src/random/os_random.rs"]}
{"id": "C53", "title": "The secp256k1 parameters are what they must be", "statement": "The built-in curve has a prime field order and a prime base-point order, is non-singular, the base point lies on it and n*G is the identity while G is not; no point of the curve has y = 0.", "quantifier": "a statement about 256-bit constants: divisors up to 2^128 and all points", "why_tests_cant": "Primality and group order of 256-bit numbers cannot be established by testing.", "anchors": ["src/crypto/secp256k1.rs"]}
{"id": "C54", "title": "Recovery ids and parities convert exactly", "statement": "Recovery id and y-parity conversions from u8 accept exactly 0..=3 and 0..=1, invert the u8 projections, and the id's parity bit is its y-parity.", "quantifier": "all u8 values", "why_tests_cant": "Small domain, but the composition with v arithmetic ranges over all chain ids.", "anchors": ["src/crypto/ecdsa/ecdsa_core.rs: SignatureRecoveryId, YParity"]}
{"id": "C55", "title": "Encoding objects can be reused after taking data", "statement": "After take_data an encoding item is empty, so the next encoding is unaffected by previous ones, for every sequence of encode/take calls.", "quantifier": "all histories of encode / take_data calls", "why_tests_cant": "A statement over histories.", "anchors": ["src/tools/codable/core.rs", "src/blockchain/ethereum/ssz/encoder.rs: take_data", "src/blockchain/ethereum/rlp/encoder.rs"]}
{"id": "C56", "title": "Decoding a transaction never panics", "statement": "For every byte string, decoding it as a legacy, EIP-155, EIP-2930 or EIP-1559 transaction returns a transaction or an error, in debug and in release builds, and terminates.", "quantifier": "all byte strings, both builds, all four decoders", "why_tests_cant": "Malformed input is adversarial; the byte strings that trigger an overflow or an assertion are a vanishing fraction.", "anchors": ["src/blockchain/ethereum/transaction/types/: decode_from", "src/blockchain/ethereum/types/access_list_rlp.rs: decode_from", "src/blockchain/ethereum/rlp/decoder.rs"]}
{"id": "C57", "title": "A transaction decoder accepts exactly the lists with fields of the right kinds", "statement": "Each decoder accepts a byte string exactly if it is an RLP list of the right number of items, of which each is a byte string (or access list) of the kind of the field in its place, and the transaction returned has the values that the items denote.", "quantifier": "all byte strings, all field values", "why_tests_cant": "Both directions quantify over all byte strings.", "anchors": ["src/blockchain/ethereum/transaction/types/: decode_from", "src/blockchain/ethereum/types/access_list_rlp.rs", "src/blockchain/ethereum/types/eoa_nonce_rlp.rs"]}
{"id": "C58", "title": "Text forms of numbers parse exactly and round-trip", "statement": "Wei, chain ids and unsigned big integers parse from 0x-hex and from decimal text exactly when the text is such a numeral of a non-negative number, the value is the number written, and printing and parsing are inverse; the named chains have their registered ids; a nonce is admitted exactly below 2^64 - 1.", "quantifier": "all texts, all values", "why_tests_cant": "Texts and values are unbounded.", "anchors": ["src/blockchain/ethereum/types/currency_unit.rs", "src/blockchain/ethereum/types/chain_id.rs", "src/blockchain/ethereum/types/eoa_nonce.rs", "src/bigint/biguint.rs"]}
{"id": "C59", "title": "A transaction has one encoding", "statement": "A byte string that a transaction decoder accepts is the byte string that encoding the decoded transaction produces, so two different byte strings never decode to the same transaction.", "quantifier": "all byte strings, all four decoders", "why_tests_cant": "A statement about all byte strings (malleability).", "anchors": ["src/blockchain/ethereum/transaction/types/", "src/blockchain/ethereum/rlp/decoding.rs", "src/blockchain/ethereum/rlp/decoder.rs"]}
{"id": "C60", "title": "The printed form of a transaction shows every field and determines the transaction", "statement": "Printing a transaction of any of the four kinds never panics; it gives a title naming the kind, one line for each field of the payload with its value, and the signature. Two transactions that differ in kind, in any field or in the signature are printed differently.", "quantifier": "all transactions of the four kinds", "why_tests_cant": "Injectivity is a statement about all pairs of transactions with unbounded fields.", "anchors": ["src/blockchain/ethereum/transaction/types/: Display", "src/blockchain/ethereum/transaction/payload/: Display", "src/blockchain/ethereum/types/access_list.rs: Display"]}
{"id": "C61", "title": "The transaction decoder program prints the transaction that its argument encodes", "statement": "Given the hex digits of an encoded transaction of any of the four kinds, in either case and with or without 0x, the program prints the text of that transaction, with every field as the signer set it; given anything else it prints nothing and fails. It always ends.", "quantifier": "all arguments, all transactions", "why_tests_cant": "Arguments are arbitrary texts, and the kind of transaction has to be told from the bytes alone.", "anchors": ["examples/ethereum/tx_decoder.rs: main"]}
{"id": "C62", "title": "A transaction survives the way from the signer to the receiver", "statement": "When a payload is signed and encoded, the bytes stand for exactly one transaction: the payload that was signed together with a signature of it by the signer. A receiver who decodes them and encodes the decoded payload for signing obtains the data that were signed, and recovers the signer's public key.", "quantifier": "all payloads of the four kinds, all keys, all options, all random data", "why_tests_cant": "A statement about compositions for all keys and payloads; no test can exclude a second reading of the bytes.", "anchors": ["src/blockchain/ethereum/transaction/payload/: sign", "src/blockchain/ethereum/transaction/types/", "src/crypto/ecdsa/ecdsa_public_key_recovery.rs"]}
{"id": "C63", "title": "The key program prints the address of the key", "statement": "Given 64 hex digits of a number d strictly between 0 and the order of the group, in either case and with or without 0x, the program prints the address of d*G with its checksum; for every other argument, and without one, it fails and prints nothing.", "quantifier": "all arguments", "why_tests_cant": "2^256 keys.", "anchors": ["examples/ethereum/eoa_key_to_address.rs: main"]}
{"id": "C64", "title": "The RLP decoder program shows the item and reports malformed input", "statement": "Given the hex digits of a nested RLP item the program prints its JSON form, which determines the item; given other hex digits it says that the format is invalid, given anything else which defect the hex text has. It always ends, and it does not panic on any argument.", "quantifier": "all arguments, nesting of any depth", "why_tests_cant": "Adversarial arguments; nesting is unbounded.", "anchors": ["examples/ethereum/rlp_decoder.rs: main, decode_from, to_string_pretty"]}
{"id": "C65", "title": "The address search finds the first key that fits and prints it", "statement": "For every prefix of up to 39 hex digits the search goes on until the first key from the operating system whose checksummed address begins with the prefix, and prints that address and that key; other arguments are rejected.", "quantifier": "all prefixes, all sequences of keys, all clock readings", "why_tests_cant": "The key sequence is random and the search unbounded.", "anchors": ["examples/ethereum/eoa_gen_vanity_address.rs: main"]}
{"id": "C66", "title": "The random bytes program prints exactly the bytes of the operating system", "statement": "Given a decimal numeral below 2^32 the program prints the hex digits of exactly that many bytes as the operating system wrote them, or the error of the first call that failed; for other arguments it fails.", "quantifier": "all arguments, all behaviours of the operating system", "why_tests_cant": "The replies of the operating system are arbitrary.", "anchors": ["examples/randombytes.rs: main", "src/random/error.rs: Display"]}
{"id": "C67", "title": "The shared curve constants are safe to use from any number of threads", "statement": "However many threads ask for the curve parameters, at whatever moments, no call panics or touches the shared variable while another thread writes to it; the parameters are built at most once, every call gives the same ones, a reference that was given out stays good, and no thread that keeps running waits for ever.", "quantifier": "all numbers of threads, all schedules, any number of calls", "why_tests_cant": "Schedules: a test runs a few interleavings of a few threads.", "anchors": ["src/crypto/secp256k1.rs: secp256k1, SECP256K1, INIT"]}
{"id": "C68", "title": "Debug and release builds give the same results", "statement": "For every function of the library and every argument, a debug build panics or gives exactly what a release build gives, the same value or the same error. What was tested in a debug build without panicking behaves the same when it is shipped.", "quantifier": "all functions of the interface, all arguments, all states of the objects, all replies of the operating system", "why_tests_cant": "Tests run in one profile; overflow checks and debug assertions could hide a difference on any input.", "anchors": ["src/bigint", "src/math", "src/crypto", "src/blockchain/ethereum", "examples"]}
{"id": "C69", "title": "A signature is accepted for few keys, few hashes and one form only", "statement": "With low-s enforced, a public key accepts a hash for one s per r, so that nobody can turn an accepted signature into another with the same r (on the built-in curve, unless r < p - n, when there are at most two). A public key accepts a signature for at most two hashes, and at most two public keys accept a signature for a hash (four if r < p - n). The second hash exists for every accepted signature: -(e + 2rd) modulo the order.", "quantifier": "all curves with p <= 2n, all keys, hashes, signatures and options", "why_tests_cant": "It is a statement about all signatures, hashes and keys, of which there are 2^256; a test tries a few alterations.", "anchors": ["src/crypto/ecdsa/ecdsa_verifying.rs: verify_with_options", "src/crypto/ecdsa/ecdsa_core.rs: Signature::new, is_low_s_signature"]}
{"id": "C70", "title": "Results do not depend on the digit size", "statement": "A build with 8-bit digits and a build with 64-bit digits give the same results: given the same integers, keys, signatures, transactions, bytes or texts, every function returns the same value, the same bytes and text, or the same error, or panics in both builds, or runs for ever in both.", "quantifier": "all functions of the interface, all arguments, any two digit widths that are whole numbers of bytes", "why_tests_cant": "The tests of the algorithms run with small digits and the shipped library has large ones; what was tested with one is only known to hold for the other if the two agree on every input.", "anchors": ["src/bigint/digit.rs: Digit, u8_digit", "src/bigint", "src/math", "src/crypto", "src/blockchain/ethereum", "examples"]}
{"id": "C71", "title": "What a message means does not depend on the pointer width of the target", "statement": "A byte string is accepted as an RLP item, list or nested structure on 32-bit targets exactly if it is on 64-bit targets, with the same payloads, and neither panics where the other reports an error.", "quantifier": "all byte strings, nesting of any depth, debug and release builds, all pairs of pointer widths", "why_tests_cant": "Tests run on one target; the inputs on which targets could differ declare lengths of 4 GiB.", "anchors": ["src/blockchain/ethereum/rlp/decoding.rs: decode_data_header, decode_data, decode_list_payload", "src/blockchain/ethereum/rlp/decoder.rs"]}
{"id": "C72", "title": "The conversion between bytes and hex digits is constant time", "statement": "What an observer of branches, memory accesses, loop rounds and allocations sees of the conversion of bytes to hex digits, or of hex digits to bytes, depends on the length of the argument only; so a key that is written or read in hex is not given away.", "quantifier": "all byte strings, all texts, debug and release builds", "why_tests_cant": "Two runs must look the same for every pair of secrets; tests compare results, not traces, and time only a few inputs.", "anchors": ["src/crypto/codecs.rs: bytes_to_lower_hex, hex_to_bytes", "README.md: Constant time"]}
{"id": "C73", "title": "What a decoder returns is no larger than the data", "statement": "The value returned by RLP or Simple Serialize decoding has an encoding that is no longer than the data it was decoded from; a short message cannot make the program build a large value.", "quantifier": "all byte strings, all Simple Serialize types, nesting of any depth, debug and release builds", "why_tests_cant": "The message that multiplies its own bytes is one nobody wrote a test for; the bound must hold for all of them.", "anchors": ["src/blockchain/ethereum/rlp/decoding.rs: decode_data, decode_list_payload", "examples/ethereum/rlp_decoder.rs", "src/blockchain/ethereum/ssz/array_types.rs", "src/blockchain/ethereum/ssz/container_types.rs", "src/blockchain/ethereum/ssz/list_types.rs"]}
{"id": "C74", "title": "Equal digests show a collision in the core of the hash function", "statement": "If two different messages have the same digest, then hashing them has run into a collision of the primitive: for SHA-2 two different inputs of the compression function with the same output, for SHA-3 and Keccak-256 two different final states that agree in the output, or two different lists of blocks after which the states agree in the capacity. Padding, splitting into blocks and chaining add no collisions of their own, and the Keccak permutation loses nothing.", "quantifier": "all pairs of messages of any lengths, all eight hash functions, all states of the hasher objects", "why_tests_cant": "It is about all pairs of messages; nobody can write down a collision to test with.", "anchors": ["src/crypto/hash/sha2/core.rs", "src/crypto/hash/sha2/sha256.rs", "src/crypto/hash/sha2/sha384_512.rs", "src/crypto/hash/sha3/core.rs: sha3_digest, sha3_keccakf"]}
{"id": "C75", "title": "Different private keys have different public keys and addresses", "statement": "Two private keys in range have the same public key only if they are equal, and public keys with the same abscissa only if they are equal or add up to the order. The text forms of different public keys differ. If two different account keys have the same address, hashing their public keys with Keccak-256 ends in different states of which the 160 output bits agree.", "quantifier": "all pairs of private keys, all valid curves (addresses: the built-in curve), compressed and uncompressed forms", "why_tests_cant": "It is a statement about all pairs of 2^256 keys.", "anchors": ["src/crypto/ecdsa/ecdsa_key.rs: PrivateKey::public_key", "src/crypto/ecdsa/ecdsa_encoding.rs: to_sec1_hex", "src/blockchain/ethereum/account/eoa.rs: EoaPrivateKey, EoaPublicKey::address"]}
{"id": "C76", "title": "Signatures with the same r give the private key away", "statement": "If a public key accepts signatures of two different hashes that have the same r, the private key is one of two numbers that anybody can compute from the signatures and the hashes; and who knows the nonce of one signature can compute the key from it. So the nonce must be different for each hash and must stay secret.", "quantifier": "all keys, hashes and pairs of signatures (r at least p - n), all valid curves with p <= 2n; all nonces", "why_tests_cant": "It is a statement about all pairs of accepted signatures, and about keys nobody may test with.", "anchors": ["src/crypto/ecdsa/ecdsa_verifying.rs: verify_with_options", "src/crypto/ecdsa/ecdsa_core.rs: PrivateKey::sign"]}
{"id": "C77", "title": "Nonces are not used twice, unless the hash function collides", "statement": "If the nonce generator gives the same nonce for two different inputs (private key, hash modulo the order, additional data), then among the messages hashed on the way to the two nonces there are two different ones with the same hash. So two signatures made with one key for different hashes have the same r only if such a collision has happened or their nonces add up to the order.", "quantifier": "all keys, hashes, options and random bytes, all hash functions with as many bits as the order, any number of rejected candidates", "why_tests_cant": "It is about all pairs of 2^512 inputs and any number of rejected candidates; a repetition would be found by no test, but reveals the key.", "anchors": ["src/crypto/rfc6979.rs: generate_nonce", "src/crypto/ecdsa/ecdsa_signing.rs: sign_with_options", "src/crypto/hash/hmac.rs: hmac"]}
{"id": "C78", "title": "An error message tells which error occurred", "statement": "Within each error type, different errors have different messages, and the message of an error that was caused by another contains that one's message; the code that the operating system gave for a failure to provide random bytes can be read off the message of the error that signing or building a transaction returns.", "quantifier": "all errors of the library's error types, all codes of the operating system", "why_tests_cant": "The codes of the operating system are arbitrary 32-bit numbers, and the causes nest.", "anchors": ["src/random/error.rs: Display", "src/crypto/rfc6979.rs: Display", "src/crypto/ecdsa/ecdsa_signing.rs: Display", "src/crypto/ecdsa/ecdsa_verifying.rs: Display", "src/crypto/ecdsa/ecdsa_public_key_recovery.rs: Display", "src/blockchain/ethereum/transaction/builder.rs: Display"]}
{"id": "C79", "title": "A signature belongs to one transaction", "statement": "If one signature, with one recovery id, gives the same public key for two hashes, the hashes are equal modulo the order. So if a signature taken from one transaction and put into a different one, of any kind, shows the same sender, then Keccak-256 has collided on the two signed messages or on two public keys, or the two hashes differ by exactly the order of the curve.", "quantifier": "all valid curves with cofactor 1 and p <= 2n, all signatures, hashes and recovery ids; all pairs of different transactions of the four kinds", "why_tests_cant": "It is a statement about every alteration of every signed transaction.", "anchors": ["src/crypto/ecdsa/ecdsa_public_key_recovery.rs: recover_public_keys_from_signature_with_options", "src/blockchain/ethereum/transaction", "src/blockchain/ethereum/account/eoa.rs: EoaPublicKey::address"]}
{"id": "C80", "title": "No number makes the arithmetic run long", "statement": "The extended gcd (and so the modular inverse) takes a number of rounds linear in the bits of its arguments, modular exponentiation one round more than the bits of the exponent, and the modular square root tries at most as many candidates for a non-residue as the integer square root of the prime; modulo the prime of secp256k1 it tries at most two. So no choice of numbers, keys or signatures makes a call take long.", "quantifier": "all numbers, digit widths and both build modes; all odd primes", "why_tests_cant": "The slow inputs, if there were any, would be rare among 2^512; a timing test samples a few.", "anchors": ["src/bigint/gcd.rs: gcd", "src/math/modular.rs: pow", "src/math/modular.rs: sqrt", "src/math/modular.rs: invert"]}
{"id": "C81", "title": "Hashes do not depend on the byte order of the target", "statement": "Built for a little-endian or for a big-endian processor, Keccak-256 and the four SHA-3 functions give the digests of FIPS 202 for every message, whatever the object hashed before; the two builds give the same bytes, or both panic.", "quantifier": "all messages, both byte orders, all states of the object, both build modes", "why_tests_cant": "The tests run on one machine, and the code for the other byte order is not even compiled there.", "anchors": ["src/crypto/hash/sha3/core.rs: sha3_digest", "src/crypto/hash/sha3/core.rs: sha3_keccakf"]}
{"id": "C82", "title": "The unchecked conversions are used within their contracts", "statement": "The text that the hex encoder returns without checking it is UTF-8, whatever bytes it was given; the text of an address always passes the check that is made; the state of a hash function reinterpreted as bytes, or back, has the right length and is unchanged, on targets of both byte orders.", "quantifier": "all byte strings, addresses and states, both byte orders", "why_tests_cant": "A violation would be undefined behaviour, which a test may not notice, and on a single input out of all byte strings.", "anchors": ["src/crypto/codecs.rs: bytes_to_lower_hex", "src/crypto/hash/sha3/core.rs: sha3_digest", "src/blockchain/ethereum/types/address.rs: to_checksummed_hex"]}
{"id": "C83", "title": "Results do not depend on what memory held before", "statement": "The long arithmetic works in output buffers and scratch memory that its steps use again and again. Sums, differences, products, quotients, remainders and greatest common divisors, the final contents of the buffers and the panics are the same whatever that memory held when the call began.", "quantifier": "all numbers, all contents of the buffers and of the scratch memory, all digit widths and both build modes", "why_tests_cant": "Old contents show only if a step leaves a place unwritten, which depends on carries and on the lengths of intermediate results; a fresh array is zero.", "anchors": ["src/bigint/add.rs: add_digits", "src/bigint/sub.rs: sub_digits", "src/bigint/mul.rs: mul_digits", "src/bigint/divrem.rs: div_rem_digits", "src/bigint/gcd.rs: gcd_digits"]}
{"id": "C84", "title": "Values that compare equal are interchangeable", "statement": "A number can be held in different ways (spare storage, a signed zero). The equality test on numbers, points, curves, curve parameters and public keys always answers, is an equivalence relation, and is true exactly for values that stand for the same thing. No operation tells equal values apart: arithmetic, modular arithmetic and the group law give equal results; keys and signatures made from equal parts are accepted alike, sign, verify, recover, encode and print alike, with the same errors. The one exception is the left shift of zero by whole digits (C04).", "quantifier": "all values of these types with well-formed numbers, however they are held; all hashes, options, random bytes, digit widths and both build modes", "why_tests_cant": "Spare storage and negative zeros arise only from particular histories of operations; tests compare freshly parsed values.", "anchors": ["src/bigint/cmp.rs: PartialEq for BigInt", "src/math/elliptic_curve.rs: Curve, Point", "src/crypto/elliptic_curve_params.rs: EllipticCurveParams", "src/crypto/ecdsa/ecdsa_key.rs: PublicKey"]}
{"id": "C85", "title": "An authentication code belongs to one key and one message", "statement": "Two calls of HMAC that return the same code were made with the same message and, for keys of one length up to a block, with the same key, unless the hash function itself collides on two of the messages that the calls hashed. Keys of other lengths are told apart only as far as RFC 2104 does: a long key counts as its hash and zeros at the end do not count, and such keys give the same code for every message.", "quantifier": "all keys and messages, all states of the hash object, both build modes, every hash function of the library", "why_tests_cant": "It is a statement about every pair of calls; a construction that, say, ignored a key byte or joined key and message ambiguously would pass the test vectors it was made for.", "anchors": ["src/crypto/hash/hmac.rs: hmac", "src/crypto/hash/core.rs: UnkeyedHash"]}
{"id": "C86", "title": "The crate's random tests pass whatever they draw", "statement": "Each random (quickcheck) test in the source asserts a property of the API for arbitrary inputs. For every input that its generator can draw, in both builds and with both digit sizes, the test returns true and does not panic: byte lengths, hex and radix conversions, division against multiplication, conversion from machine integers, the three gcd implementations, both shifts, SHA-2 against another implementation, the hex codec, signing and verifying, point encoding, and the RLP decoders.", "quantifier": "all texts, byte strings and shift amounts that the generators of the tests can produce, without bound on their length; digit widths, both build modes", "why_tests_cant": "The tests draw a hundred small samples per run; the inputs that break them (a zero shifted by a whole number of digits, an RLP header declaring a length near 2^64, a key whose public point has a coordinate beyond the order) are practically never drawn.", "anchors": ["src/testing_tools/quickcheck.rs: HexString, BigIntHexString", "src/bigint/shift.rs: tests", "src/bigint/gcd.rs: tests", "src/crypto/ecdsa/ecdsa_core.rs: tests", "src/crypto/sec1.rs: tests", "src/blockchain/ethereum/rlp/decoding.rs: tests"]}
{"id": "C87", "title": "Every program that uses BigInt computes with the integers", "statement": "A program makes calls on big integers one after another: it constructs, parses, adds, subtracts, multiplies, divides, negates, shifts, compares, measures and prints, and what it calls next may depend on everything it has seen so far. It sees exactly the replies it would see if the numbers were mathematical integers, however long it runs, with either digit size and in either build; it panics exactly if the integers would be divided by zero.", "quantifier": "all programs, that is all functions from the replies so far to the next call, all numbers of calls, digit widths and both build modes", "why_tests_cant": "Tests try single operations on fresh values; a number that carries spare storage or a negative zero from earlier operations can change the outcome of a much later call, and the histories that lead there are unbounded.", "anchors": ["src/bigint/bigint_core.rs: BigInt", "src/bigint/divrem.rs: Div, Rem", "src/bigint/bigint_display.rs: Display", "src/bigint/shift.rs: Shl, Shr", "src/bigint/cmp.rs: Ord for BigInt"]}
{"id": "C88", "title": "Every program that uses keys and signatures computes ECDSA", "statement": "A program makes calls one after another on numbers, private keys, public keys and signatures: it constructs them, takes public keys, signs, verifies, recovers keys, compares them, and writes and reads both kinds in their text forms; what it calls next may depend on everything it has seen so far. Every reply it sees is one that textbook ECDSA on the curve gives, with the nonces of RFC 6979 and the random bytes that the operating system delivered, including which error is reported; what it holds stands at all times for the numbers, points and pairs of the textbook; it never panics except where numbers would be divided by zero; and it gets a reply to every call that the textbook answers.", "quantifier": "all programs, that is all functions from the replies so far to the next call, all numbers of calls, all random bytes or failures of the operating system during each call, curves of prime order (with a whole number of bytes), hash functions, digit widths and both build modes", "why_tests_cant": "Tests call signing, verification, encoding and recovery on a few fresh keys; the objects a long program holds come from unbounded histories (parsed, recovered, computed, compared), and any of them can be passed to any later call.", "anchors": ["src/crypto/ecdsa/ecdsa_signing.rs: sign_with_options", "src/crypto/ecdsa/ecdsa_verifying.rs: verify_with_options", "src/crypto/ecdsa/ecdsa_public_key_recovery.rs: recover_public_keys_from_signature_with_options", "src/crypto/ecdsa/ecdsa_key.rs: PrivateKey, PublicKey", "src/crypto/ecdsa/ecdsa_core.rs: Signature", "src/crypto/sec1.rs: decode_point", "src/crypto/p1363.rs"]}
{"id": "C89", "title": "Types that users compose round-trip through RLP", "statement": "A user builds types for RLP from the scalar types of the library, vectors, and records whose fields are encoded in order, nested to any depth. The encoding of a value is the RLP of the item that stands for it; decoding it returns the same value; no encoding is the beginning of the encoding of another value of the type; and arbitrary bytes decode to a value exactly if they are an encoding (under the grammar the decoder accepts) of an item with fields of the right kinds in the right number, at every depth.", "quantifier": "all types composed from numbers, big numbers, strings, byte strings, addresses, storage keys, vectors and records, all values whose encoding is shorter than 2^64 bytes, all byte strings, both build modes", "why_tests_cant": "Tests cover a few fixed types; the number of types that users can compose is infinite, and so is the depth of nesting.", "anchors": ["src/blockchain/ethereum/rlp/encoder.rs", "src/blockchain/ethereum/rlp/decoder.rs", "src/blockchain/ethereum/types/access_list_rlp.rs", "src/tools/codable/core.rs: Encodable, Decodable"]}
{"id": "C90", "title": "Every wallet program sees what the Ethereum standards answer", "statement": "A wallet makes calls one after another: it makes private keys from bytes, derives and prints addresses, fills in transactions field by field from numbers and texts in any order, builds payloads of the four kinds from them, signs, encodes, decodes and prints transactions, and uses the calls on keys and signatures; what it calls next may depend on everything it has seen so far. Every reply it sees is the one the standards give: the address of the public key with its checksum, the bytes of the signed transaction with the signature of the payload's hash, refusal of incomplete transactions, of nonces beyond EIP-2681 and of malformed texts and bytes; what it holds stands at all times for the transactions of the standards; it never panics and gets a reply to every call.", "quantifier": "all programs, that is all functions from the replies so far to the next call, all numbers of calls, all random bytes or failures of the operating system during each call, digit widths and both build modes", "why_tests_cant": "Tests build a handful of transactions with fresh builders; a wallet reuses builders after taking payloads from them, sets fields again, mixes kinds and signs what it has decoded keys for, in unboundedly many orders.", "anchors": ["src/blockchain/ethereum/transaction/builder.rs: TransactionBuilder", "src/blockchain/ethereum/transaction/types/transaction_eip_155.rs: take_and_sign_with_options", "src/blockchain/ethereum/types/address.rs: Address", "src/blockchain/ethereum/types/currency_unit.rs: Wei", "src/crypto/ecdsa/ecdsa_signing.rs: sign_with_options"]}
{"id": "C91", "title": "Curves that users supply give textbook ECDSA", "statement": "A user passes the domain parameters of a standard curve, as the test suite does with P-256 (with the coefficient written as -3 or as a residue), P-224, P-384, P-521, the Brainpool curves of 256, 320, 384 and 512 bits, and Curve25519 in short Weierstrass form. The parameters are those of the standard and are valid (prime field, prime order of the base point, the stated cofactor), so every program over keys and signatures on that curve, with any hash function of the library, sees what textbook ECDSA with RFC 6979 nonces answers; in particular the library makes and accepts the signatures that RFC 6979 prints for P-256. It never panics, whatever points, texts and signatures it is given.", "quantifier": "all programs, that is all functions from the replies so far to the next call, all numbers of calls, hash functions, random bytes or failures of the operating system, digit widths and both build modes; for Curve25519 all keys, hashes, texts and signatures", "why_tests_cant": "Tests check a few vectors per curve; whether the number of points is what the parameters say, and whether some point or text of the curve reaches a division by zero, is a statement about all of the roughly 2^256 points.", "anchors": ["tests/crypto/curves.rs: nist_p256, secp224r1, secp256r1, secp384r1, secp521r1, brainpool_p256r1, brainpool_p320r1, brainpool_p384r1, brainpool_p512r1, w25519", "tests/crypto/ecdsa_p256_signing_verifying.rs", "tests/crypto/secp256k1_public_key_recovery.rs: test_curve_w25519", "src/crypto/elliptic_curve_params.rs: EllipticCurveParams"]}
{"id": "C92", "title": "A run over published vectors passes exactly if the library and the vectors agree with the standard", "statement": "A user runs the library over a file of published vectors, as the test suite does with the Wycheproof files for ECDSA and HMAC and with the known answers for SHA-3: public keys, messages, signatures, tags and digests as hex texts with the label that the file gives them. The run passes exactly if every label is the one that the standard gives (textbook ECDSA accepts the signature or does not, the tag is the beginning of the HMAC or is not, the digest is that of the message), and fails by an assertion otherwise; entries that are not whole bytes and lines between entries are passed over, and a file with too few entries fails. No order of vectors, repetition or malformed signature text makes the run stop early, pass or fail for another reason.", "quantifier": "all domain parameters, hash functions, files (numbers of groups and vectors, labels, texts of signatures and tags), states in which earlier vectors left the hasher, digit widths and both build modes", "why_tests_cant": "The files contain some thousand vectors; that a pass means agreement for whatever is in the file, and that a failure is never a fault of the library, cannot be seen from passing runs.", "anchors": ["tests/crypto/ecdsa_verifying_wycheproof.rs: test_ecdsa_wycheproof_p1363", "tests/crypto/hmac_wycheproof.rs: test_hmac_wycheproof_core", "tests/crypto/sha3_short_msg_kat.rs: test_sha3_short_msg_kat_core"]}
{"id": "C93", "title": "The random inputs of tests and benchmarks are the ones meant, and benchmarks do not fail", "statement": "The generators that the random tests use always draw a text, and the texts that they can draw are exactly the non-empty ones of an even number of hex digits (with a sign, for integers) up to the size of the generator: no digit, length or sign is out of reach, and nothing else is drawn. The development tools' random text of n digits is any text of n lower-case hex digits, and padding a hex text keeps its prefix and its number and makes it readable as bytes. The benchmarks, which compute with random numbers, run through whatever is drawn.", "quantifier": "all sequences of draws, all sizes of generators, all hex texts with and without prefix, all keys, hashes, dividends and divisors that a benchmark can draw, digit widths and both build modes", "why_tests_cant": "A run of the tests sees a hundred draws; whether some text is never drawn, so that the properties are not tested on it, or some draw makes a benchmark panic, concerns all of them.", "anchors": ["src/testing_tools/quickcheck.rs: HexString, BigIntHexString", "crates/devtools/src/hex.rs: random_hex, byte_aligned_hex", "benches/bigint/divrem.rs: div_rem_bench_bits", "benches/crypto/ecdsa.rs: public_key_from_private", "benches/crypto/secp256k1.rs: secp256k1_signing_and_verifying"]}
{"id": "C94", "title": "A run over published transactions passes exactly if every transaction is the one that the standards prescribe", "statement": "A user runs the library over a file of published Ethereum transactions, as the test suite does for legacy transactions, EIP-155 (chain id 5), EIP-2930 and EIP-1559: the fields and the private key as texts, and the text of the signed transaction. The run passes exactly if, for every entry that counts, the texts are readable and the signed transaction is the one with the signature of RFC 6979 (SHA-256, low s) and the recovery parity over the Keccak-256 hash of the payload, written as RLP in lower-case hex digits, and there are enough such entries; it fails by an assertion otherwise. Entries that lack a field, are of another type or have a gas limit beyond 64 bits do not count. (Amounts in a file are not negative, and transactions are shorter than 2^64 bytes.)", "quantifier": "all files (numbers of entries, present and missing fields, texts of any length, access lists of any shape, keys, types), chain ids, thresholds, digit widths and both build modes, on the assumption that the first nonce of RFC 6979 gives a signature", "why_tests_cant": "The files contain some thousand transactions; that a pass means agreement with the standards for whatever is in the file, and that a malformed or odd text can neither make a wrong entry pass nor a right one fail, concerns all texts.", "anchors": ["tests/blockchain/ethereum/transaction_signing_ethers_js.rs: test_signing_transaction_legacy, test_signing_transaction_eip_155_with_chain_id_5, test_signing_transaction_eip_2930, test_signing_transaction_eip_1559, json_object_to_access_list", "src/blockchain/ethereum/transaction/builder.rs: TransactionBuilder", "crates/devtools/src/hex.rs: byte_aligned_hex"]}
{"id": "C95", "title": "A run over published keys, points and addresses passes exactly if every entry is right", "statement": "A user runs the library over files of published test entries for secp256k1, as the test suite does: numbers that are private keys or not, sums and negations of private keys, private keys with the abscissa of the public key, texts that are points or not, private keys with the text of the public key, points in one form with the text in the other, Ethereum private keys with checksummed addresses, and signatures that must be refused. The run passes exactly if every entry is readable and right by elementary arithmetic modulo the order, the group law, SEC 1 and EIP-55; it fails by an assertion otherwise. (Points with a coordinate that is zero or not below the order always fail, see C19. Negation is meant for numbers between zero and the order. The run over signatures to be refused demands an error, not the answer false: it passes for keys, signatures and hashes that are not ones, and fails for a signature that is merely wrong.)", "quantifier": "all files (numbers of entries, texts of any length and content, flags), all valid domain parameters with odd cofactor and an order below 2^256 (for addresses secp256k1), digit widths and both build modes", "why_tests_cant": "The files contain some hundred entries; that a pass means that whatever is in the file is right, and that an odd text can neither make a wrong entry pass nor a right one fail, concerns all texts.", "anchors": ["tests/crypto/secp256k1_key.rs", "tests/crypto/secp256k1_sec1.rs", "tests/crypto/secp256k1_signing_verifying.rs: test_invalid_verifying", "tests/blockchain/ethereum/eoa_private_key_to_address.rs", "src/crypto/ecdsa/ecdsa_key.rs: PrivateKey", "src/crypto/ecdsa/ecdsa_key.rs: PublicKey"]}
{"id": "C96", "title": "A run that signs published hashes or recovers the keys passes exactly if the entries are right", "statement": "A user runs the library over files of published entries, as the test suite does: private keys and hashes with the signature, numbers and hashes that must be refused, and private keys and hashes for which the public key is recovered from the signature. The first run passes exactly if every entry consists of a private key, a hash that is not refused, and the signature that RFC 6979 prescribes with SHA-256 (with s in the lower half if the options say so), as text in the form of P1363. The second passes exactly if every number is not between zero and the order or the hash is empty, zero or not as long as the order. The third passes exactly if every hash is zero, or can be signed with the key, and some other public key accepts the signature, too (there is one unless r times the key plus twice the hash is a multiple of the order). Each fails by an assertion otherwise. The fourth run draws a private key of twelve bytes and a message on each of the curves that the test suite supplies (P-256, P-384, P-521, secp224r1, Brainpool, Curve25519): it passes exactly if the key is not zero and the leading bits of the hash are not all zero (on Curve25519 if, besides, recovery from this signature does not panic, see C91).", "quantifier": "all files (numbers of entries, texts of any length and content), all draws, all valid domain parameters (for the third run with cofactor one), options without extra random data, digit widths and both build modes, on the assumption that the first nonce of RFC 6979 gives a signature", "why_tests_cant": "The files contain some thousand entries; that a pass means that whatever is in the file is right, and that the test of recovery demands nothing that a right implementation may lack, concerns all keys and hashes.", "anchors": ["tests/crypto/secp256k1_signing_verifying.rs: test_ecdsa_secp256k1_signing_cases, test_valid_signing, test_invalid_signing", "tests/crypto/secp256k1_public_key_recovery.rs: test_recovery, test_recovery_with_curve", "src/crypto/ecdsa/ecdsa_signing.rs", "src/crypto/ecdsa/ecdsa_public_key_recovery.rs"]}
{"id": "C97", "title": "A run over published RLP encodings passes exactly if the entries are right", "statement": "A user runs the library over a file of published RLP entries, as the test suite does: an item, as arrays of texts of hex digits after 0x, and its encoding as a hex text. The run of encoding passes exactly if there are more than 60 entries, every item is readable (in upper or lower case) and its text is the encoding that the Yellow Paper prescribes, in lower case. The run of decoding passes exactly if there are more than 60 entries and every text stands for the item, possibly with longer headers than necessary, and the item is given in lower case. Otherwise an assertion fails. Whatever passes the first in lower case passes the second.", "quantifier": "all files: numbers of entries, JSON values of any nesting, kind and size (below 2^64 bytes), texts of any content, missing texts, and both build modes", "why_tests_cant": "The file contains some 60 entries; that a pass means that whatever is in a file is right, and which wrong entries the tests let through, concerns all of them.", "anchors": ["tests/blockchain/ethereum/rlp_ethers_js.rs: test_encoding, test_decoding, encode_json_value, decode_json_value", "src/blockchain/ethereum/rlp/encoder.rs: RlpEncodingItem", "src/blockchain/ethereum/rlp/decoder.rs: RlpDecodingItem"]}
{"id": "C98", "title": "The tests of random bytes pass exactly if the operating system delivers bytes that are not all zero", "statement": "A user who wants to know whether the source of random bytes works asks for a number of bytes, as the test suite does. The check passes exactly if the operating system delivered every byte that was asked for (on Linux in each of the calls for at most 256 bytes) and not all of them are zero; asking for no bytes always succeeds on Linux. A system that returns the same bytes again and again is therefore not noticed, unless they are zeros.", "quantifier": "all lengths, all replies of the operating system (on Linux to each call, within the documented contract of the call), and the three supported systems", "why_tests_cant": "A test runs against one kernel on one occasion; what it says about the replies of the kernel, and what it does not notice, concerns all replies.", "anchors": ["tests/random/os_random.rs: test_get_os_random_bytes_with_len", "src/random/os_random.rs: get_os_random_bytes", "src/random/linux.rs: get_os_random_bytes_impl"]}
{"id": "C99", "title": "The worked example of SSZ holds for every attestation", "statement": "A user implements the SSZ trait for their own structs field by field, as the worked example does for Ethereum's indexed attestations (checkpoints within attestation data within an attestation with a list of validator indices). For every attestation the encoding is the one that the consensus specification prescribes: the offset 228 in four bytes, slot, index, block root, the epochs and roots of source and target, the signature, and then the indices with eight bytes each, all little-endian; it decodes to the attestation. An attestation whose encoding would have 2^32 bytes or more makes the encoder panic. No data makes the decoder panic; it accepts exactly data shorter than 2^32 bytes that begins with the fixed part and from the stated offset to the end consists of the indices (the offset may be any position in the data). The test passes for an attestation and a text exactly if the text is that encoding in lower-case hex digits.", "quantifier": "all attestations (lists of indices of any length, all field values), all byte strings as input of the decoder, all texts, and both build modes", "why_tests_cant": "The test has one attestation with three indices; that the offset is right and the fields are in place for every list of indices, and that no input makes the decoder panic, concerns all of them.", "anchors": ["tests/blockchain/ethereum/ssz_worked_example.rs: test_indexed_attestation_encoding_and_decoding, IndexedAttestation, AttestationData, Checkpoint", "src/blockchain/ethereum/ssz/container_types.rs: encode_as_container_element, decode_as_items", "src/tools/codable/core.rs: encode, decode"]}
{"id": "C100", "title": "The tests of signing on P-256 pass exactly if the expected signature is the prescribed one", "statement": "A user signs a message on P-256 with their own curve parameters and with SHA-256, SHA-384 or SHA-512 both for the hash and for the nonces, without extra random data and without the preference for the lower half, as the test suite does, compares the text of the signature with an expected one, and verifies the signature. The check passes exactly if the key is the text of a number between zero and the order, the leading 256 bits of the hash of the message are not zero, and the expected text is the signature that RFC 6979 prescribes with this hash function, as text in the form of P1363 in lower case; otherwise it panics. The hasher that hashed the message can be used again for the nonces. The three examples of RFC 6979, A.2.5, for the message \"sample\" pass.", "quantifier": "all texts of keys and signatures, all messages below 2^61 bytes, the three hash functions, all draws, digit widths and both build modes, on the assumption that the first nonce of RFC 6979 gives a signature", "why_tests_cant": "The tests have one key and one message; that a pass means agreement with RFC 6979 and that no other text passes concerns all keys, messages and texts.", "anchors": ["tests/crypto/ecdsa_p256_signing_verifying.rs: test_ecdsa_p256_sha256_sign, test_ecdsa_p256_sha384_sign, test_ecdsa_p256_sha512_sign", "src/crypto/ecdsa/ecdsa_signing.rs: sign_with_options_and_rfc6979_hmac_hasher", "src/crypto/ecdsa/ecdsa_verifying.rs: verify_with_options"]}
{"id": "C101", "title": "Taking an RLP item apart by hand", "statement": "A user who writes their own decoder makes an item of a byte string and asks it for its bytes or for its parts. The first step succeeds exactly if the data are one item (possibly with a longer header than necessary), and tells its kind and payload. Asking for bytes gives the payload of a single value; a list is refused. Asking for parts succeeds exactly for a list whose payload is the concatenation of these parts; a single value is refused. The parts of the encoding of a list are its elements, in order. Every refusal is reported as an invalid format; nothing panics or runs forever.", "quantifier": "all byte strings below 2^64 bytes, all items and parts, both build modes", "why_tests_cant": "Which byte strings are accepted, which parts come out and which data make the functions panic concerns all byte strings and all nestings.", "anchors": ["src/blockchain/ethereum/rlp/decoder.rs: RlpDecodingItem::decode_as_bytes, decode_as_items", "src/blockchain/ethereum/rlp/decoder.rs: new_from_data", "src/blockchain/ethereum/rlp/decoding.rs: decode_data, decode_list_payload"]}
{"id": "C102", "title": "Writing RLP data by hand with several encoding items", "statement": "A user who writes their own encoder makes any number of encoding items, writes bytes, numbers and texts into them, writes one of them into another as a list, and takes the data, in any order. Every time data are taken they are the concatenated encodings, by the Yellow Paper, of what was written into this encoding item since it was made or last emptied; taking empties it, and writing an encoding item into another adds one list and leaves the former as it is. If one item was written, the decoder returns it.", "quantifier": "all histories of calls on any number of encoding items, all byte strings, numbers, texts and nestings whose data taken are below 2^64 bytes, both build modes", "why_tests_cant": "Tests write a few items in one order; that no order of calls mixes up or loses what was written concerns all histories.", "anchors": ["src/blockchain/ethereum/rlp/encoder.rs: RlpEncodingItem::encode_bytes, encode_list_payload, take_data, new", "src/blockchain/ethereum/rlp/encoder.rs: Encodable for u64, BigUint, &str", "src/blockchain/ethereum/rlp/encoding.rs: encode_single_value, encode_payload_length"]}
{"id": "C103", "title": "Taking an SSZ container apart by hand", "statement": "A user who implements the trait for their own struct gives the sizes of the fields (none for a field of variable size) and gets the data of the fields. If the headers are shorter than 2^32 bytes, this succeeds exactly if the data are shorter than 2^32 bytes and contain all headers, and the offsets neither decrease nor point beyond the data. Then there is one item per size: for a field of fixed size the bytes at its place, for a field of variable size the bytes from its offset up to the offset of the next field of variable size or the end. All other data are refused, and nothing panics. With longer headers debug builds panic whatever the data are.", "quantifier": "all lists of sizes, all byte strings, both build modes", "why_tests_cant": "Tests take a few structs with well-formed data apart; that no offset makes the function panic or return wrong bytes concerns all sizes and all data.", "anchors": ["src/blockchain/ethereum/ssz/container_types.rs: SszDecodingItem::decode_as_items", "src/blockchain/ethereum/ssz/decoder.rs: SszDecodingItem"]}
{"id": "C104", "title": "Writing SSZ containers by hand with one encoding item", "statement": "A user who implements the trait for their own structs adds the fields of a struct to an encoding item one after the other, those of fixed size and those of variable size, takes the data, and goes on with the next struct. The data taken each time are those that the consensus specification prescribes for these fields, if they are shorter than 2^32 bytes; otherwise they are that or the code panics, and nothing else is ever returned. With the sizes of the fields the data are taken apart into the fields again.", "quantifier": "all sequences of structs, all numbers, kinds and contents of fields, both build modes", "why_tests_cant": "Tests write a few structs; that the offsets are right for all mixtures of fields and after every reuse of the item concerns all of them.", "anchors": ["src/blockchain/ethereum/ssz/encoder.rs: SszEncodingItem::encode_fixed_size_data, encode_variable_size_data, take_data", "src/blockchain/ethereum/ssz/container_types.rs: encode_as_container_element, decode_as_items"]}
