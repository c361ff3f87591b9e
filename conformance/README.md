# Running the model on the project's test data

This is a test of the model, not a proof, and no theorem uses it. The code itself cannot be run here, but the repository records what it
must return: `tests/data` holds the vectors of Wycheproof, XKCP, noble-secp256k1 and ethers.js that its integration tests read. `gen.py` turns
them into test cases, `lean/Verif/Conformance.lean` runs the model on them, and `run.sh` compiles and runs it all. A difference would mean
that the model does not say what the code does (or that the project's tests fail).

| group | what is computed | cases |
|-------|------------------|-------|
| sha3 | digests | 1024 |
| hmac | HMAC with SHA-2 and SHA-3 | 1216 |
| wycheproof | decoding of keys and signatures, verification, 10 curves | 3283 |
| signing | RFC 6979 signatures, verification, recovery with and without id; invalid inputs; RFC 6979 A.2.5 | 2059 |
| curves | signing, verification and recovery on 11 curves, one with cofactor 8 | 68 |
| keys | SEC 1 decoding and encoding, sums and multiples of points, public keys | 2454 |
| accounts | addresses from private keys, checksums | 2069 |
| transactions | building, signing, encoding, decoding of the four kinds | 2872 |
| rlp | decoding | 61 |


The runs made (64-bit digits, debug build): all of `curves`, every 8th case of the other groups. There were no differences,
with one expectation left open. On `w25519` (cofactor 8) recovery with the id of a signature can return several keys, among them the
signer's; the project's tests for that curve with random keys only ask that the signer's key is among the results, and the theorem
`C23_several_violated` proves the same on a smaller curve with cofactor 3. `gen.py` therefore accepts either answer for the random keys, and
expects verification and recovery without id to succeed. The one case with an exact answer in the project's tests agrees.

| group | cases run | differences |
|-------|-----------|-------------|
| accounts | 258 | 0 |
| curves | 68 | 0 |
| hmac | 152 | 0 |
| keys | 306 | 0 |
| rlp | 7 | 0 |
| sha3 | 128 | 0 |
| signing | 257 | 0 |
| transactions | 359 | 0 |
| wycheproof | 410 | 0 |
