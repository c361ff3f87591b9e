{
 "claims": [
  {
   "property": "C01",
   "status": "proved",
   "theorems": [
    "LCT.Props.C01_add",
    "LCT.Props.C01_sub",
    "LCT.Props.C01_neg"
   ],
   "note": ""
  },
  {
   "property": "C02",
   "status": "proved",
   "theorems": [
    "LCT.Props.C02_mul"
   ],
   "note": ""
  },
  {
   "property": "C03",
   "status": "proved",
   "theorems": [
    "LCT.Props.C03_div_rem",
    "LCT.Props.C03_unique",
    "LCT.Props.C03_zero_divisor"
   ],
   "note": ""
  },
  {
   "property": "C04",
   "status": "partial",
   "theorems": [
    "LCT.Props.C04_shr",
    "LCT.Props.C04_shl_value",
    "LCT.Props.C04_shl_partial",
    "LCT.Props.C04_shl_zero_violated",
    "LCT.Props.C04_shl_zero_effect"
   ],
   "note": "False as stated for 0 << (positive multiple of the digit size): C04_shl_zero_violated. Values are right for all shifts; canonical form proved in all other cases."
  },
  {
   "property": "C05",
   "status": "proved",
   "theorems": [
    "LCT.Props.C05_cmp",
    "LCT.Props.C05_eq",
    "LCT.Props.C05_is_zero"
   ],
   "note": ""
  },
  {
   "property": "C06",
   "status": "proved",
   "theorems": [
    "LCT.Props.C06_to_be_bytes",
    "LCT.Props.C06_from_be_bytes",
    "LCT.Props.C06_round_trip",
    "LCT.Props.C06_empty_panics"
   ],
   "note": "from_be_bytes of the empty string panics (C06_empty_panics), as the statement says."
  },
  {
   "property": "C07",
   "status": "proved",
   "theorems": [
    "LCT.Props.C07_print",
    "LCT.Props.C07_display",
    "LCT.Props.C07_parse_iff",
    "LCT.Props.C07_parse_total",
    "LCT.Props.C07_round_trip",
    "LCT.Props.C07_error"
   ],
   "note": ""
  },
  {
   "property": "C08",
   "status": "partial",
   "theorems": [
    "LCT.Props.C08_accepts_iff",
    "LCT.Props.C08_numerals_partial",
    "LCT.Props.C08_rejects_partial",
    "LCT.Props.C08_total",
    "LCT.Props.C08_violated"
   ],
   "note": "False as stated: C08_violated (a digit equal to the radix is accepted). C08_accepts_iff states exactly what is accepted."
  },
  {
   "property": "C09",
   "status": "proved",
   "theorems": [
    "LCT.Props.C09_from_unsigned",
    "LCT.Props.C09_from_signed"
   ],
   "note": ""
  },
  {
   "property": "C10",
   "status": "proved",
   "theorems": [
    "LCT.Props.C10_bit_len",
    "LCT.Props.C10_byte_len",
    "LCT.Props.C10_parity",
    "LCT.Props.C10_trailing_zeros",
    "LCT.Props.C10_trailing_zeros_zero",
    "LCT.Props.C10_le_bits"
   ],
   "note": ""
  },
  {
   "property": "C11",
   "status": "proved",
   "theorems": [
    "LCT.Props.C11_gcd",
    "LCT.Props.C11_precondition"
   ],
   "note": "C11_gcd also bounds the rounds of both loops, linearly in the number of bits."
  },
  {
   "property": "C12",
   "status": "partial",
   "theorems": [
    "LCT.Props.C12_nonneg_partial",
    "LCT.Props.C12_violated",
    "LCT.Props.C12_exact",
    "LCT.Props.C12_negative_iff"
   ],
   "note": "False as stated: C12_violated. C12_exact says what a BigUint holds after any history of constructions, texts and operations: exactly the integer the history computes; C12_negative_iff: so it is negative if and only if that integer is. Histories without signed radix texts and without subtraction from a smaller number stay non-negative."
  },
  {
   "property": "C13",
   "status": "proved",
   "theorems": [
    "LCT.Props.C13_modulo",
    "LCT.Props.C13_invert",
    "LCT.Props.C13_invert_zero",
    "LCT.Props.C13_pow"
   ],
   "note": ""
  },
  {
   "property": "C14",
   "status": "proved",
   "theorems": [
    "LCT.Props.C14_sqrt"
   ],
   "note": ""
  },
  {
   "property": "C15",
   "status": "proved",
   "theorems": [
    "LCT.Props.C15_points",
    "LCT.Props.C15_add_points",
    "LCT.Props.C15_double_point",
    "LCT.Props.C15_order_two",
    "LCT.Props.C15_double_panics"
   ],
   "note": ""
  },
  {
   "property": "C16",
   "status": "proved",
   "theorems": [
    "LCT.Props.C16_mul_point_exact",
    "LCT.Props.C16_mul_point",
    "LCT.Props.C16_mul_point_mod",
    "LCT.Props.C16_mul_point_add"
   ],
   "note": "C16_mul_point_exact says what happens for points of even order as well."
  },
  {
   "property": "C17",
   "status": "proved",
   "theorems": [
    "LCT.Props.C17_encode_spec",
    "LCT.Props.C17_round_trip",
    "LCT.Props.C17_decode_ok_iff",
    "LCT.Props.C17_not_aligned_iff",
    "LCT.Props.C17_invalid_char_iff",
    "LCT.Props.C17_total"
   ],
   "note": ""
  },
  {
   "property": "C18",
   "status": "proved",
   "theorems": [
    "LCT.Props.C18_round_trip",
    "LCT.Props.C18_decode",
    "LCT.Props.C18_canonical"
   ],
   "note": ""
  },
  {
   "property": "C19",
   "status": "partial",
   "theorems": [
    "LCT.Props.C19_round_trip_partial",
    "LCT.Props.C19_panics",
    "LCT.Props.C19_violated_secp256k1"
   ],
   "note": "False as stated: encoding panics on a valid key with a coordinate that is 0 or not below the group order (C19_panics, C19_violated_secp256k1). Proved for all other valid keys."
  },
  {
   "property": "C20",
   "status": "partial",
   "theorems": [
    "LCT.Props.C20_root_panics",
    "LCT.Props.C20_w25519_panics",
    "LCT.Props.C20_even_cofactor_panics",
    "LCT.Props.C20_valid",
    "LCT.Props.C20_accepts_iff",
    "LCT.Props.C20_uncompressed",
    "LCT.Props.C20_compressed_partial",
    "LCT.Props.C20_violated_secp256k1",
    "LCT.Props.C20_error"
   ],
   "note": "Validity and the exact set of accepted texts are proved for every cofactor, totality for odd cofactors; on every curve with an even cofactor some text makes decoding panic (C20_even_cofactor_panics, C20_w25519_panics); canonicity is false for compressed texts longer than standard (C20_violated_secp256k1) and proved for the uncompressed form and compressed texts of standard length. C20_error says exactly which error is reported for every rejected text."
  },
  {
   "property": "C21",
   "status": "proved",
   "theorems": [
    "LCT.Props.C21_default",
    "LCT.Props.C21_sign",
    "LCT.Props.C21_sign_then_verify"
   ],
   "note": ""
  },
  {
   "property": "C22",
   "status": "proved",
   "theorems": [
    "LCT.Props.C22_low_s",
    "LCT.Props.C22_id",
    "LCT.Props.C22_id_identifies",
    "LCT.Props.C22_exactly_one",
    "LCT.Props.C22_malleable"
   ],
   "note": ""
  },
  {
   "property": "C23",
   "status": "partial",
   "theorems": [
    "LCT.Props.C23_even_cofactor_panics",
    "LCT.Props.C23_unique_low",
    "LCT.Props.C23_signer_low",
    "LCT.Props.C23_signer_contained",
    "LCT.Props.C23_several_violated",
    "LCT.Props.C23_errors",
    "LCT.Props.C23_sound",
    "LCT.Props.C23_complete",
    "LCT.Props.C23_exact",
    "LCT.Props.C23_unique",
    "LCT.Props.C23_signer_partial",
    "LCT.Props.C23_signer_without_id",
    "LCT.Props.C23_signer_secp256k1"
   ],
   "note": "Soundness holds for every cofactor. \"Exactly the signer's key\" is proved for curves of prime order (which includes secp256k1) and, for every cofactor, for the two recovery ids with a low abscissa; it fails for the other ids on curves with a cofactor (C23_several_violated), where the list contains the signer's key. Recovery can panic if the cofactor is even (C23_even_cofactor_panics)."
  },
  {
   "property": "C24",
   "status": "proved",
   "theorems": [
    "LCT.Props.C24_even_cofactor_panics",
    "LCT.Props.C24_private_key",
    "LCT.Props.C24_public_key_of_private",
    "LCT.Props.C24_public_key",
    "LCT.Props.C24_infinity",
    "LCT.Props.C24_domain_secp256k1"
   ],
   "note": "C24_public_key says for every pair of integers which of the three outcomes construction has; a panic is possible only on curves with an even cofactor (C24_even_cofactor_panics)."
  },
  {
   "property": "C25",
   "status": "partial",
   "theorems": [
    "LCT.Props.C25_verify",
    "LCT.Props.C25_sign",
    "LCT.Props.C25_zero_hash_partial",
    "LCT.Props.C25_zero_modulo_order_accepted",
    "LCT.Props.C25_zero_modulo_order_accepted_secp256k1"
   ],
   "note": "The order of the checks is proved. The last sentence is false as stated: C25_zero_modulo_order_accepted(_secp256k1); proved for hashes that are zero as numbers."
  },
  {
   "property": "C26",
   "status": "proved",
   "theorems": [
    "LCT.Props.C26_sound",
    "LCT.Props.C26_complete",
    "LCT.Props.C26_deterministic",
    "LCT.Props.C26_unique",
    "LCT.Props.C26_octets"
   ],
   "note": "For every hash function computed by the hasher; fuel bounds the number of candidates."
  },
  {
   "property": "C27",
   "status": "proved",
   "theorems": [
    "LCT.Props.C27_default",
    "LCT.Props.C27_progress",
    "LCT.Props.C27_first_usable",
    "LCT.Props.C27_random_error",
    "LCT.Props.C27_no_panic",
    "LCT.Props.C27_error_source",
    "LCT.Props.C27_stall",
    "LCT.Props.C27_stall_example"
   ],
   "note": "Also proved: signing runs for ever exactly when no round has a usable nonce; without extra randomness one unusable nonce suffices (C27_stall_example)."
  },
  {
   "property": "C28",
   "status": "proved",
   "theorems": [
    "LCT.Props.C28_hmac",
    "LCT.Props.C28_length"
   ],
   "note": ""
  },
  {
   "property": "C29",
   "status": "proved",
   "theorems": [
    "LCT.Props.C29_sha256",
    "LCT.Props.C29_lengths",
    "LCT.Props.C29_too_long",
    "LCT.Props.C29_constants"
   ],
   "note": ""
  },
  {
   "property": "C30",
   "status": "proved",
   "theorems": [
    "LCT.Props.C30_sha384",
    "LCT.Props.C30_sha512",
    "LCT.Props.C30_too_long",
    "LCT.Props.C30_constants"
   ],
   "note": ""
  },
  {
   "property": "C31",
   "status": "proved",
   "theorems": [
    "LCT.Props.C31_keccak256",
    "LCT.Props.C31_sha3_224",
    "LCT.Props.C31_sha3_256",
    "LCT.Props.C31_sha3_384",
    "LCT.Props.C31_sha3_512",
    "LCT.Props.C31_lengths",
    "LCT.Props.C31_blocks",
    "LCT.Props.C31_hmac"
   ],
   "note": ""
  },
  {
   "property": "C32",
   "status": "proved",
   "theorems": [
    "LCT.Props.C32_state",
    "LCT.Props.C32_history",
    "LCT.Props.C32_keccak256"
   ],
   "note": ""
  },
  {
   "property": "C33",
   "status": "proved",
   "theorems": [
    "LCT.Props.C33_calculate_k",
    "LCT.Props.C33_padding",
    "LCT.Props.C33_injective"
   ],
   "note": ""
  },
  {
   "property": "C34",
   "status": "proved",
   "theorems": [
    "LCT.Props.C34_round_trip",
    "LCT.Props.C34_decode_data",
    "LCT.Props.C34_decode_list"
   ],
   "note": "For every nested item whose encoding is shorter than 2^64 bytes."
  },
  {
   "property": "C35",
   "status": "proved",
   "theorems": [
    "LCT.Props.C35_encode_spec",
    "LCT.Props.C35_prefix_free",
    "LCT.Props.C35_injective"
   ],
   "note": ""
  },
  {
   "property": "C36",
   "status": "partial",
   "theorems": [
    "LCT.Props.C36_panics",
    "LCT.Props.C36_decode_data_partial",
    "LCT.Props.C36_release",
    "LCT.Props.C36_decode_list_partial",
    "LCT.Props.C36_list_panics_iff_partial",
    "LCT.Props.C36_decode_tree_partial",
    "LCT.Props.C36_tree_panics_iff_partial",
    "LCT.Props.C36_tree_terminates",
    "LCT.Props.C36_scalars_partial",
    "LCT.Props.C36_vec_debug_panics",
    "LCT.Props.C36_types_partial",
    "LCT.Props.C36_types_panic",
    "LCT.Props.C36_types_panics_iff_partial"
   ],
   "note": "False as stated: C36_panics exhibits inputs that panic (declared length >= 2^64-9). Proved: exactly those headers make decode_data panic, and only with overflow checks; lists, nested items and scalars are safe unless such a header occurs. C36_types_partial says the same for every type that users compose; C36_types_panic: vectors read from a single value panic in debug builds."
  },
  {
   "property": "C37",
   "status": "partial",
   "theorems": [
    "LCT.Props.C37_not_canonical",
    "LCT.Props.C37_accepts_iff",
    "LCT.Props.C37_canonical_partial",
    "LCT.Props.C37_list_accepts_iff",
    "LCT.Props.C37_tree_accepts_iff",
    "LCT.Props.C37_tree_shortest_partial"
   ],
   "note": "False as stated: C37_not_canonical. Proved: the decoder accepts exactly the relaxed grammar, and an accepted string is canonical iff its header is the shortest one."
  },
  {
   "property": "C38",
   "status": "proved",
   "theorems": [
    "LCT.Props.C38_wei_chain_id",
    "LCT.Props.C38_nonce_from_u64",
    "LCT.Props.C38_nonce",
    "LCT.Props.C38_address",
    "LCT.Props.C38_storage_key",
    "LCT.Props.C38_access_list",
    "LCT.Props.C38_u64",
    "LCT.Props.C38_biguint",
    "LCT.Props.C38_string",
    "LCT.Props.C38_bytes",
    "LCT.Props.C38_minBE_spec"
   ],
   "note": ""
  },
  {
   "property": "C39",
   "status": "proved",
   "theorems": [
    "LCT.Props.C39_address_from_bytes",
    "LCT.Props.C39_storage_key_from_bytes",
    "LCT.Props.C39_address_parse_iff",
    "LCT.Props.C39_address_parse_total",
    "LCT.Props.C39_storage_key_parse_iff",
    "LCT.Props.C39_storage_key_parse_total",
    "LCT.Props.C39_address_print",
    "LCT.Props.C39_address_print_parse",
    "LCT.Props.C39_address_fixed_point",
    "LCT.Props.C39_storage_key_print",
    "LCT.Props.C39_null"
   ],
   "note": ""
  },
  {
   "property": "C40",
   "status": "proved",
   "theorems": [
    "LCT.Props.C40_round_trip"
   ],
   "note": ""
  },
  {
   "property": "C41",
   "status": "partial",
   "theorems": [
    "LCT.Props.C41_round_trip_partial",
    "LCT.Props.C41_chain_id_violated"
   ],
   "note": "False as stated: the decoder computes the chain id as (v - 35) / 4, so it reports c / 2 for a transaction signed for chain c (C41_chain_id_violated). Everything else round-trips (C41_round_trip_partial)."
  },
  {
   "property": "C42",
   "status": "proved",
   "theorems": [
    "LCT.Props.C42_eip2930",
    "LCT.Props.C42_eip1559",
    "LCT.Props.C42_access_list"
   ],
   "note": ""
  },
  {
   "property": "C43",
   "status": "partial",
   "theorems": [
    "LCT.Props.C43_legacy_outcome",
    "LCT.Props.C43_legacy",
    "LCT.Props.C43_eip155_outcome",
    "LCT.Props.C43_eip155",
    "LCT.Props.C43_eip2930_outcome",
    "LCT.Props.C43_eip2930",
    "LCT.Props.C43_eip1559_outcome",
    "LCT.Props.C43_eip1559",
    "LCT.Props.C43_legacy_sender_partial",
    "LCT.Props.C43_eip155_sender_partial",
    "LCT.Props.C43_eip2930_sender_partial",
    "LCT.Props.C43_eip1559_sender_partial",
    "LCT.Props.C43_high_x_violated",
    "LCT.Props.Published.C43_published",
    "LCT.Props.C43_sender_exact"
   ],
   "note": "False as stated: the recovery id's high-x bit is not stored in a transaction, so a signature whose r is x - n recovers another sender (C43_high_x_violated). Proved for all signatures with x < n. `C43_sender_exact` says exactly when the parity is enough: when the abscissa of the nonce's point is below the group order."
  },
  {
   "property": "C44",
   "status": "proved",
   "theorems": [
    "LCT.Props.C44_injective",
    "LCT.Props.C44_code_legacy",
    "LCT.Props.C44_code_eip155",
    "LCT.Props.C44_code_eip2930",
    "LCT.Props.C44_code_eip1559"
   ],
   "note": ""
  },
  {
   "property": "C45",
   "status": "proved",
   "theorems": [
    "LCT.Props.C45_missing",
    "LCT.Props.C45_legacy",
    "LCT.Props.C45_eip155",
    "LCT.Props.C45_eip2930",
    "LCT.Props.C45_eip1559"
   ],
   "note": ""
  },
  {
   "property": "C46",
   "status": "partial",
   "theorems": [
    "LCT.Props.C46_mismatch_iff",
    "LCT.Props.C46_eip155_iff",
    "LCT.Props.C46_legacy_is_not_eip155",
    "LCT.Props.C46_eip155_is_not_legacy_partial",
    "LCT.Props.C46_eip155_as_legacy_violated"
   ],
   "note": "False as stated: the legacy decoder accepts EIP-155 transactions with v < 256 (C46_eip155_as_legacy_violated). The EIP-155 decoder reports the mismatch exactly for well-formed lists with v < 35 (C46_mismatch_iff)."
  },
  {
   "property": "C47",
   "status": "proved",
   "theorems": [
    "LCT.Props.C47_private_key",
    "LCT.Props.C47_address"
   ],
   "note": ""
  },
  {
   "property": "C48",
   "status": "partial",
   "theorems": [
    "LCT.Props.C48_round_trip_partial",
    "LCT.Props.C48_round_trip_simple",
    "LCT.Props.C48_violated",
    "LCT.Props.C48_outcome",
    "LCT.Props.C48_unreachable",
    "LCT.Props.C48_reencode"
   ],
   "note": "False as stated: C48_violated (the empty list of elements of variable size encodes to nothing, which does not decode). C48_outcome settles every value of every type: it decodes to itself, or the decoder panics if it has such a list in it. C48_unreachable: no data decodes to such a value."
  },
  {
   "property": "C49",
   "status": "partial",
   "theorems": [
    "LCT.Props.C49_no_panic_partial",
    "LCT.Props.C49_violated",
    "LCT.Props.C49_panics_iff",
    "LCT.Props.C49_outcome",
    "LCT.Props.C49_violated_illegal"
   ],
   "note": "False as stated: C49_violated (a list of elements of variable size given less than four bytes panics). C49_outcome settles every byte string for every type: Crashes says which panic, all others return."
  },
  {
   "property": "C50",
   "status": "proved",
   "theorems": [
    "LCT.Props.C50_layout",
    "LCT.Props.C50_size"
   ],
   "note": ""
  },
  {
   "property": "C51",
   "status": "partial",
   "theorems": [
    "LCT.Props.C51_canonical_partial",
    "LCT.Props.C51_accepts_iff",
    "LCT.Props.C51_builds",
    "LCT.Props.C51_canonical_fixed",
    "LCT.Props.C51_canonical_container",
    "LCT.Props.C51_canonical_vector",
    "LCT.Props.C51_violated_trailing",
    "LCT.Props.C51_violated_gap",
    "LCT.Props.C51_violated_vector"
   ],
   "note": "False as stated: C51_violated_*. C51_accepts_iff gives exactly what is accepted, for every type. Canonicity is proved outright for the types in Canon, for fixed-size types given data of their size, and for containers and vectors with Canon parts when the lengths agree."
  },
  {
   "property": "C52",
   "status": "proved",
   "theorems": [
    "LCT.Props.C52_linux_ok",
    "LCT.Props.C52_linux_total",
    "LCT.Props.C52_linux_error",
    "LCT.Props.C52_apple",
    "LCT.Props.C52_windows"
   ],
   "note": ""
  },
  {
   "property": "C53",
   "status": "proved",
   "theorems": [
    "LCT.Props.C53_parameters",
    "LCT.Props.C53_primes",
    "LCT.Props.C53_curve",
    "LCT.Props.C53_base_point",
    "LCT.Props.C53_run"
   ],
   "note": ""
  },
  {
   "property": "C54",
   "status": "proved",
   "theorems": [
    "LCT.Props.C54_recovery_id",
    "LCT.Props.C54_parity",
    "LCT.Props.C54_id_parity"
   ],
   "note": ""
  },
  {
   "property": "C55",
   "status": "proved",
   "theorems": [
    "LCT.Props.C55_rlp_reuse",
    "LCT.Props.C55_ssz_reuse",
    "LCT.Props.C55_ssz_empty"
   ],
   "note": "RLP and SSZ encoding items."
  },
  {
   "property": "C56",
   "status": "partial",
   "theorems": [
    "LCT.Props.C56_panics",
    "LCT.Props.C56_debug_panics",
    "LCT.Props.C56_terminates",
    "LCT.Props.C56_untyped_partial",
    "LCT.Props.C56_typed_partial",
    "LCT.Props.C56_untyped_panics_iff",
    "LCT.Props.C56_typed_panics_iff",
    "LCT.Props.C56_returns_iff"
   ],
   "note": "False as stated: C56_panics, C56_debug_panics. Proved: termination always; the exact set of byte strings on which each decoder panics, for each build (C56_untyped_panics_iff, C56_typed_panics_iff), and that on all others it returns a transaction or an error (C56_returns_iff)."
  },
  {
   "property": "C57",
   "status": "proved",
   "theorems": [
    "LCT.Props.C57_legacy_iff",
    "LCT.Props.C57_legacy_meaning",
    "LCT.Props.C57_eip155_iff",
    "LCT.Props.C57_eip155_meaning",
    "LCT.Props.C57_eip2930_iff",
    "LCT.Props.C57_eip2930_meaning",
    "LCT.Props.C57_eip1559_iff",
    "LCT.Props.C57_eip1559_meaning"
   ],
   "note": ""
  },
  {
   "property": "C58",
   "status": "partial",
   "theorems": [
    "LCT.Props.C58_from_hex_iff",
    "LCT.Props.C58_accepts_iff",
    "LCT.Props.C58_numerals_partial",
    "LCT.Props.C58_decimal_partial",
    "LCT.Props.C58_total",
    "LCT.Props.C58_violated_negative",
    "LCT.Props.C58_violated_encoding",
    "LCT.Props.C58_violated",
    "LCT.Props.C58_display",
    "LCT.Props.C58_round_trip",
    "LCT.Props.C58_one_value",
    "LCT.Props.C58_chains",
    "LCT.Props.C58_chain_id",
    "LCT.Props.C58_nonce_iff",
    "LCT.Props.C58_nonce_display"
   ],
   "note": "Every unsigned numeral is read as the number it writes, and printing round-trips. Violated in the other direction: \"-5\" is read as -5 wei (encoded like 5 wei), \"a\" as ten, \"\" and \"0x\" as zero, \"0x+12\" as 18; C58_accepts_iff gives the texts that are accepted."
  },
  {
   "property": "C59",
   "status": "partial",
   "theorems": [
    "LCT.Props.C59_legacy_violated",
    "LCT.Props.C59_eip155_violated",
    "LCT.Props.C59_eip2930_violated",
    "LCT.Props.C59_eip1559_violated",
    "LCT.Props.C59_legacy_partial",
    "LCT.Props.C59_eip155_partial",
    "LCT.Props.C59_eip2930_partial",
    "LCT.Props.C59_eip1559_partial"
   ],
   "note": "False as stated for every transaction (C59_*_violated). Proved: re-encoding gives the canonical encoding, never longer, which decodes to the same transaction."
  },
  {
   "property": "C60",
   "status": "proved",
   "theorems": [
    "LCT.Props.C60_legacy",
    "LCT.Props.C60_eip155",
    "LCT.Props.C60_eip2930",
    "LCT.Props.C60_eip1559",
    "LCT.Props.C60_injective"
   ],
   "note": ""
  },
  {
   "property": "C61",
   "status": "partial",
   "theorems": [
    "LCT.Props.C61_prints_iff",
    "LCT.Props.C61_unique",
    "LCT.Props.C61_total",
    "LCT.Props.C61_encoding",
    "LCT.Props.C61_prints_partial",
    "LCT.Props.C61_chain_id_violated"
   ],
   "note": "False as stated for EIP-155 transactions: they are printed with the chain id (v - 35) / 4 (C61_chain_id_violated). C61_prints_iff says for every argument exactly what is printed."
  },
  {
   "property": "C62",
   "status": "partial",
   "theorems": [
    "LCT.Props.C62_legacy_partial",
    "LCT.Props.C62_eip2930_partial",
    "LCT.Props.C62_eip1559_partial",
    "LCT.Props.C62_eip155_partial",
    "LCT.Props.C62_eip155_receiver_violated"
   ],
   "note": "The bytes determine the payload and signature for all four kinds. For EIP-155 the receiver reconstructs other signing data unless the chain id is 0 (C62_eip155_receiver_violated). Recovery by parity needs r + n >= p, as in C43."
  },
  {
   "property": "C63",
   "status": "proved",
   "theorems": [
    "LCT.Props.C63_prints",
    "LCT.Props.C63_panics"
   ],
   "note": ""
  },
  {
   "property": "C64",
   "status": "partial",
   "theorems": [
    "LCT.Props.C64_prints",
    "LCT.Props.C64_unique",
    "LCT.Props.C64_not_hex",
    "LCT.Props.C64_malformed_partial",
    "LCT.Props.C64_panics",
    "LCT.Props.C64_missing"
   ],
   "note": "Violated: the program panics on headers that declare huge lengths (C64_panics); C64_malformed_partial says exactly when."
  },
  {
   "property": "C65",
   "status": "partial",
   "theorems": [
    "LCT.Props.C65_rejects",
    "LCT.Props.C65_finds_iff_partial",
    "LCT.Props.C65_goes_on_partial",
    "LCT.Props.C65_bad_key",
    "LCT.Props.C65_long_prefix_violated"
   ],
   "note": "Holds for prefixes of up to 12 digits. With 13 or more the estimate 32^n overflows: debug builds panic at once, release builds at the first progress report (C65_long_prefix_violated)."
  },
  {
   "property": "C66",
   "status": "proved",
   "theorems": [
    "LCT.Props.C66_prints",
    "LCT.Props.C66_panics"
   ],
   "note": "Proved for the Linux source of random bytes."
  },
  {
   "property": "C67",
   "status": "proved",
   "theorems": [
    "LCT.Props.C67_calls",
    "LCT.Props.C67_stable",
    "LCT.Props.C67_progress"
   ],
   "note": "Memory is sequentially consistent in the model; `Once` of the standard library is modelled by its documented behaviour."
  },
  {
   "property": "C68",
   "status": "proved",
   "theorems": [
    "LCT.Props.C68_integers",
    "LCT.Props.C68_math",
    "LCT.Props.C68_hashes",
    "LCT.Props.C68_signatures",
    "LCT.Props.C68_codecs",
    "LCT.Props.C68_transactions",
    "LCT.Props.C68_accounts",
    "LCT.Props.C68_programs"
   ],
   "note": "Wrapping of overflows is modelled where DESIGN.md says so; the simplifications named in the model hold for both builds."
  },
  {
   "property": "C69",
   "status": "proved",
   "theorems": [
    "LCT.Props.C69_one_form",
    "LCT.Props.C69_hashes",
    "LCT.Props.C69_second_hash",
    "LCT.Props.C69_keys",
    "LCT.Props.C69_one_form_secp256k1"
   ],
   "note": "Bounds for every curve with p <= 2n; the built-in curve is an instance. Examples show that the bounds are reached."
  },
  {
   "property": "C70",
   "status": "partial",
   "theorems": [
    "LCT.Props.C70_integers",
    "LCT.Props.C70_shl_partial",
    "LCT.Props.C70_sources",
    "LCT.Props.C70_modular",
    "LCT.Props.C70_points",
    "LCT.Props.C70_secp256k1",
    "LCT.Props.C70_keys",
    "LCT.Props.C70_encodings",
    "LCT.Props.C70_signing",
    "LCT.Props.C70_verifying",
    "LCT.Props.C70_accounts",
    "LCT.Props.C70_builder",
    "LCT.Props.C70_transaction_signing",
    "LCT.Props.C70_transaction_output",
    "LCT.Props.C70_transaction_decoding",
    "LCT.Props.C70_programs",
    "LCT.Props.C70_shl_violated"
   ],
   "note": "Full agreement, panics and endless loops included, for every function except the left shift of zero by a positive multiple of a digit width, where the code gives a malformed zero (C70_shl_violated; no function of the library does such a shift)."
  },
  {
   "property": "C71",
   "status": "partial",
   "theorems": [
    "LCT.Props.C71_same_model",
    "LCT.Props.C71_accepts",
    "LCT.Props.C71_list_accepts",
    "LCT.Props.C71_panics",
    "LCT.Props.C71_list_panics",
    "LCT.Props.C71_violated",
    "LCT.Props.C71_violated_panic",
    "LCT.Props.C71_targets_agree_partial",
    "LCT.Props.C71_only_more"
   ],
   "note": "Violated on 32-bit targets (C71_violated: for every payload; C71_violated_panic). Proved: the exact set of accepted data and of panicking data for every pointer width, agreement on all data that declare no huge length, and that a 32-bit target accepts whatever a 64-bit target accepts, with the same payload."
  },
  {
   "property": "C72",
   "status": "partial",
   "theorems": [
    "LCT.Props.C72_same_function",
    "LCT.Props.C72_encode",
    "LCT.Props.C72_encode_one_buffer",
    "LCT.Props.C72_decode_sees",
    "LCT.Props.C72_decode_partial",
    "LCT.Props.C72_decode_violated",
    "LCT.Props.C72_table_would_leak"
   ],
   "note": "Writing: proved for all arguments. Reading: proved for all pairs of texts of hex digits (C72_decode_partial), and exactly which texts can be told apart (C72_decode_sees); the claim as stated is violated for texts with other characters (C72_decode_violated)."
  },
  {
   "property": "C73",
   "status": "partial",
   "theorems": [
    "LCT.Props.C73_rlp",
    "LCT.Props.C73_rlp_depth",
    "LCT.Props.C73_ssz_partial",
    "LCT.Props.C73_ssz_levels",
    "LCT.Props.C73_ssz_violated"
   ],
   "note": "RLP: proved, with bounds on nodes, bytes and depth. Simple Serialize: violated, since an offset may point into the fixed part (C73_ssz_violated: data of k+4 bytes becomes d+1 times as large, for every d and k); proved for types of level one, and for every type with a factor that depends on the type only and is attained."
  },
  {
   "property": "C74",
   "status": "proved",
   "theorems": [
    "LCT.Props.C74_sha256",
    "LCT.Props.C74_sha512",
    "LCT.Props.C74_sha384",
    "LCT.Props.C74_permutation",
    "LCT.Props.C74_permutation_code",
    "LCT.Props.C74_sha3",
    "LCT.Props.C74_keccak256",
    "LCT.Props.C74_keccak256_short"
   ],
   "note": "The collisions are stated for the blocks and states that occur in hashing the two messages. SHA-2 messages are shorter than 2^61 bytes (C29, C30). The hypotheses are shown to be met by counting."
  },
  {
   "property": "C75",
   "status": "proved",
   "theorems": [
    "LCT.Props.C75_public_key",
    "LCT.Props.C75_text",
    "LCT.Props.C75_address"
   ],
   "note": "Generic in the curve for keys and texts, built-in curve for addresses. The address collision is stated on the sponge states of the two public keys, not as the existence of some collision."
  },
  {
   "property": "C76",
   "status": "proved",
   "theorems": [
    "LCT.Props.C76_same_r",
    "LCT.Props.C76_known_nonce"
   ],
   "note": "For r + n >= p, which on the built-in curve are all r but the smallest 2^129; below that there could be two more candidates."
  },
  {
   "property": "C77",
   "status": "proved",
   "theorems": [
    "LCT.Props.C77_nonce",
    "LCT.Props.C77_sign"
   ],
   "note": "For hash functions with as many bits as the order, as SHA-256 has for the built-in curve. The collision is among the messages actually hashed for the two inputs, listed by nonceHashes."
  },
  {
   "property": "C78",
   "status": "proved",
   "theorems": [
    "LCT.Props.C78_random",
    "LCT.Props.C78_nonce",
    "LCT.Props.C78_signing",
    "LCT.Props.C78_building",
    "LCT.Props.C78_others",
    "LCT.Props.C78_chain"
   ],
   "note": "All error types of the library with more than one error (Simple Serialize has one error only). The messages are those of the Display implementations, as bytes of UTF-8."
  },
  {
   "property": "C79",
   "status": "proved",
   "theorems": [
    "LCT.Props.C79_one_hash",
    "LCT.Props.C79_transactions"
   ],
   "note": "Preimages shorter than 2^64 bytes. The hash that differs by the order is a real exception of ECDSA: it would take a preimage of a given Keccak-256 hash."
  },
  {
   "property": "C80",
   "status": "proved",
   "theorems": [
    "LCT.Props.C80_gcd",
    "LCT.Props.C80_pow",
    "LCT.Props.C80_sqrt",
    "LCT.Props.C80_sqrt_secp256k1",
    "LCT.Props.C80_sqrt_result"
   ],
   "note": "The model gives each loop a limit on its rounds and ends in hang beyond it; the theorems say which limits are never reached. The rounds of the division and of the scalar multiplication are bounded by their definition (structural recursion over digits or bits)."
  },
  {
   "property": "C81",
   "status": "proved",
   "theorems": [
    "LCT.Props.C81_keccak256",
    "LCT.Props.C81_sha3_224",
    "LCT.Props.C81_sha3_256",
    "LCT.Props.C81_sha3_384",
    "LCT.Props.C81_sha3_512",
    "LCT.Props.C81_same",
    "LCT.Props.C81_little",
    "LCT.Props.C81_hmac"
   ],
   "note": ""
  },
  {
   "property": "C82",
   "status": "proved",
   "theorems": [
    "LCT.Props.C82_hex_text",
    "LCT.Props.C82_address_text",
    "LCT.Props.C82_reinterpret"
   ],
   "note": ""
  },
  {
   "property": "C83",
   "status": "proved",
   "theorems": [
    "LCT.Props.C83_add",
    "LCT.Props.C83_sub",
    "LCT.Props.C83_mul",
    "LCT.Props.C83_div",
    "LCT.Props.C83_gcd",
    "LCT.Props.C83_refines"
   ],
   "note": "The memory of the top-level buffers, of the scratch memory of gcd and of the variables that live across its rounds is modelled place by place; C83_refines shows that this in-place model has the outcomes of the value model that the other properties are about."
  },
  {
   "property": "C84",
   "status": "proved",
   "theorems": [
    "LCT.Props.C84_int",
    "LCT.Props.C84_point",
    "LCT.Props.C84_curve",
    "LCT.Props.C84_params",
    "LCT.Props.C84_public",
    "LCT.Props.C84_equivalence",
    "LCT.Props.C84_integers",
    "LCT.Props.C84_shl",
    "LCT.Props.C84_modular",
    "LCT.Props.C84_points",
    "LCT.Props.C84_keys",
    "LCT.Props.C84_decoding",
    "LCT.Props.C84_signatures",
    "LCT.Props.C84_public_output",
    "LCT.Props.C84_signing",
    "LCT.Props.C84_transactions"
   ],
   "note": "Derived equality is modelled in Model/Equality; the proofs use the relational lemmas of C70 with one digit width. Debug output (`{:?}`), which shows the storage itself, is not modelled."
  },
  {
   "property": "C85",
   "status": "proved",
   "theorems": [
    "LCT.Props.C85_binding",
    "LCT.Props.C85_binding_same_length",
    "LCT.Props.C85_one_key",
    "LCT.Props.C85_library"
   ],
   "note": "C85_binding: for every hasher that computes a function (C26/C27 show that the library's do), equal codes give equal messages and OneKey, or a collision among the hashed messages (hmacHashes of the specification). C85_binding_same_length: then the keys are equal. C85_one_key: the converse for keys. C85_library: the eight hashers of the library, with the collision stated about their digest method and the lengths of the colliding messages."
  },
  {
   "property": "C86",
   "status": "partial",
   "theorems": [
    "LCT.Props.C86_sign_partial",
    "LCT.Props.C86_drawn_below",
    "LCT.Props.C86_sign_violated",
    "LCT.Props.C86_sec1_partial",
    "LCT.Props.C86_sec1_violated",
    "LCT.Props.C86_rlp_partial",
    "LCT.Props.C86_rlp_violated",
    "LCT.Props.C86_byte_len",
    "LCT.Props.C86_hex",
    "LCT.Props.C86_radix_16",
    "LCT.Props.C86_radix",
    "LCT.Props.C86_div_rem",
    "LCT.Props.C86_from_int",
    "LCT.Props.C86_gcd",
    "LCT.Props.C86_shift_right",
    "LCT.Props.C86_shift_left_partial",
    "LCT.Props.C86_shift_left_64",
    "LCT.Props.C86_shift_left_violated",
    "LCT.Props.C86_sha2",
    "LCT.Props.C86_codecs"
   ],
   "note": "One theorem per random test, about every input the test's generator can draw. Proved outright for all but four tests. `C86_shift_left_partial` needs a non-zero number or a shift by less than a digit (`C86_shift_left_violated`: with 8-bit digits, `+00` shifted by 8; with 64-bit digits the test passes for every draw, because it shifts by at most 15, `C86_shift_left_64`). `C86_rlp_partial` gives exactly the data that make the RLP test panic, and `C86_rlp_violated` nine such bytes. `C86_sec1_partial` and `C86_sign_partial` say exactly when these tests pass or panic; missing are keys with a coordinate outside [1, n-1] (`C86_sec1_violated`), and for signing r = 0, s = 0, r < p - n, and hashes with 2(h + r d) + 1 divisible by the order, for which the correct code fails the test (`C86_sign_violated`)."
  },
  {
   "property": "C87",
   "status": "partial",
   "theorems": [
    "LCT.Props.C87_call",
    "LCT.Props.C87_client_partial",
    "LCT.Props.C87_answers",
    "LCT.Props.C87_same",
    "LCT.Props.C87_violated"
   ],
   "note": "Partial because the code deviates for clients that shift zero left by a whole number of digits (C04) or parse a text with a digit equal to the radix (C08); C87_client_partial covers all other clients (shifts of zero by less than 8 bits are included), C87_answers shows that only these two kinds of call are left out, C87_violated gives a client that sees a difference."
  },
  {
   "property": "C88",
   "status": "partial",
   "theorems": [
    "LCT.Props.C88_call",
    "LCT.Props.C88_client_partial",
    "LCT.Props.C88_answered",
    "LCT.Props.C88_default_partial",
    "LCT.Props.C88_violated"
   ],
   "note": "Partial because writing a public key with a coordinate that is zero or not below the order panics (C19, C88_violated), and because clients that make the calls on which numbers deviate (C04, C08) are left out. C88_client_partial covers all other clients on every curve of cofactor 1 whose order has a whole number of bytes; C88_answered: with enough fuel no call that mathematics answers is left without a reply; C88_default_partial is the instance for secp256k1 and SHA-256 with no assumption about either."
  },
  {
   "property": "C89",
   "status": "proved",
   "theorems": [
    "LCT.Props.C89_encode",
    "LCT.Props.C89_accepts_iff",
    "LCT.Props.C89_round_trip",
    "LCT.Props.C89_injective",
    "LCT.Props.C89_access_list_item"
   ],
   "note": "Types are elements of an inductive universe Ty (u64, BigUint, String, Bytes, Address, StorageKey, Vec, records). BigUint is taken at the value level; C38_wei_chain_id bridges to the digit level. C89_access_list_item shows that the one record the crate itself implements is an instance."
  },
  {
   "property": "C90",
   "status": "partial",
   "theorems": [
    "LCT.Props.C90_call",
    "LCT.Props.C90_client_partial",
    "LCT.Props.C90_answered",
    "LCT.Props.C90_violated",
    "LCT.Props.C90_published"
   ],
   "note": "Partial because decoders and the writing of some public keys panic (C56, C88, C90_violated), because the decoders deviate from the standards in ways that the specification writes out (C37, C41, C59), and because clients that make the calls on which numbers deviate (C04, C08) or set negative amounts (C58) are left out. C90_client_partial covers all other clients; C90_answered: with enough fuel no call that the specification answers is left without a reply; C90_published: a concrete client meets the hypotheses, and its last reply is the transaction printed in EIP-155."
  },
  {
   "property": "C91",
   "status": "partial",
   "theorems": [
    "LCT.Props.C91_named",
    "LCT.Props.C91_named_client_partial",
    "LCT.Props.C91_named_sign_verify",
    "LCT.Props.C91_unaligned_violated",
    "LCT.Props.C91_unaligned_examples",
    "LCT.Props.C91_domain",
    "LCT.Props.C91_client_partial",
    "LCT.Props.C91_published",
    "LCT.Props.C91_secp256r1",
    "LCT.Props.C91_w25519",
    "LCT.Props.C91_w25519_form",
    "LCT.Props.C91_w25519_sign_verify",
    "LCT.Props.C91_w25519_violated"
   ],
   "note": "Partial because clients on P-256 inherit the gaps of C88, and because on Curve25519 the point of order two makes validation, decoding and recovery panic (C91_w25519_violated). Proved: C91_domain, C91_secp256r1 and C91_w25519 (the supplied parameters are valid, including the number of points), C91_client_partial (C88 for P-256 and any hash function), C91_published (the RFC 6979 signatures for P-256 with SHA-256 and SHA-384), C91_w25519_form and C91_w25519_sign_verify. C91_named, C91_named_client_partial and C91_named_sign_verify do the same for P-224, P-384, P-521 and the Brainpool curves (clients on P-521 are left out, because its order is not a whole number of bytes). C91_unaligned_violated: with the default options nothing can be signed, verified or recovered on P-521 and Curve25519 (the published-vector tests switch the length check off)."
  },
  {
   "property": "C92",
   "status": "proved",
   "theorems": [
    "LCT.Props.C92_ecdsa",
    "LCT.Props.C92_ecdsa_history",
    "LCT.Props.C92_hmac",
    "LCT.Props.C92_known_answers",
    "LCT.Props.C92_known_answers_length"
   ],
   "note": "C92_ecdsa, C92_hmac and C92_known_answers; C92_ecdsa_history says that the outcome depends on nothing but the file. Public keys are uncompressed points of the group and messages are hex texts, as in the files. Reading JSON is not modelled. Hashes that are zero as numbers count as not accepted, as C25 says."
  },
  {
   "property": "C93",
   "status": "partial",
   "theorems": [
    "LCT.Props.C93_bench_division_partial",
    "LCT.Props.C93_bench_public_key_partial",
    "LCT.Props.C93_bench_signing_partial",
    "LCT.Props.C93_violated",
    "LCT.Props.C93_hex_string",
    "LCT.Props.C93_signed_hex_string",
    "LCT.Props.C93_random_hex",
    "LCT.Props.C93_aligned",
    "LCT.Props.C93_aligned_wei"
   ],
   "note": "C93_hex_string, C93_signed_hex_string, C93_random_hex, C93_aligned and C93_aligned_wei are exact. The last sentence is false (C93_violated): the benchmarks draw zero (as divisor, key or hash) or numbers above the order and then panic; the partial theorems say that these are the only draws on which they do. The random source of the crate quickcheck is modelled as an arbitrary sequence of draws."
  },
  {
   "property": "C94",
   "status": "proved",
   "theorems": [
    "LCT.Props.C94_untyped",
    "LCT.Props.C94_legacy",
    "LCT.Props.C94_eip155",
    "LCT.Props.C94_eip2930",
    "LCT.Props.C94_eip1559",
    "LCT.Props.C94_published"
   ],
   "note": "C94_untyped (any chain id and threshold), C94_legacy, C94_eip155, C94_eip2930, C94_eip1559: the run equals pass or panic by a specification over texts (Spec/TransactionTests). Hypotheses: no negative amounts, payloads and transactions below 2^64 bytes, and the RFC 6979 nonce of each payload gives a signature (C27). C94_published meets them with the transaction printed in EIP-155."
  },
  {
   "property": "C95",
   "status": "proved",
   "theorems": [
    "LCT.Props.C95_is_private",
    "LCT.Props.C95_private_add",
    "LCT.Props.C95_negate",
    "LCT.Props.C95_public_of_private",
    "LCT.Props.C95_is_point",
    "LCT.Props.C95_point_from_scalar",
    "LCT.Props.C95_point_compress",
    "LCT.Props.C95_invalid_verify",
    "LCT.Props.C95_accounts",
    "LCT.Props.C95_secp256k1",
    "LCT.Props.C95_wrong_signature"
   ],
   "note": "C95_is_private, C95_private_add, C95_negate, C95_public_of_private, C95_is_point, C95_point_from_scalar, C95_point_compress, C95_invalid_verify for any valid domain, C95_accounts: each run equals pass or panic by a specification over texts (Spec/KeyTests). C95_secp256k1: the instances for the curve that the tests use. C95_wrong_signature: the run over signatures to be refused fails for every well-formed one, right or wrong."
  },
  {
   "property": "C96",
   "status": "proved",
   "theorems": [
    "LCT.Props.C96_curves",
    "LCT.Props.C96_p256",
    "LCT.Props.C96_secp256r1",
    "LCT.Props.C96_w25519",
    "LCT.Props.C96_curve_published",
    "LCT.Props.C96_valid_signing",
    "LCT.Props.C96_signing_cases",
    "LCT.Props.C96_signing",
    "LCT.Props.C96_invalid_signing",
    "LCT.Props.C96_recovery",
    "LCT.Props.C96_curve",
    "LCT.Props.C96_other_key",
    "LCT.Props.C96_published"
   ],
   "note": "C96_signing, C96_invalid_signing (any valid domain), C96_recovery (cofactor one): each run equals pass or panic by a specification over texts (Spec/SigningTests). C96_other_key: the demand of the test of recovery is met unless r*d + 2*e is a multiple of the order. C96_published: the key and signature printed in EIP-155 meet the hypotheses. C96_curve: the run over random keys and messages, for any valid domain (if the cofactor is even, provided that recovery from this signature does not panic); C96_curves, C96_p256, C96_secp256r1, C96_w25519: the curves of the test suite; C96_curve_published: the key of RFC 6979, A.2.5. C96_valid_signing, C96_signing_cases: the two tests of signing with their options, with the claims written out (Spec/PublishedSignatures)."
  },
  {
   "property": "C97",
   "status": "proved",
   "theorems": [
    "LCT.Props.C97_encoding",
    "LCT.Props.C97_decoding",
    "LCT.Props.C97_encoding_decoding",
    "LCT.Props.C97_published"
   ],
   "note": "C97_encoding, C97_decoding: each run passes exactly for right entries (Spec/RlpTests) and panics otherwise; C97_encoding_decoding: right lower-case entries pass both; C97_published: a published entry, and entries on which the two runs differ."
  },
  {
   "property": "C98",
   "status": "proved",
   "theorems": [
    "LCT.Props.C98_none",
    "LCT.Props.C98_linux",
    "LCT.Props.C98_apple",
    "LCT.Props.C98_windows",
    "LCT.Props.C98_linux_constant"
   ],
   "note": "C98_linux, C98_apple, C98_windows: exact characterisation of a pass; C98_none; C98_linux_constant: constant replies are noticed only if they are zeros."
  },
  {
   "property": "C99",
   "status": "proved",
   "theorems": [
    "LCT.Props.C99_layout",
    "LCT.Props.C99_round_trip",
    "LCT.Props.C99_no_panic",
    "LCT.Props.C99_accepts_iff",
    "LCT.Props.C99_test"
   ],
   "note": "C99_layout: the encoding, byte by byte, or a panic beyond 2^32 bytes; C99_round_trip; C99_no_panic; C99_accepts_iff: exactly what is decoded; C99_test: when the test passes."
  },
  {
   "property": "C100",
   "status": "proved",
   "theorems": [
    "LCT.Props.C100_sha256",
    "LCT.Props.C100_sha384",
    "LCT.Props.C100_sha512",
    "LCT.Props.C100_published",
    "LCT.Props.C100_published_sha512"
   ],
   "note": "C100_sha256, C100_sha384, C100_sha512: when each test passes; C100_published, C100_published_sha512: the three tests as they are, which also shows that the hypotheses can be met."
  },
  {
   "property": "C101",
   "status": "partial",
   "theorems": [
    "LCT.Props.C101_item",
    "LCT.Props.C101_item_refused_partial",
    "LCT.Props.C101_bytes",
    "LCT.Props.C101_items",
    "LCT.Props.C101_items_refused_partial",
    "LCT.Props.C101_encoded",
    "LCT.Props.C101_panics"
   ],
   "note": "C101_item, C101_bytes, C101_items: what is accepted and what comes out; C101_encoded: the parts of an encoding. False as stated: C101_panics is a list that is accepted and then panics when taken apart, in both builds. C101_item_refused_partial and C101_items_refused_partial say exactly which data panic and that everything else is refused as an invalid format."
  },
  {
   "property": "C102",
   "status": "proved",
   "theorems": [
    "LCT.Props.C102_writes",
    "LCT.Props.C102_reads_back"
   ],
   "note": "C102_writes: what every history of calls returns; C102_reads_back: the decoder returns it."
  },
  {
   "property": "C103",
   "status": "proved",
   "theorems": [
    "LCT.Props.C103_items",
    "LCT.Props.C103_refused",
    "LCT.Props.C103_count",
    "LCT.Props.C103_too_large"
   ],
   "note": "C103_items: what is accepted and what comes out; C103_count: one item per size; C103_refused: everything else is refused without panic; C103_too_large: headers of 2^32 bytes or more."
  },
  {
   "property": "C104",
   "status": "proved",
   "theorems": [
    "LCT.Props.C104_writes",
    "LCT.Props.C104_never_wrong",
    "LCT.Props.C104_reads_back"
   ],
   "note": "C104_writes: the data taken; C104_never_wrong: at 2^32 bytes and more; C104_reads_back: taken apart again."
  }
 ]
}