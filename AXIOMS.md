# Axioms of each property theorem

As printed by `#print axioms`. No theorem depends on anything but `propext`, `Classical.choice` and `Quot.sound`, which are part of Lean's standard library.

| theorem | axioms |
|---|---|
| LCT.Props.C01_add | propext, Classical.choice, Quot.sound |
| LCT.Props.C01_sub | propext, Classical.choice, Quot.sound |
| LCT.Props.C01_neg | propext |
| LCT.Props.C02_mul | propext, Classical.choice, Quot.sound |
| LCT.Props.C03_div_rem | propext, Classical.choice, Quot.sound |
| LCT.Props.C03_unique | propext, Classical.choice, Quot.sound |
| LCT.Props.C03_zero_divisor | propext, Classical.choice, Quot.sound |
| LCT.Props.C04_shr | propext, Classical.choice, Quot.sound |
| LCT.Props.C04_shl_value | propext, Classical.choice, Quot.sound |
| LCT.Props.C04_shl_partial | propext, Classical.choice, Quot.sound |
| LCT.Props.C04_shl_zero_violated | propext, Classical.choice, Quot.sound |
| LCT.Props.C04_shl_zero_effect | propext |
| LCT.Props.C05_cmp | propext, Classical.choice, Quot.sound |
| LCT.Props.C05_eq | propext, Classical.choice, Quot.sound |
| LCT.Props.C05_is_zero | propext, Classical.choice, Quot.sound |
| LCT.Props.C06_to_be_bytes | propext, Classical.choice, Quot.sound |
| LCT.Props.C06_from_be_bytes | propext, Classical.choice, Quot.sound |
| LCT.Props.C06_round_trip | propext, Classical.choice, Quot.sound |
| LCT.Props.C06_empty_panics | none |
| LCT.Props.C07_print | propext, Classical.choice, Quot.sound |
| LCT.Props.C07_display | propext, Classical.choice, Quot.sound |
| LCT.Props.C07_parse_iff | propext, Classical.choice, Quot.sound |
| LCT.Props.C07_parse_total | propext, Classical.choice, Quot.sound |
| LCT.Props.C07_round_trip | propext, Classical.choice, Quot.sound |
| LCT.Props.C07_error | propext, Classical.choice, Quot.sound |
| LCT.Props.C08_accepts_iff | propext, Classical.choice, Quot.sound |
| LCT.Props.C08_numerals_partial | propext, Classical.choice, Quot.sound |
| LCT.Props.C08_rejects_partial | propext, Classical.choice, Quot.sound |
| LCT.Props.C08_total | propext, Classical.choice, Quot.sound |
| LCT.Props.C08_violated | propext, Classical.choice, Quot.sound |
| LCT.Props.C09_from_unsigned | propext, Classical.choice, Quot.sound |
| LCT.Props.C09_from_signed | propext, Classical.choice, Quot.sound |
| LCT.Props.C10_bit_len | propext, Classical.choice, Quot.sound |
| LCT.Props.C10_byte_len | propext, Classical.choice, Quot.sound |
| LCT.Props.C10_parity | propext, Classical.choice, Quot.sound |
| LCT.Props.C10_trailing_zeros | propext, Classical.choice, Quot.sound |
| LCT.Props.C10_trailing_zeros_zero | propext, Classical.choice, Quot.sound |
| LCT.Props.C10_le_bits | propext, Classical.choice, Quot.sound |
| LCT.Props.C11_gcd | propext, Classical.choice, Quot.sound |
| LCT.Props.C11_precondition | propext, Classical.choice, Quot.sound |
| LCT.Props.C12_nonneg_partial | propext, Classical.choice, Quot.sound |
| LCT.Props.C12_violated | propext, Quot.sound |
| LCT.Props.C12_exact | propext, Classical.choice, Quot.sound |
| LCT.Props.C12_negative_iff | propext, Classical.choice, Quot.sound |
| LCT.Props.C13_modulo | propext, Classical.choice, Quot.sound |
| LCT.Props.C13_invert | propext, Classical.choice, Quot.sound |
| LCT.Props.C13_invert_zero | propext, Classical.choice, Quot.sound |
| LCT.Props.C13_pow | propext, Classical.choice, Quot.sound |
| LCT.Props.C14_sqrt | propext, Classical.choice, Quot.sound |
| LCT.Props.C15_points | propext, Classical.choice, Quot.sound |
| LCT.Props.C15_add_points | propext, Classical.choice, Quot.sound |
| LCT.Props.C15_double_point | propext, Classical.choice, Quot.sound |
| LCT.Props.C15_order_two | propext, Classical.choice, Quot.sound |
| LCT.Props.C15_double_panics | propext, Classical.choice, Quot.sound |
| LCT.Props.C16_mul_point_exact | propext, Classical.choice, Quot.sound |
| LCT.Props.C16_mul_point | propext, Classical.choice, Quot.sound |
| LCT.Props.C16_mul_point_mod | propext, Classical.choice, Quot.sound |
| LCT.Props.C16_mul_point_add | propext, Classical.choice, Quot.sound |
| LCT.Props.C17_encode_spec | propext, Quot.sound |
| LCT.Props.C17_round_trip | propext, Quot.sound |
| LCT.Props.C17_decode_ok_iff | propext, Quot.sound |
| LCT.Props.C17_not_aligned_iff | propext, Quot.sound |
| LCT.Props.C17_invalid_char_iff | propext, Quot.sound |
| LCT.Props.C17_total | propext, Quot.sound |
| LCT.Props.C18_round_trip | propext, Classical.choice, Quot.sound |
| LCT.Props.C18_decode | propext, Classical.choice, Quot.sound |
| LCT.Props.C18_canonical | propext, Classical.choice, Quot.sound |
| LCT.Props.C19_round_trip_partial | propext, Classical.choice, Quot.sound |
| LCT.Props.C19_panics | propext, Classical.choice, Quot.sound |
| LCT.Props.C19_violated_secp256k1 | propext, Classical.choice, Quot.sound |
| LCT.Props.C20_root_panics | propext, Classical.choice, Quot.sound |
| LCT.Props.C20_w25519_panics | propext, Classical.choice, Quot.sound |
| LCT.Props.C20_even_cofactor_panics | propext, Classical.choice, Quot.sound |
| LCT.Props.C20_valid | propext, Classical.choice, Quot.sound |
| LCT.Props.C20_accepts_iff | propext, Classical.choice, Quot.sound |
| LCT.Props.C20_uncompressed | propext, Classical.choice, Quot.sound |
| LCT.Props.C20_compressed_partial | propext, Classical.choice, Quot.sound |
| LCT.Props.C20_violated_secp256k1 | propext, Classical.choice, Quot.sound |
| LCT.Props.C20_error | propext, Classical.choice, Quot.sound |
| LCT.Props.C21_default | propext, Classical.choice, Quot.sound |
| LCT.Props.C21_sign | propext, Classical.choice, Quot.sound |
| LCT.Props.C21_sign_then_verify | propext, Classical.choice, Quot.sound |
| LCT.Props.C22_low_s | propext, Classical.choice, Quot.sound |
| LCT.Props.C22_id | propext, Classical.choice, Quot.sound |
| LCT.Props.C22_id_identifies | propext, Classical.choice, Quot.sound |
| LCT.Props.C22_exactly_one | propext, Classical.choice, Quot.sound |
| LCT.Props.C22_malleable | propext, Classical.choice, Quot.sound |
| LCT.Props.C23_even_cofactor_panics | propext, Classical.choice, Quot.sound |
| LCT.Props.C23_unique_low | propext, Classical.choice, Quot.sound |
| LCT.Props.C23_signer_low | propext, Classical.choice, Quot.sound |
| LCT.Props.C23_signer_contained | propext, Classical.choice, Quot.sound |
| LCT.Props.C23_several_violated | propext, Classical.choice, Quot.sound |
| LCT.Props.C23_errors | propext, Classical.choice, Quot.sound |
| LCT.Props.C23_sound | propext, Classical.choice, Quot.sound |
| LCT.Props.C23_complete | propext, Classical.choice, Quot.sound |
| LCT.Props.C23_exact | propext, Classical.choice, Quot.sound |
| LCT.Props.C23_unique | propext, Classical.choice, Quot.sound |
| LCT.Props.C23_signer_partial | propext, Classical.choice, Quot.sound |
| LCT.Props.C23_signer_without_id | propext, Classical.choice, Quot.sound |
| LCT.Props.C23_signer_secp256k1 | propext, Classical.choice, Quot.sound |
| LCT.Props.C24_even_cofactor_panics | propext, Classical.choice, Quot.sound |
| LCT.Props.C24_private_key | propext, Classical.choice, Quot.sound |
| LCT.Props.C24_public_key_of_private | propext, Classical.choice, Quot.sound |
| LCT.Props.C24_public_key | propext, Classical.choice, Quot.sound |
| LCT.Props.C24_infinity | propext, Classical.choice, Quot.sound |
| LCT.Props.C24_domain_secp256k1 | propext, Classical.choice, Quot.sound |
| LCT.Props.C25_verify | propext, Classical.choice, Quot.sound |
| LCT.Props.C25_sign | propext, Classical.choice, Quot.sound |
| LCT.Props.C25_zero_hash_partial | propext, Classical.choice, Quot.sound |
| LCT.Props.C25_zero_modulo_order_accepted | propext, Classical.choice, Quot.sound |
| LCT.Props.C25_zero_modulo_order_accepted_secp256k1 | propext, Classical.choice, Quot.sound |
| LCT.Props.C26_sound | propext, Classical.choice, Quot.sound |
| LCT.Props.C26_complete | propext, Classical.choice, Quot.sound |
| LCT.Props.C26_deterministic | propext, Classical.choice, Quot.sound |
| LCT.Props.C26_unique | propext, Quot.sound |
| LCT.Props.C26_octets | propext, Classical.choice, Quot.sound |
| LCT.Props.C27_default | propext, Classical.choice, Quot.sound |
| LCT.Props.C27_progress | propext, Classical.choice, Quot.sound |
| LCT.Props.C27_first_usable | propext, Classical.choice, Quot.sound |
| LCT.Props.C27_random_error | propext, Classical.choice, Quot.sound |
| LCT.Props.C27_no_panic | propext, Classical.choice, Quot.sound |
| LCT.Props.C27_error_source | propext, Classical.choice, Quot.sound |
| LCT.Props.C27_stall | propext, Classical.choice, Quot.sound |
| LCT.Props.C27_stall_example | propext, Classical.choice, Quot.sound |
| LCT.Props.C28_hmac | propext, Quot.sound |
| LCT.Props.C28_length | propext, Quot.sound |
| LCT.Props.C29_sha256 | propext, Classical.choice, Quot.sound |
| LCT.Props.C29_lengths | propext, Classical.choice, Quot.sound |
| LCT.Props.C29_too_long | propext, Classical.choice, Quot.sound |
| LCT.Props.C29_constants | propext, Quot.sound |
| LCT.Props.C30_sha384 | propext, Classical.choice, Quot.sound |
| LCT.Props.C30_sha512 | propext, Classical.choice, Quot.sound |
| LCT.Props.C30_too_long | propext, Classical.choice, Quot.sound |
| LCT.Props.C30_constants | propext, Quot.sound |
| LCT.Props.C31_keccak256 | propext, Classical.choice, Quot.sound |
| LCT.Props.C31_sha3_224 | propext, Classical.choice, Quot.sound |
| LCT.Props.C31_sha3_256 | propext, Classical.choice, Quot.sound |
| LCT.Props.C31_sha3_384 | propext, Classical.choice, Quot.sound |
| LCT.Props.C31_sha3_512 | propext, Classical.choice, Quot.sound |
| LCT.Props.C31_lengths | propext, Classical.choice, Quot.sound |
| LCT.Props.C31_blocks | propext, Quot.sound |
| LCT.Props.C31_hmac | propext, Classical.choice, Quot.sound |
| LCT.Props.C32_state | propext, Quot.sound |
| LCT.Props.C32_history | propext, Quot.sound |
| LCT.Props.C32_keccak256 | propext, Classical.choice, Quot.sound |
| LCT.Props.C33_calculate_k | propext, Quot.sound |
| LCT.Props.C33_padding | propext, Quot.sound |
| LCT.Props.C33_injective | propext, Classical.choice, Quot.sound |
| LCT.Props.C34_round_trip | propext, Classical.choice, Quot.sound |
| LCT.Props.C34_decode_data | propext, Classical.choice, Quot.sound |
| LCT.Props.C34_decode_list | propext, Classical.choice, Quot.sound |
| LCT.Props.C35_encode_spec | propext, Classical.choice, Quot.sound |
| LCT.Props.C35_prefix_free | propext, Classical.choice, Quot.sound |
| LCT.Props.C35_injective | propext, Classical.choice, Quot.sound |
| LCT.Props.C36_panics | none |
| LCT.Props.C36_decode_data_partial | propext, Quot.sound |
| LCT.Props.C36_release | propext, Classical.choice, Quot.sound |
| LCT.Props.C36_decode_list_partial | propext, Classical.choice, Quot.sound |
| LCT.Props.C36_list_panics_iff_partial | propext, Classical.choice, Quot.sound |
| LCT.Props.C36_decode_tree_partial | propext, Classical.choice, Quot.sound |
| LCT.Props.C36_tree_panics_iff_partial | propext, Classical.choice, Quot.sound |
| LCT.Props.C36_tree_terminates | propext, Classical.choice, Quot.sound |
| LCT.Props.C36_scalars_partial | propext, Classical.choice, Quot.sound |
| LCT.Props.C36_vec_debug_panics | none |
| LCT.Props.C36_types_partial | propext, Classical.choice, Quot.sound |
| LCT.Props.C36_types_panic | propext, Classical.choice, Quot.sound |
| LCT.Props.C36_types_panics_iff_partial | propext, Classical.choice, Quot.sound |
| LCT.Props.C37_not_canonical | none |
| LCT.Props.C37_accepts_iff | propext, Classical.choice, Quot.sound |
| LCT.Props.C37_canonical_partial | propext, Classical.choice, Quot.sound |
| LCT.Props.C37_list_accepts_iff | propext, Classical.choice, Quot.sound |
| LCT.Props.C37_tree_accepts_iff | propext, Classical.choice, Quot.sound |
| LCT.Props.C37_tree_shortest_partial | propext, Classical.choice, Quot.sound |
| LCT.Props.C38_wei_chain_id | propext, Classical.choice, Quot.sound |
| LCT.Props.C38_nonce_from_u64 | propext |
| LCT.Props.C38_nonce | propext, Classical.choice, Quot.sound |
| LCT.Props.C38_address | propext, Classical.choice, Quot.sound |
| LCT.Props.C38_storage_key | propext, Classical.choice, Quot.sound |
| LCT.Props.C38_access_list | propext, Classical.choice, Quot.sound |
| LCT.Props.C38_u64 | propext, Classical.choice, Quot.sound |
| LCT.Props.C38_biguint | propext, Classical.choice, Quot.sound |
| LCT.Props.C38_string | propext, Classical.choice, Quot.sound |
| LCT.Props.C38_bytes | propext, Classical.choice, Quot.sound |
| LCT.Props.C38_minBE_spec | propext, Classical.choice, Quot.sound |
| LCT.Props.C39_address_from_bytes | none |
| LCT.Props.C39_storage_key_from_bytes | none |
| LCT.Props.C39_address_parse_iff | propext, Quot.sound |
| LCT.Props.C39_address_parse_total | propext, Quot.sound |
| LCT.Props.C39_storage_key_parse_iff | propext, Quot.sound |
| LCT.Props.C39_storage_key_parse_total | propext, Quot.sound |
| LCT.Props.C39_address_print | propext, Classical.choice, Quot.sound |
| LCT.Props.C39_address_print_parse | propext, Classical.choice, Quot.sound |
| LCT.Props.C39_address_fixed_point | propext, Classical.choice, Quot.sound |
| LCT.Props.C39_storage_key_print | propext, Quot.sound |
| LCT.Props.C39_null | none |
| LCT.Props.C40_round_trip | propext, Classical.choice, Quot.sound |
| LCT.Props.C41_round_trip_partial | propext, Classical.choice, Quot.sound |
| LCT.Props.C41_chain_id_violated | propext, Classical.choice, Quot.sound |
| LCT.Props.C42_eip2930 | propext, Classical.choice, Quot.sound |
| LCT.Props.C42_eip1559 | propext, Classical.choice, Quot.sound |
| LCT.Props.C42_access_list | propext, Quot.sound |
| LCT.Props.C43_legacy_outcome | propext, Classical.choice, Quot.sound |
| LCT.Props.C43_legacy | propext, Classical.choice, Quot.sound |
| LCT.Props.C43_eip155_outcome | propext, Classical.choice, Quot.sound |
| LCT.Props.C43_eip155 | propext, Classical.choice, Quot.sound |
| LCT.Props.C43_eip2930_outcome | propext, Classical.choice, Quot.sound |
| LCT.Props.C43_eip2930 | propext, Classical.choice, Quot.sound |
| LCT.Props.C43_eip1559_outcome | propext, Classical.choice, Quot.sound |
| LCT.Props.C43_eip1559 | propext, Classical.choice, Quot.sound |
| LCT.Props.C43_legacy_sender_partial | propext, Classical.choice, Quot.sound |
| LCT.Props.C43_eip155_sender_partial | propext, Classical.choice, Quot.sound |
| LCT.Props.C43_eip2930_sender_partial | propext, Classical.choice, Quot.sound |
| LCT.Props.C43_eip1559_sender_partial | propext, Classical.choice, Quot.sound |
| LCT.Props.C43_high_x_violated | propext, Classical.choice, Quot.sound |
| LCT.Props.Published.C43_published | propext, Classical.choice, Quot.sound |
| LCT.Props.C43_sender_exact | propext, Classical.choice, Quot.sound |
| LCT.Props.C44_injective | propext, Classical.choice, Quot.sound |
| LCT.Props.C44_code_legacy | propext, Classical.choice, Quot.sound |
| LCT.Props.C44_code_eip155 | propext, Classical.choice, Quot.sound |
| LCT.Props.C44_code_eip2930 | propext, Classical.choice, Quot.sound |
| LCT.Props.C44_code_eip1559 | propext, Classical.choice, Quot.sound |
| LCT.Props.C45_missing | propext, Quot.sound |
| LCT.Props.C45_legacy | propext, Quot.sound |
| LCT.Props.C45_eip155 | propext, Quot.sound |
| LCT.Props.C45_eip2930 | propext, Quot.sound |
| LCT.Props.C45_eip1559 | propext, Quot.sound |
| LCT.Props.C46_mismatch_iff | propext, Classical.choice, Quot.sound |
| LCT.Props.C46_eip155_iff | propext, Classical.choice, Quot.sound |
| LCT.Props.C46_legacy_is_not_eip155 | propext, Classical.choice, Quot.sound |
| LCT.Props.C46_eip155_is_not_legacy_partial | propext, Classical.choice, Quot.sound |
| LCT.Props.C46_eip155_as_legacy_violated | propext, Classical.choice, Quot.sound |
| LCT.Props.C47_private_key | propext, Classical.choice, Quot.sound |
| LCT.Props.C47_address | propext, Classical.choice, Quot.sound |
| LCT.Props.C48_round_trip_partial | propext, Classical.choice, Quot.sound |
| LCT.Props.C48_round_trip_simple | propext, Classical.choice, Quot.sound |
| LCT.Props.C48_violated | propext, Classical.choice, Quot.sound |
| LCT.Props.C48_outcome | propext, Classical.choice, Quot.sound |
| LCT.Props.C48_unreachable | propext, Classical.choice, Quot.sound |
| LCT.Props.C48_reencode | propext, Classical.choice, Quot.sound |
| LCT.Props.C49_no_panic_partial | propext, Classical.choice, Quot.sound |
| LCT.Props.C49_violated | propext, Classical.choice, Quot.sound |
| LCT.Props.C49_panics_iff | propext, Classical.choice, Quot.sound |
| LCT.Props.C49_outcome | propext, Classical.choice, Quot.sound |
| LCT.Props.C49_violated_illegal | propext, Classical.choice, Quot.sound |
| LCT.Props.C50_layout | propext, Classical.choice, Quot.sound |
| LCT.Props.C50_size | propext, Classical.choice, Quot.sound |
| LCT.Props.C51_canonical_partial | propext, Classical.choice, Quot.sound |
| LCT.Props.C51_accepts_iff | propext, Classical.choice, Quot.sound |
| LCT.Props.C51_builds | propext, Classical.choice, Quot.sound |
| LCT.Props.C51_canonical_fixed | propext, Classical.choice, Quot.sound |
| LCT.Props.C51_canonical_container | propext, Classical.choice, Quot.sound |
| LCT.Props.C51_canonical_vector | propext, Classical.choice, Quot.sound |
| LCT.Props.C51_violated_trailing | propext |
| LCT.Props.C51_violated_gap | propext |
| LCT.Props.C51_violated_vector | propext |
| LCT.Props.C52_linux_ok | propext, Classical.choice, Quot.sound |
| LCT.Props.C52_linux_total | propext, Classical.choice, Quot.sound |
| LCT.Props.C52_linux_error | propext, Quot.sound |
| LCT.Props.C52_apple | propext |
| LCT.Props.C52_windows | propext, Classical.choice, Quot.sound |
| LCT.Props.C53_parameters | propext, Classical.choice, Quot.sound |
| LCT.Props.C53_primes | propext, Classical.choice, Quot.sound |
| LCT.Props.C53_curve | propext, Classical.choice, Quot.sound |
| LCT.Props.C53_base_point | propext, Classical.choice, Quot.sound |
| LCT.Props.C53_run | propext, Classical.choice, Quot.sound |
| LCT.Props.C54_recovery_id | propext, Quot.sound |
| LCT.Props.C54_parity | none |
| LCT.Props.C54_id_parity | propext, Quot.sound |
| LCT.Props.C55_rlp_reuse | propext |
| LCT.Props.C55_ssz_reuse | propext, Quot.sound |
| LCT.Props.C55_ssz_empty | propext, Quot.sound |
| LCT.Props.C56_panics | propext, Quot.sound |
| LCT.Props.C56_debug_panics | none |
| LCT.Props.C56_terminates | propext, Classical.choice, Quot.sound |
| LCT.Props.C56_untyped_partial | propext, Classical.choice, Quot.sound |
| LCT.Props.C56_typed_partial | propext, Classical.choice, Quot.sound |
| LCT.Props.C56_untyped_panics_iff | propext, Classical.choice, Quot.sound |
| LCT.Props.C56_typed_panics_iff | propext, Classical.choice, Quot.sound |
| LCT.Props.C56_returns_iff | propext, Classical.choice, Quot.sound |
| LCT.Props.C57_legacy_iff | propext, Classical.choice, Quot.sound |
| LCT.Props.C57_legacy_meaning | propext, Classical.choice, Quot.sound |
| LCT.Props.C57_eip155_iff | propext, Classical.choice, Quot.sound |
| LCT.Props.C57_eip155_meaning | propext, Classical.choice, Quot.sound |
| LCT.Props.C57_eip2930_iff | propext, Classical.choice, Quot.sound |
| LCT.Props.C57_eip2930_meaning | propext, Classical.choice, Quot.sound |
| LCT.Props.C57_eip1559_iff | propext, Classical.choice, Quot.sound |
| LCT.Props.C57_eip1559_meaning | propext, Classical.choice, Quot.sound |
| LCT.Props.C58_from_hex_iff | propext, Classical.choice, Quot.sound |
| LCT.Props.C58_accepts_iff | propext, Classical.choice, Quot.sound |
| LCT.Props.C58_numerals_partial | propext, Classical.choice, Quot.sound |
| LCT.Props.C58_decimal_partial | propext, Classical.choice, Quot.sound |
| LCT.Props.C58_total | propext, Classical.choice, Quot.sound |
| LCT.Props.C58_violated_negative | propext, Classical.choice, Quot.sound |
| LCT.Props.C58_violated_encoding | propext, Classical.choice, Quot.sound |
| LCT.Props.C58_violated | propext, Classical.choice, Quot.sound |
| LCT.Props.C58_display | propext, Classical.choice, Quot.sound |
| LCT.Props.C58_round_trip | propext, Classical.choice, Quot.sound |
| LCT.Props.C58_one_value | propext, Classical.choice, Quot.sound |
| LCT.Props.C58_chains | propext, Classical.choice, Quot.sound |
| LCT.Props.C58_chain_id | propext, Classical.choice, Quot.sound |
| LCT.Props.C58_nonce_iff | propext, Quot.sound |
| LCT.Props.C58_nonce_display | propext, Quot.sound |
| LCT.Props.C59_legacy_violated | propext, Classical.choice, Quot.sound |
| LCT.Props.C59_eip155_violated | propext, Classical.choice, Quot.sound |
| LCT.Props.C59_eip2930_violated | propext, Classical.choice, Quot.sound |
| LCT.Props.C59_eip1559_violated | propext, Classical.choice, Quot.sound |
| LCT.Props.C59_legacy_partial | propext, Classical.choice, Quot.sound |
| LCT.Props.C59_eip155_partial | propext, Classical.choice, Quot.sound |
| LCT.Props.C59_eip2930_partial | propext, Classical.choice, Quot.sound |
| LCT.Props.C59_eip1559_partial | propext, Classical.choice, Quot.sound |
| LCT.Props.C60_legacy | propext, Classical.choice, Quot.sound |
| LCT.Props.C60_eip155 | propext, Classical.choice, Quot.sound |
| LCT.Props.C60_eip2930 | propext, Classical.choice, Quot.sound |
| LCT.Props.C60_eip1559 | propext, Classical.choice, Quot.sound |
| LCT.Props.C60_injective | propext, Classical.choice, Quot.sound |
| LCT.Props.C61_prints_iff | propext, Classical.choice, Quot.sound |
| LCT.Props.C61_unique | propext, Classical.choice, Quot.sound |
| LCT.Props.C61_total | propext, Classical.choice, Quot.sound |
| LCT.Props.C61_encoding | propext, Classical.choice, Quot.sound |
| LCT.Props.C61_prints_partial | propext, Classical.choice, Quot.sound |
| LCT.Props.C61_chain_id_violated | propext, Classical.choice, Quot.sound |
| LCT.Props.C62_legacy_partial | propext, Classical.choice, Quot.sound |
| LCT.Props.C62_eip2930_partial | propext, Classical.choice, Quot.sound |
| LCT.Props.C62_eip1559_partial | propext, Classical.choice, Quot.sound |
| LCT.Props.C62_eip155_partial | propext, Classical.choice, Quot.sound |
| LCT.Props.C62_eip155_receiver_violated | propext, Classical.choice, Quot.sound |
| LCT.Props.C63_prints | propext, Classical.choice, Quot.sound |
| LCT.Props.C63_panics | propext, Classical.choice, Quot.sound |
| LCT.Props.C64_prints | propext, Classical.choice, Quot.sound |
| LCT.Props.C64_unique | propext, Classical.choice, Quot.sound |
| LCT.Props.C64_not_hex | propext, Classical.choice, Quot.sound |
| LCT.Props.C64_malformed_partial | propext, Classical.choice, Quot.sound |
| LCT.Props.C64_panics | propext, Classical.choice, Quot.sound |
| LCT.Props.C64_missing | propext, Classical.choice, Quot.sound |
| LCT.Props.C65_rejects | propext, Classical.choice, Quot.sound |
| LCT.Props.C65_finds_iff_partial | propext, Classical.choice, Quot.sound |
| LCT.Props.C65_goes_on_partial | propext, Classical.choice, Quot.sound |
| LCT.Props.C65_bad_key | propext, Classical.choice, Quot.sound |
| LCT.Props.C65_long_prefix_violated | propext, Classical.choice, Quot.sound |
| LCT.Props.C66_prints | propext, Classical.choice, Quot.sound |
| LCT.Props.C66_panics | propext, Classical.choice, Quot.sound |
| LCT.Props.C67_calls | propext, Classical.choice, Quot.sound |
| LCT.Props.C67_stable | propext, Classical.choice, Quot.sound |
| LCT.Props.C67_progress | propext, Classical.choice, Quot.sound |
| LCT.Props.C68_integers | propext, Quot.sound |
| LCT.Props.C68_math | propext, Quot.sound |
| LCT.Props.C68_hashes | propext, Quot.sound |
| LCT.Props.C68_signatures | propext, Quot.sound |
| LCT.Props.C68_codecs | propext, Quot.sound |
| LCT.Props.C68_transactions | propext, Classical.choice, Quot.sound |
| LCT.Props.C68_accounts | propext, Classical.choice, Quot.sound |
| LCT.Props.C68_programs | propext, Classical.choice, Quot.sound |
| LCT.Props.C69_one_form | propext, Classical.choice, Quot.sound |
| LCT.Props.C69_hashes | propext, Classical.choice, Quot.sound |
| LCT.Props.C69_second_hash | propext, Classical.choice, Quot.sound |
| LCT.Props.C69_keys | propext, Classical.choice, Quot.sound |
| LCT.Props.C69_one_form_secp256k1 | propext, Classical.choice, Quot.sound |
| LCT.Props.C70_integers | propext, Classical.choice, Quot.sound |
| LCT.Props.C70_shl_partial | propext, Classical.choice, Quot.sound |
| LCT.Props.C70_sources | propext, Classical.choice, Quot.sound |
| LCT.Props.C70_modular | propext, Classical.choice, Quot.sound |
| LCT.Props.C70_points | propext, Classical.choice, Quot.sound |
| LCT.Props.C70_secp256k1 | propext, Classical.choice, Quot.sound |
| LCT.Props.C70_keys | propext, Classical.choice, Quot.sound |
| LCT.Props.C70_encodings | propext, Classical.choice, Quot.sound |
| LCT.Props.C70_signing | propext, Classical.choice, Quot.sound |
| LCT.Props.C70_verifying | propext, Classical.choice, Quot.sound |
| LCT.Props.C70_accounts | propext, Classical.choice, Quot.sound |
| LCT.Props.C70_builder | propext |
| LCT.Props.C70_transaction_signing | propext, Classical.choice, Quot.sound |
| LCT.Props.C70_transaction_output | propext, Classical.choice, Quot.sound |
| LCT.Props.C70_transaction_decoding | propext, Classical.choice, Quot.sound |
| LCT.Props.C70_programs | propext, Classical.choice, Quot.sound |
| LCT.Props.C70_shl_violated | propext, Classical.choice, Quot.sound |
| LCT.Props.C71_same_model | propext, Quot.sound |
| LCT.Props.C71_accepts | propext, Classical.choice, Quot.sound |
| LCT.Props.C71_list_accepts | propext, Classical.choice, Quot.sound |
| LCT.Props.C71_panics | propext, Classical.choice, Quot.sound |
| LCT.Props.C71_list_panics | propext, Classical.choice, Quot.sound |
| LCT.Props.C71_violated | propext, Classical.choice, Quot.sound |
| LCT.Props.C71_violated_panic | none |
| LCT.Props.C71_targets_agree_partial | propext, Quot.sound |
| LCT.Props.C71_only_more | propext, Classical.choice, Quot.sound |
| LCT.Props.C72_same_function | propext, Quot.sound |
| LCT.Props.C72_encode | propext, Quot.sound |
| LCT.Props.C72_encode_one_buffer | propext, Quot.sound |
| LCT.Props.C72_decode_sees | propext, Classical.choice, Quot.sound |
| LCT.Props.C72_decode_partial | propext, Classical.choice, Quot.sound |
| LCT.Props.C72_decode_violated | propext, Classical.choice, Quot.sound |
| LCT.Props.C72_table_would_leak | propext, Quot.sound |
| LCT.Props.C73_rlp | propext, Classical.choice, Quot.sound |
| LCT.Props.C73_rlp_depth | propext, Classical.choice, Quot.sound |
| LCT.Props.C73_ssz_partial | propext, Classical.choice, Quot.sound |
| LCT.Props.C73_ssz_levels | propext, Classical.choice, Quot.sound |
| LCT.Props.C73_ssz_violated | propext, Classical.choice, Quot.sound |
| LCT.Props.C74_sha256 | propext, Classical.choice, Quot.sound |
| LCT.Props.C74_sha512 | propext, Classical.choice, Quot.sound |
| LCT.Props.C74_sha384 | propext, Classical.choice, Quot.sound |
| LCT.Props.C74_permutation | propext, Quot.sound |
| LCT.Props.C74_permutation_code | propext, Classical.choice, Quot.sound |
| LCT.Props.C74_sha3 | propext, Classical.choice, Quot.sound |
| LCT.Props.C74_keccak256 | propext, Classical.choice, Quot.sound |
| LCT.Props.C74_keccak256_short | propext, Quot.sound |
| LCT.Props.C75_public_key | propext, Classical.choice, Quot.sound |
| LCT.Props.C75_text | propext, Classical.choice, Quot.sound |
| LCT.Props.C75_address | propext, Classical.choice, Quot.sound |
| LCT.Props.C76_same_r | propext, Classical.choice, Quot.sound |
| LCT.Props.C76_known_nonce | propext, Classical.choice, Quot.sound |
| LCT.Props.C77_nonce | propext, Classical.choice, Quot.sound |
| LCT.Props.C77_sign | propext, Classical.choice, Quot.sound |
| LCT.Props.C78_random | propext, Classical.choice, Quot.sound |
| LCT.Props.C78_nonce | propext, Classical.choice, Quot.sound |
| LCT.Props.C78_signing | propext, Classical.choice, Quot.sound |
| LCT.Props.C78_building | propext, Classical.choice, Quot.sound |
| LCT.Props.C78_others | propext, Classical.choice, Quot.sound |
| LCT.Props.C78_chain | propext, Classical.choice, Quot.sound |
| LCT.Props.C79_one_hash | propext, Classical.choice, Quot.sound |
| LCT.Props.C79_transactions | propext, Classical.choice, Quot.sound |
| LCT.Props.C80_gcd | propext, Classical.choice, Quot.sound |
| LCT.Props.C80_pow | propext, Classical.choice, Quot.sound |
| LCT.Props.C80_sqrt | propext, Classical.choice, Quot.sound |
| LCT.Props.C80_sqrt_secp256k1 | propext, Classical.choice, Quot.sound |
| LCT.Props.C80_sqrt_result | propext, Classical.choice, Quot.sound |
| LCT.Props.C81_keccak256 | propext, Classical.choice, Quot.sound |
| LCT.Props.C81_sha3_224 | propext, Classical.choice, Quot.sound |
| LCT.Props.C81_sha3_256 | propext, Classical.choice, Quot.sound |
| LCT.Props.C81_sha3_384 | propext, Classical.choice, Quot.sound |
| LCT.Props.C81_sha3_512 | propext, Classical.choice, Quot.sound |
| LCT.Props.C81_same | propext, Classical.choice, Quot.sound |
| LCT.Props.C81_little | propext, Classical.choice, Quot.sound |
| LCT.Props.C81_hmac | propext, Classical.choice, Quot.sound |
| LCT.Props.C82_hex_text | propext, Quot.sound |
| LCT.Props.C82_address_text | propext, Classical.choice, Quot.sound |
| LCT.Props.C82_reinterpret | propext, Classical.choice, Quot.sound |
| LCT.Props.C83_add | propext, Classical.choice, Quot.sound |
| LCT.Props.C83_sub | propext, Classical.choice, Quot.sound |
| LCT.Props.C83_mul | propext |
| LCT.Props.C83_div | propext |
| LCT.Props.C83_gcd | propext, Classical.choice, Quot.sound |
| LCT.Props.C83_refines | propext, Classical.choice, Quot.sound |
| LCT.Props.C84_int | propext, Classical.choice, Quot.sound |
| LCT.Props.C84_point | propext, Classical.choice, Quot.sound |
| LCT.Props.C84_curve | propext, Classical.choice, Quot.sound |
| LCT.Props.C84_params | propext, Classical.choice, Quot.sound |
| LCT.Props.C84_public | propext, Classical.choice, Quot.sound |
| LCT.Props.C84_equivalence | propext, Classical.choice, Quot.sound |
| LCT.Props.C84_integers | propext, Classical.choice, Quot.sound |
| LCT.Props.C84_shl | propext, Classical.choice, Quot.sound |
| LCT.Props.C84_modular | propext, Classical.choice, Quot.sound |
| LCT.Props.C84_points | propext, Classical.choice, Quot.sound |
| LCT.Props.C84_keys | propext, Classical.choice, Quot.sound |
| LCT.Props.C84_decoding | propext, Classical.choice, Quot.sound |
| LCT.Props.C84_signatures | propext, Classical.choice, Quot.sound |
| LCT.Props.C84_public_output | propext, Classical.choice, Quot.sound |
| LCT.Props.C84_signing | propext, Classical.choice, Quot.sound |
| LCT.Props.C84_transactions | propext, Classical.choice, Quot.sound |
| LCT.Props.C85_binding | propext, Quot.sound |
| LCT.Props.C85_binding_same_length | propext, Quot.sound |
| LCT.Props.C85_one_key | propext, Quot.sound |
| LCT.Props.C85_library | propext, Classical.choice, Quot.sound |
| LCT.Props.C86_sign_partial | propext, Classical.choice, Quot.sound |
| LCT.Props.C86_drawn_below | propext, Classical.choice, Quot.sound |
| LCT.Props.C86_sign_violated | propext, Classical.choice, Quot.sound |
| LCT.Props.C86_sec1_partial | propext, Classical.choice, Quot.sound |
| LCT.Props.C86_sec1_violated | propext, Classical.choice, Quot.sound |
| LCT.Props.C86_rlp_partial | propext, Classical.choice, Quot.sound |
| LCT.Props.C86_rlp_violated | propext, Classical.choice, Quot.sound |
| LCT.Props.C86_byte_len | propext, Classical.choice, Quot.sound |
| LCT.Props.C86_hex | propext, Classical.choice, Quot.sound |
| LCT.Props.C86_radix_16 | propext, Classical.choice, Quot.sound |
| LCT.Props.C86_radix | propext, Classical.choice, Quot.sound |
| LCT.Props.C86_div_rem | propext, Classical.choice, Quot.sound |
| LCT.Props.C86_from_int | propext, Classical.choice, Quot.sound |
| LCT.Props.C86_gcd | propext, Classical.choice, Quot.sound |
| LCT.Props.C86_shift_right | propext, Classical.choice, Quot.sound |
| LCT.Props.C86_shift_left_partial | propext, Classical.choice, Quot.sound |
| LCT.Props.C86_shift_left_64 | propext, Classical.choice, Quot.sound |
| LCT.Props.C86_shift_left_violated | propext, Quot.sound |
| LCT.Props.C86_sha2 | propext, Classical.choice, Quot.sound |
| LCT.Props.C86_codecs | propext, Classical.choice, Quot.sound |
| LCT.Props.C87_call | propext, Classical.choice, Quot.sound |
| LCT.Props.C87_client_partial | propext, Classical.choice, Quot.sound |
| LCT.Props.C87_answers | propext, Classical.choice, Quot.sound |
| LCT.Props.C87_same | propext, Classical.choice, Quot.sound |
| LCT.Props.C87_violated | propext, Quot.sound |
| LCT.Props.C88_call | propext, Classical.choice, Quot.sound |
| LCT.Props.C88_client_partial | propext, Classical.choice, Quot.sound |
| LCT.Props.C88_answered | propext, Classical.choice, Quot.sound |
| LCT.Props.C88_default_partial | propext, Classical.choice, Quot.sound |
| LCT.Props.C88_violated | propext, Classical.choice, Quot.sound |
| LCT.Props.C89_encode | propext, Classical.choice, Quot.sound |
| LCT.Props.C89_accepts_iff | propext, Classical.choice, Quot.sound |
| LCT.Props.C89_round_trip | propext, Classical.choice, Quot.sound |
| LCT.Props.C89_injective | propext, Classical.choice, Quot.sound |
| LCT.Props.C89_access_list_item | propext, Classical.choice, Quot.sound |
| LCT.Props.C90_call | propext, Classical.choice, Quot.sound |
| LCT.Props.C90_client_partial | propext, Classical.choice, Quot.sound |
| LCT.Props.C90_answered | propext, Classical.choice, Quot.sound |
| LCT.Props.C90_violated | propext, Classical.choice, Quot.sound |
| LCT.Props.C90_published | propext, Classical.choice, Quot.sound |
| LCT.Props.C91_named | propext, Classical.choice, Quot.sound |
| LCT.Props.C91_named_client_partial | propext, Classical.choice, Quot.sound |
| LCT.Props.C91_named_sign_verify | propext, Classical.choice, Quot.sound |
| LCT.Props.C91_unaligned_violated | propext, Classical.choice, Quot.sound |
| LCT.Props.C91_unaligned_examples | propext, Classical.choice, Quot.sound |
| LCT.Props.C91_domain | propext, Classical.choice, Quot.sound |
| LCT.Props.C91_client_partial | propext, Classical.choice, Quot.sound |
| LCT.Props.C91_published | propext, Classical.choice, Quot.sound |
| LCT.Props.C91_secp256r1 | propext, Classical.choice, Quot.sound |
| LCT.Props.C91_w25519 | propext, Classical.choice, Quot.sound |
| LCT.Props.C91_w25519_form | propext, Classical.choice, Quot.sound |
| LCT.Props.C91_w25519_sign_verify | propext, Classical.choice, Quot.sound |
| LCT.Props.C91_w25519_violated | propext, Classical.choice, Quot.sound |
| LCT.Props.C92_ecdsa | propext, Classical.choice, Quot.sound |
| LCT.Props.C92_ecdsa_history | propext, Classical.choice, Quot.sound |
| LCT.Props.C92_hmac | propext, Classical.choice, Quot.sound |
| LCT.Props.C92_known_answers | propext, Classical.choice, Quot.sound |
| LCT.Props.C92_known_answers_length | propext, Classical.choice, Quot.sound |
| LCT.Props.C93_bench_division_partial | propext, Classical.choice, Quot.sound |
| LCT.Props.C93_bench_public_key_partial | propext, Classical.choice, Quot.sound |
| LCT.Props.C93_bench_signing_partial | propext, Classical.choice, Quot.sound |
| LCT.Props.C93_violated | propext, Classical.choice, Quot.sound |
| LCT.Props.C93_hex_string | propext, Classical.choice, Quot.sound |
| LCT.Props.C93_signed_hex_string | propext, Classical.choice, Quot.sound |
| LCT.Props.C93_random_hex | propext, Classical.choice, Quot.sound |
| LCT.Props.C93_aligned | propext, Quot.sound |
| LCT.Props.C93_aligned_wei | propext, Classical.choice, Quot.sound |
| LCT.Props.C94_untyped | propext, Classical.choice, Quot.sound |
| LCT.Props.C94_legacy | propext, Classical.choice, Quot.sound |
| LCT.Props.C94_eip155 | propext, Classical.choice, Quot.sound |
| LCT.Props.C94_eip2930 | propext, Classical.choice, Quot.sound |
| LCT.Props.C94_eip1559 | propext, Classical.choice, Quot.sound |
| LCT.Props.C94_published | propext, Classical.choice, Quot.sound |
| LCT.Props.C95_is_private | propext, Classical.choice, Quot.sound |
| LCT.Props.C95_private_add | propext, Classical.choice, Quot.sound |
| LCT.Props.C95_negate | propext, Classical.choice, Quot.sound |
| LCT.Props.C95_public_of_private | propext, Classical.choice, Quot.sound |
| LCT.Props.C95_is_point | propext, Classical.choice, Quot.sound |
| LCT.Props.C95_point_from_scalar | propext, Classical.choice, Quot.sound |
| LCT.Props.C95_point_compress | propext, Classical.choice, Quot.sound |
| LCT.Props.C95_invalid_verify | propext, Classical.choice, Quot.sound |
| LCT.Props.C95_accounts | propext, Classical.choice, Quot.sound |
| LCT.Props.C95_secp256k1 | propext, Classical.choice, Quot.sound |
| LCT.Props.C95_wrong_signature | propext, Classical.choice, Quot.sound |
| LCT.Props.C96_curves | propext, Classical.choice, Quot.sound |
| LCT.Props.C96_p256 | propext, Classical.choice, Quot.sound |
| LCT.Props.C96_secp256r1 | propext, Classical.choice, Quot.sound |
| LCT.Props.C96_w25519 | propext, Classical.choice, Quot.sound |
| LCT.Props.C96_curve_published | propext, Classical.choice, Quot.sound |
| LCT.Props.C96_valid_signing | propext, Classical.choice, Quot.sound |
| LCT.Props.C96_signing_cases | propext, Classical.choice, Quot.sound |
| LCT.Props.C96_signing | propext, Classical.choice, Quot.sound |
| LCT.Props.C96_invalid_signing | propext, Classical.choice, Quot.sound |
| LCT.Props.C96_recovery | propext, Classical.choice, Quot.sound |
| LCT.Props.C96_curve | propext, Classical.choice, Quot.sound |
| LCT.Props.C96_other_key | propext, Classical.choice, Quot.sound |
| LCT.Props.C96_published | propext, Classical.choice, Quot.sound |
| LCT.Props.C97_encoding | propext, Classical.choice, Quot.sound |
| LCT.Props.C97_decoding | propext, Classical.choice, Quot.sound |
| LCT.Props.C97_encoding_decoding | propext, Classical.choice, Quot.sound |
| LCT.Props.C97_published | propext, Quot.sound |
| LCT.Props.C98_none | none |
| LCT.Props.C98_linux | propext, Classical.choice, Quot.sound |
| LCT.Props.C98_apple | propext, Classical.choice, Quot.sound |
| LCT.Props.C98_windows | propext, Classical.choice, Quot.sound |
| LCT.Props.C98_linux_constant | propext, Classical.choice, Quot.sound |
| LCT.Props.C99_layout | propext, Classical.choice, Quot.sound |
| LCT.Props.C99_round_trip | propext, Classical.choice, Quot.sound |
| LCT.Props.C99_no_panic | propext, Classical.choice, Quot.sound |
| LCT.Props.C99_accepts_iff | propext, Classical.choice, Quot.sound |
| LCT.Props.C99_test | propext, Classical.choice, Quot.sound |
| LCT.Props.C100_sha256 | propext, Classical.choice, Quot.sound |
| LCT.Props.C100_sha384 | propext, Classical.choice, Quot.sound |
| LCT.Props.C100_sha512 | propext, Classical.choice, Quot.sound |
| LCT.Props.C100_published | propext, Classical.choice, Quot.sound |
| LCT.Props.C100_published_sha512 | propext, Classical.choice, Quot.sound |
| LCT.Props.C101_item | propext, Classical.choice, Quot.sound |
| LCT.Props.C101_item_refused_partial | propext, Classical.choice, Quot.sound |
| LCT.Props.C101_bytes | propext |
| LCT.Props.C101_items | propext, Classical.choice, Quot.sound |
| LCT.Props.C101_items_refused_partial | propext, Classical.choice, Quot.sound |
| LCT.Props.C101_encoded | propext, Classical.choice, Quot.sound |
| LCT.Props.C101_panics | none |
| LCT.Props.C102_writes | propext, Classical.choice, Quot.sound |
| LCT.Props.C102_reads_back | propext, Classical.choice, Quot.sound |
| LCT.Props.C103_items | propext, Classical.choice, Quot.sound |
| LCT.Props.C103_refused | propext, Quot.sound |
| LCT.Props.C103_count | propext, Quot.sound |
| LCT.Props.C103_too_large | propext, Quot.sound |
| LCT.Props.C104_writes | propext, Quot.sound |
| LCT.Props.C104_never_wrong | propext, Quot.sound |
| LCT.Props.C104_reads_back | propext, Classical.choice, Quot.sound |
