{
"Verif.C01_variable_roundtrip": [
"Classical.choice",
"Quot.sound",
"propext"
],
"Verif.C01_variable_canonical": [
"Classical.choice",
"Quot.sound",
"propext"
],
"Verif.C01_variable_prefix_free": [
"Classical.choice",
"Quot.sound",
"propext"
],
"Verif.C01_variable_size": [
"Quot.sound",
"propext"
],
"Verif.C02_little_endian_roundtrip": [
"Classical.choice",
"Quot.sound",
"propext"
],
"Verif.C02_big_endian_roundtrip": [
"Classical.choice",
"Quot.sound",
"propext"
],
"Verif.C02_byte_order": [
"Quot.sound",
"propext"
],
"Verif.C03_position_in_buffer": [
"Classical.choice",
"Quot.sound",
"propext"
],
"Verif.C03_read_returns_buffer": [
"Quot.sound",
"propext"
],
"Verif.C03_failure_sticky": [
"Classical.choice",
"Quot.sound",
"propext"
],
"Verif.C04_any_bytes_are_a_script": [
"Classical.choice",
"Quot.sound",
"propext"
],
"Verif.C04_operations_are_complete": [
"Classical.choice",
"Quot.sound",
"propext"
],
"Verif.C05_prefixed_accept_iff": [
"Classical.choice",
"Quot.sound",
"propext"
],
"Verif.C05_prefixed_consumes_exactly": [
"Classical.choice",
"Quot.sound",
"propext"
],
"Verif.C06_operations_roundtrip": [
"Classical.choice",
"Quot.sound",
"propext"
],
"Verif.C06_operations_injective": [
"Classical.choice",
"Quot.sound",
"propext"
],
"Verif.C07_prefixed_roundtrip": [
"Classical.choice",
"Quot.sound",
"propext"
],
"Verif.C07_prefixed_canonical": [
"Classical.choice",
"Quot.sound",
"propext"
],
"Verif.C07_unprefixed_roundtrip": [
"Classical.choice",
"Quot.sound",
"propext"
],
"Verif.C08_roundtrip": [
"Classical.choice",
"Quot.sound",
"propext"
],
"Verif.C08_constructed_is_writable": [],
"Verif.C08_canonical": [
"Classical.choice",
"Quot.sound",
"propext"
],
"Verif.C08_parse_safe": [
"Classical.choice",
"Quot.sound",
"propext"
],
"Verif.C08_injective": [
"Classical.choice",
"Quot.sound",
"propext"
],
"Verif.C08_ambiguous_counterexample": [
"propext"
],
"Verif.C09_script_size": [
"Quot.sound",
"propext"
],
"Verif.C09_witness_size": [
"Quot.sound",
"propext"
],
"Verif.C09_point_size": [
"propext"
],
"Verif.C09_input_size": [
"Quot.sound",
"propext"
],
"Verif.C09_output_size": [
"Quot.sound",
"propext"
],
"Verif.C09_transaction_size": [
"Quot.sound",
"propext"
],
"Verif.C09_header_size": [
"propext"
],
"Verif.C09_block_size": [
"Quot.sound",
"propext"
],
"Verif.C09_transaction_weight": [
"Classical.choice",
"Quot.sound",
"propext"
],
"Verif.C09_block_weight": [
"Classical.choice",
"Quot.sound",
"propext"
],
"Verif.C09_parsed_is_sized": [
"Classical.choice",
"Quot.sound",
"propext"
],
"Verif.C10_header_roundtrip": [
"Classical.choice",
"Quot.sound",
"propext"
],
"Verif.C10_header_canonical": [
"Classical.choice",
"Quot.sound",
"propext"
],
"Verif.C10_block_roundtrip": [
"Classical.choice",
"Quot.sound",
"propext"
],
"Verif.C10_block_canonical": [
"Classical.choice",
"Quot.sound",
"propext"
],
"Verif.C10_block_parse_safe": [
"Classical.choice",
"Quot.sound",
"propext"
],
"Verif.C11_bip144_is_segregated_form": [
"propext"
],
"Verif.C11_skip_implies_keep": [
"Classical.choice",
"Quot.sound",
"propext"
],
"Verif.C11_superfluous_rejected": [
"Classical.choice",
"Quot.sound",
"propext"
],
"Verif.C12_expand_meaning": [
"Classical.choice",
"Quot.sound",
"propext"
],
"Verif.C12_expand_zero_iff": [
"Classical.choice",
"Quot.sound",
"propext"
],
"Verif.C12_expand_bounded": [
"Classical.choice",
"Quot.sound",
"propext"
],
"Verif.C12_compress_loss_partial": [
"Classical.choice",
"Quot.sound",
"propext"
],
"Verif.C12_compress_wellformed_partial": [
"Classical.choice",
"Quot.sound",
"propext"
],
"Verif.C12_compress_monotone_partial": [
"Classical.choice",
"Quot.sound",
"propext"
],
"Verif.C12_compress_stable_partial": [
"Classical.choice",
"Quot.sound",
"propext"
],
"Verif.C12_power_counterexample": [
"propext"
],
"Verif.C12_stable_counterexample": [
"propext"
],
"Verif.C13_proof_value": [
"Classical.choice",
"Quot.sound",
"propext"
],
"Verif.C13_proof_antitone": [
"Classical.choice",
"Quot.sound",
"propext"
],
"Verif.Num.C14_decode": [
"Classical.choice",
"Quot.sound",
"propext"
],
"Verif.Num.C14_encode_denotes": [
"Classical.choice",
"Quot.sound",
"propext"
],
"Verif.Num.C14_encode_minimal": [
"Classical.choice",
"Quot.sound",
"propext"
],
"Verif.Num.C14_encode_unique": [
"Classical.choice",
"Quot.sound",
"propext"
],
"Verif.Num.C14_minimal_shortest": [
"Classical.choice",
"Quot.sound",
"propext"
],
"Verif.Num.C14_decode_range": [
"Classical.choice",
"Quot.sound",
"propext"
],
"Verif.Num.C14_roundtrip": [
"Classical.choice",
"Quot.sound",
"propext"
],
"Verif.Num.C14_integer_variant": [
"Classical.choice",
"Quot.sound",
"propext"
],
"Verif.Num.C14_boolean": [
"Classical.choice",
"Quot.sound",
"propext"
],
"Verif.Num.C14_boolean_variant": [
"Classical.choice",
"Quot.sound",
"propext"
],
"Verif.Num.C14_minimal_boolean": [
"Classical.choice",
"Quot.sound",
"propext"
],
"Verif.Merkle.C15_root": [
"Classical.choice",
"Quot.sound",
"propext"
],
"Verif.Merkle.C15_branch": [
"Classical.choice",
"Quot.sound",
"propext"
],
"Verif.Merkle.C15_branch_binding": [
"Classical.choice",
"Quot.sound",
"propext"
],
"Verif.Merkle.C15_branch_outside": [
"propext"
],
"Verif.Merkle.C16_reported_is_malleated": [
"Classical.choice",
"Quot.sound",
"propext"
],
"Verif.Merkle.C16_distinct_not_reported": [
"Classical.choice",
"Quot.sound",
"propext"
],
"Verif.Merkle.C16_mutation_reported": [
"Classical.choice",
"Quot.sound",
"propext"
],
"Verif.Merkle.C16_malleable_iff": [
"Classical.choice",
"Quot.sound",
"propext"
],
"Verif.Merkle.C16_commitment": [
"Classical.choice",
"Quot.sound",
"propext"
],
"Verif.Merkle.C16_odd_counterexample": [
"Classical.choice",
"Quot.sound",
"propext"
],
"Verif.Settings.C17_max_money": [
"Classical.choice",
"Quot.sound",
"propext"
],
"Verif.Settings.C17_max_money_bound": [
"Classical.choice",
"Quot.sound",
"propext"
],
"Verif.Settings.C17_initial_subsidy": [
"Classical.choice",
"Quot.sound",
"propext"
],
"Verif.Settings.C17_max_money_mainnet": [
"Classical.choice",
"Quot.sound",
"propext"
],
"Verif.Validate.C17_halving": [
"Quot.sound",
"propext"
],
"Verif.Validate.C17_monotone": [
"Classical.choice",
"Quot.sound",
"propext"
],
"Verif.Validate.C17_without_bip42": [
"propext"
],
"Verif.Validate.C17_total": [
"Classical.choice",
"Quot.sound",
"propext"
],
"Verif.Validate.C17_mainnet": [
"Classical.choice",
"Quot.sound",
"propext"
],
"Verif.Validate.C18_transaction": [
"Quot.sound",
"propext"
],
"Verif.Validate.C18_block": [
"Classical.choice",
"Quot.sound",
"propext"
],
"Verif.Validate.C18_supply": [
"Classical.choice",
"Quot.sound",
"propext"
],
"Verif.Validate.C18_mainnet": [
"Classical.choice",
"Quot.sound",
"propext"
],
"Verif.State.C19_required": [
"Classical.choice",
"Quot.sound",
"propext"
],
"Verif.State.C19_limit": [
"Classical.choice",
"Quot.sound",
"propext"
],
"Verif.State.C19_factor": [
"Quot.sound",
"propext"
],
"Verif.State.C19_chain": [
"Classical.choice",
"Quot.sound",
"propext"
],
"Verif.State.C20_median": [
"Classical.choice",
"Quot.sound",
"propext"
],
"Verif.State.C20_step": [
"Classical.choice",
"Quot.sound",
"propext"
],
"Verif.State.C20_monotone": [
"Classical.choice",
"Quot.sound",
"propext"
],
"Verif.State.C21_promotion_partial": [
"Classical.choice",
"Quot.sound",
"propext"
],
"Verif.State.C21_block_partial": [
"Classical.choice",
"Quot.sound",
"propext"
],
"Verif.State.C21_storm_counterexample": [
"Quot.sound",
"propext"
],
"Verif.State.C21_genesis_counterexample": [
"Quot.sound",
"propext"
],
"Verif.State.C21_unconfigured_counterexample": [
"Quot.sound",
"propext"
],
"Verif.State.C21_block_counterexample": [
"Quot.sound",
"propext"
],
"Verif.State.C21_timewarp_counterexample": [
"propext"
],
"Verif.Machine.C22_no_undefined_access": [
"Classical.choice",
"Quot.sound",
"propext"
],
"Verif.Machine.C22_limits": [
"Classical.choice",
"Quot.sound",
"propext"
],
"Verif.Machine.C22_checked_before_run": [
"Quot.sound",
"propext"
],
"Verif.Machine.C22_no_undefined_access_in_library_containers": [
"Classical.choice",
"Quot.sound",
"propext"
],
"Verif.Machine.C23_success_is_balanced": [
"Classical.choice",
"Quot.sound",
"propext"
],
"Verif.Machine.C23_untaken_branch_has_no_effect": [
"Classical.choice",
"Quot.sound",
"propext"
],
"Verif.Machine.C24_stack_containers_agree": [
"Quot.sound",
"propext"
],
"Verif.Machine.C24_result_test_agrees": [
"Quot.sound",
"propext"
],
"Verif.C25_script_count": [
"Quot.sound",
"propext"
],
"Verif.C25_bounds": [
"Classical.choice",
"Quot.sound",
"propext"
],
"Verif.C25_transaction_cost": [
"Classical.choice",
"Quot.sound",
"propext"
],
"Verif.C25_block_limit": [
"Classical.choice",
"Quot.sound",
"propext"
],
"Verif.Validate.C26_absolute": [
"Classical.choice",
"Quot.sound",
"propext"
],
"Verif.Validate.C26_absolute_monotone": [
"Classical.choice",
"Quot.sound",
"propext"
],
"Verif.Validate.C26_relative": [
"Classical.choice",
"Quot.sound",
"propext"
],
"Verif.Validate.C26_relative_monotone": [
"Classical.choice",
"Quot.sound",
"propext"
],
"Verif.Validate.C26_confirm": [
"Classical.choice",
"Quot.sound",
"propext"
],
"Verif.Validate.C27_check": [
"Classical.choice",
"Quot.sound",
"propext"
],
"Verif.Validate.C27_transaction_codes": [
"Classical.choice",
"Quot.sound",
"propext"
],
"Verif.Validate.C27_codes": [
"Classical.choice",
"Quot.sound",
"propext"
],
"Verif.Der.C28_strict_total": [
"Quot.sound",
"propext"
],
"Verif.Der.C28_strict": [
"Classical.choice",
"Quot.sound",
"propext"
],
"Verif.Der.C28_lax_total": [
"Classical.choice",
"Quot.sound",
"propext"
],
"Verif.Der.C28_lax": [
"Classical.choice",
"Quot.sound",
"propext"
],
"Verif.Der.C28_decode": [
"Classical.choice",
"Quot.sound",
"propext"
],
"Verif.Der.C28_encode": [
"Classical.choice",
"Quot.sound",
"propext"
],
"Verif.Der.C28_unique": [
"Classical.choice",
"Quot.sound",
"propext"
],
"Verif.Golomb.C29_decodes": [
"Classical.choice",
"Quot.sound",
"propext"
],
"Verif.Golomb.C29_single": [
"Classical.choice",
"Quot.sound",
"propext"
],
"Verif.Golomb.C29_member": [
"Classical.choice",
"Quot.sound",
"propext"
],
"Verif.Golomb.C29_stack_sound": [
"Classical.choice",
"Quot.sound",
"propext"
],
"Verif.Golomb.C29_stack_partial": [
"Classical.choice",
"Quot.sound",
"propext"
],
"Verif.Golomb.C29_stack_counterexample": [
"Quot.sound",
"propext"
],
"Verif.Golomb.C29_filter_fails": [
"Quot.sound",
"propext"
],
"Verif.Golomb.C29_filter": [
"Classical.choice",
"Quot.sound",
"propext"
],
"Verif.Golomb.C29_filter_member": [
"Classical.choice",
"Quot.sound",
"propext"
],
"Verif.Bit.C30_written": [
"Quot.sound",
"propext"
],
"Verif.Bit.C30_roundtrip": [
"Classical.choice",
"Quot.sound",
"propext"
],
"Verif.Bit.C30_position": [
"Classical.choice",
"Quot.sound",
"propext"
],
"Verif.Bit.C30_exhausted": [
"Classical.choice",
"Quot.sound",
"propext"
],
"Verif.Bit.C30_peek_partial": [
"Classical.choice",
"Quot.sound",
"propext"
],
"Verif.Bit.C30_peek_counterexample": [
"Quot.sound",
"propext"
],
"Verif.Radix.C31_decode_encode": [
"Quot.sound",
"propext"
],
"Verif.Radix.C31_accepts": [
"Classical.choice",
"Quot.sound",
"propext"
],
"Verif.Radix.C31_encode_decode": [
"Classical.choice",
"Quot.sound",
"propext"
],
"Verif.Radix.C31_array": [
"Classical.choice",
"Quot.sound",
"propext"
],
"Verif.Radix.C31_hash": [
"Classical.choice",
"Quot.sound",
"propext"
],
"Verif.Radix.C32_decode_encode": [
"Classical.choice",
"Quot.sound",
"propext"
],
"Verif.Radix.C32_accepts": [
"Classical.choice",
"Quot.sound",
"propext"
],
"Verif.Radix.C32_encode_decode": [
"Classical.choice",
"Quot.sound",
"propext"
],
"Verif.Radix.C32_meaning": [
"Classical.choice",
"Quot.sound",
"propext"
],
"Verif.Pack.C33_base32": [
"Classical.choice",
"Quot.sound",
"propext"
],
"Verif.Pack.C33_base32_accepts": [
"Classical.choice",
"Quot.sound",
"propext"
],
"Verif.Pack.C33_base32_bounds_counterexample": [
"propext"
],
"Verif.Radix.C33_base64": [
"Classical.choice",
"Quot.sound",
"propext"
],
"Verif.Radix.C33_base64_text": [
"Classical.choice",
"Quot.sound",
"propext"
],
"Verif.Radix.C33_base64_lax": [
"Classical.choice",
"Quot.sound",
"propext"
],
"Verif.Radix.C33_base85": [
"Classical.choice",
"Quot.sound",
"propext"
],
"Verif.Radix.C33_base85_lax": [
"Classical.choice",
"Quot.sound",
"propext"
],
"Verif.Pack.C34_unpack32": [
"Classical.choice",
"Quot.sound",
"propext"
],
"Verif.Pack.C34_pack32": [
"Classical.choice",
"Quot.sound",
"propext"
],
"Verif.Pack.C34_roundtrip32": [
"Classical.choice",
"Quot.sound",
"propext"
],
"Verif.Pack.C34_repack32": [
"Classical.choice",
"Quot.sound",
"propext"
],
"Verif.Pack.C34_overlong_counterexample": [
"Quot.sound",
"propext"
],
"Verif.Pack.C34_unpack2048": [
"Quot.sound",
"propext"
],
"Verif.Pack.C34_roundtrip2048": [
"Classical.choice",
"Quot.sound",
"propext"
],
"Verif.Pack.C34_pack2048": [
"Classical.choice",
"Quot.sound",
"propext"
],
"Verif.Bech32.C35_built": [
"Classical.choice",
"Quot.sound",
"propext"
],
"Verif.Bech32.C35_constant": [
"Quot.sound",
"propext"
],
"Verif.Bech32.C35_single_error": [
"Classical.choice",
"Quot.sound",
"propext"
],
"Verif.Bech32.C35_wrong_constant": [
"Quot.sound",
"propext"
],
"Verif.Mnemonic.C36_shared": [
"Quot.sound",
"propext"
],
"Verif.Mnemonic.C36_index": [
"Classical.choice",
"Quot.sound",
"propext"
],
"Verif.Mnemonic.C36_encode": [
"Classical.choice",
"Quot.sound",
"propext"
],
"Verif.Mnemonic.C36_encode_refused": [
"Classical.choice",
"Quot.sound",
"propext"
],
"Verif.Mnemonic.C36_unique": [
"Classical.choice",
"Quot.sound",
"propext"
],
"Verif.Mnemonic.C36_decode": [
"Classical.choice",
"Quot.sound",
"propext"
],
"Verif.Mnemonic.C36_decode_only": [
"Classical.choice",
"Quot.sound",
"propext"
],
"Verif.Mnemonic.C36_roundtrip": [
"Classical.choice",
"Quot.sound",
"propext"
],
"Verif.Mnemonic.C36_unspecified": [
"Classical.choice",
"Quot.sound",
"propext"
],
"Verif.Mnemonic.C36_seed": [
"Classical.choice",
"Quot.sound",
"propext"
],
"Verif.Mnemonic.C37_number": [
"Quot.sound",
"propext"
],
"Verif.Mnemonic.C37_words": [
"Quot.sound",
"propext"
],
"Verif.Mnemonic.C37_encode": [
"Classical.choice",
"Quot.sound",
"propext"
],
"Verif.Mnemonic.C37_decode": [
"Classical.choice",
"Quot.sound",
"propext"
],
"Verif.Mnemonic.C37_decode_only": [
"Classical.choice",
"Quot.sound",
"propext"
],
"Verif.Mnemonic.C37_roundtrip": [
"Classical.choice",
"Quot.sound",
"propext"
],
"Verif.Mnemonic.C37_reencode": [
"Classical.choice",
"Quot.sound",
"propext"
],
"Verif.Mnemonic.C37_overflow": [
"Classical.choice",
"Quot.sound",
"propext"
],
"Verif.Hash.C38_padding": [
"Classical.choice",
"Quot.sound",
"propext"
],
"Verif.Hash.C38_chunks": [
"Classical.choice",
"Quot.sound",
"propext"
],
"Verif.Hash.C38_one_call": [
"Classical.choice",
"Quot.sound",
"propext"
],
"Verif.Hash.C38_accepted": [
"Classical.choice",
"Quot.sound",
"propext"
],
"Verif.Hash.C38_reset": [
"Classical.choice",
"Quot.sound",
"propext"
],
"Verif.Hash.C38_midstate": [
"Classical.choice",
"Quot.sound",
"propext"
],
"Verif.Hash.C38_double": [
"Classical.choice",
"Quot.sound",
"propext"
],
"Verif.Sighash.C39_original": [
"Classical.choice",
"Quot.sound",
"propext"
],
"Verif.Sighash.C39_original_iff": [
"Classical.choice",
"Quot.sound",
"propext"
],
"Verif.Sighash.C39_v0": [
"Quot.sound",
"propext"
],
"Verif.Sighash.C39_v0_iff": [
"Classical.choice",
"Quot.sound",
"propext"
],
"Verif.Sighash.C39_lists": [
"Classical.choice",
"Quot.sound",
"propext"
],
"Verif.Sighash.C39_v1": [
"Classical.choice",
"Quot.sound",
"propext"
],
"Verif.Sighash.C39_v1_iff": [
"Classical.choice",
"Quot.sound",
"propext"
],
"Verif.Sighash.C39_signature_hash": [
"Classical.choice",
"Quot.sound",
"propext"
],
"Verif.Sighash.C39_offset_counterexample": [
"propext"
],
"Verif.Sighash.C39_empty_code_counterexample": [
"propext"
],
"Verif.Arith.C40_add_overflow": [
"Classical.choice",
"Quot.sound",
"propext"
],
"Verif.Arith.C40_subtract_overflow": [
"Classical.choice",
"Quot.sound",
"propext"
],
"Verif.Arith.C40_multiply_overflow": [
"Classical.choice",
"Quot.sound",
"propext"
],
"Verif.Arith.C40_negate_overflow": [
"Classical.choice",
"Quot.sound",
"propext"
],
"Verif.Arith.C40_ceilinged_add": [
"Classical.choice",
"Quot.sound",
"propext"
],
"Verif.Arith.C40_floored_subtract": [
"Classical.choice",
"Quot.sound",
"propext"
],
"Verif.Arith.C40_ceilinged_multiply": [
"Classical.choice",
"Quot.sound",
"propext"
],
"Verif.Arith.C40_safe_add": [
"Classical.choice",
"Quot.sound",
"propext"
],
"Verif.Arith.C40_safe_subtract": [
"Classical.choice",
"Quot.sound",
"propext"
],
"Verif.Arith.C40_safe_multiply": [
"Classical.choice",
"Quot.sound",
"propext"
],
"Verif.Arith.C40_safe_negate": [
"Classical.choice",
"Quot.sound",
"propext"
],
"Verif.Arith.C40_is_greater": [
"Classical.choice",
"Quot.sound",
"propext"
],
"Verif.Arith.C40_is_lesser": [
"Classical.choice",
"Quot.sound",
"propext"
],
"Verif.Arith.C40_is_limited": [
"Classical.choice",
"Quot.sound",
"propext"
],
"Verif.Arith.C40_limit": [
"Classical.choice",
"Quot.sound",
"propext"
],
"Verif.Arith.C40_absolute": [
"Classical.choice",
"Quot.sound",
"propext"
],
"Verif.Arith.C40_floored_negate": [
"Classical.choice",
"Quot.sound",
"propext"
],
"Verif.Arith.C40_delta_unsigned": [
"Classical.choice",
"Quot.sound",
"propext"
],
"Verif.Arith.C40_delta_signed": [
"Classical.choice",
"Quot.sound",
"propext"
],
"Verif.Arith.C40_is_multiple": [
"Classical.choice",
"Quot.sound",
"propext"
],
"Verif.Arith.C40_is_product": [
"Classical.choice",
"Quot.sound",
"propext"
],
"Verif.Arith.C40_truncated": [
"Classical.choice",
"Quot.sound",
"propext"
],
"Verif.Arith.C40_floored": [
"Classical.choice",
"Quot.sound",
"propext"
],
"Verif.Arith.C40_ceilinged_partial": [
"Classical.choice",
"Quot.sound",
"propext"
],
"Verif.Arith.C40_ceilinged_modulo_counterexample": [],
"Verif.State.C41_single_limit_partial": [
"propext"
],
"Verif.State.C41_proof_of_work_counterexample": [
"propext"
],
"Verif.State.C41_work_required_counterexample": [
"propext"
],
"Verif.State.C41_check": [
"propext"
],
"Verif.State.C41_history_partial": [
"propext"
],
"Verif.State.C41_timestamp_counterexample": [
"propext"
],
"Verif.ScriptText.C42_operation_printable": [
"Classical.choice",
"Quot.sound",
"propext"
],
"Verif.ScriptText.C42_operation": [
"Classical.choice",
"Quot.sound",
"propext"
],
"Verif.ScriptText.C42_script": [
"Classical.choice",
"Quot.sound",
"propext"
],
"Verif.ScriptText.C42_witness": [
"Classical.choice",
"Quot.sound",
"propext"
],
"Verif.ScriptText.C42_canonical": [
"Classical.choice",
"Quot.sound",
"propext"
],
"Verif.ScriptText.C42_underflow_counterexample": [
"Classical.choice",
"Quot.sound",
"propext"
],
"Verif.Aead.C44_keystream": [
"Classical.choice",
"Quot.sound",
"propext"
],
"Verif.Aead.C44_keystream_initial": [
"Classical.choice",
"Quot.sound",
"propext"
],
"Verif.Aead.C44_poly1305": [
"Classical.choice",
"Quot.sound",
"propext"
],
"Verif.Aead.C44_encrypt": [
"Classical.choice",
"Quot.sound",
"propext"
],
"Verif.Aead.C44_decrypt": [
"Classical.choice",
"Quot.sound",
"propext"
],
"Verif.Aead.C44_round_trip": [
"Classical.choice",
"Quot.sound",
"propext"
],
"Verif.Aead.C44_packets": [
"Classical.choice",
"Quot.sound",
"propext"
],
"Verif.Aead.C44_session": [
"Classical.choice",
"Quot.sound",
"propext"
],
"Verif.Aead.C44_chunks": [
"Classical.choice",
"Quot.sound",
"propext"
],
"Verif.Uri.C45_roundtrip": [
"Classical.choice",
"Quot.sound",
"propext"
],
"Verif.Uri.C45_amount": [
"Classical.choice",
"Quot.sound",
"propext"
],
"Verif.Uri.C45_setters": [
"Classical.choice",
"Quot.sound",
"propext"
],
"Verif.Uri.C45_accepts": [
"Classical.choice",
"Quot.sound",
"propext"
],
"Verif.Uri.C45_equality_counterexample": [
"Classical.choice",
"Quot.sound",
"propext"
],
"Verif.Uri.C45_witness_counterexample": [
"Classical.choice",
"Quot.sound",
"propext"
],
"Verif.Uri.C45_valid": [
"Classical.choice",
"Quot.sound",
"propext"
],
"Verif.C46_limit_respected_partial": [
"Classical.choice",
"Quot.sound",
"propext"
],
"Verif.C46_limit_counterexample": [
"propext"
],
"Verif.C47_read_line_partial": [
"Classical.choice",
"Quot.sound",
"propext"
],
"Verif.C47_read_line_counterexample": [
"propext"
],
"Verif.C47_write_read_line": [
"Classical.choice",
"Quot.sound",
"propext"
],
"Verif.C48_keep_implies_skip_partial": [
"Classical.choice",
"Quot.sound",
"propext"
],
"Verif.C48_mode_counterexample": [
"propext"
],
"Verif.Arith.C49_power": [
"Classical.choice",
"Quot.sound",
"propext"
],
"Verif.Arith.C49_floored_log": [
"Classical.choice",
"Quot.sound",
"propext"
],
"Verif.Arith.C49_ceilinged_log_partial": [
"Classical.choice",
"Quot.sound",
"propext"
],
"Verif.Arith.C49_ceilinged_log_counterexample": [
"Classical.choice",
"Quot.sound",
"propext"
],
"Verif.Arith.C49_log2": [
"Classical.choice",
"Quot.sound",
"propext"
],
"Verif.Arith.C49_log256": [
"Classical.choice",
"Quot.sound",
"propext"
],
"Verif.Arith.C49_byte_width": [
"Classical.choice",
"Quot.sound",
"propext"
],
"Verif.Machine.C50_success_is_reference_success": [
"Classical.choice",
"Quot.sound",
"propext"
],
"Verif.Machine.C50_prevalid_iff_reserved": [
"Classical.choice",
"Quot.sound",
"propext"
],
"Verif.Machine.C50_reference_success_partial": [
"Classical.choice",
"Quot.sound",
"propext"
],
"Verif.Machine.C50_exact": [
"Classical.choice",
"Quot.sound",
"propext"
],
"Verif.Machine.C50_multisig_counterexample": [
"Classical.choice",
"Quot.sound",
"propext"
],
"Verif.C51_pay_script_hash": [
"Classical.choice",
"Quot.sound",
"propext"
],
"Verif.C51_witness_program": [
"Classical.choice",
"Quot.sound",
"propext"
],
"Verif.C51_standard_witness": [
"Classical.choice",
"Quot.sound",
"propext"
],
"Verif.C52_no_undefined_access": [
"Classical.choice",
"Quot.sound",
"propext"
],
"Verif.C52_accepted_is_valid": [
"Classical.choice",
"Quot.sound",
"propext"
],
"Verif.C52_valid_is_accepted_partial": [
"Classical.choice",
"Quot.sound",
"propext"
],
"Verif.C52_exact": [
"Classical.choice",
"Quot.sound",
"propext"
],
"Verif.C52_exact_ordinary": [
"Classical.choice",
"Quot.sound",
"propext"
],
"Verif.C52_multisig_counterexample": [
"Quot.sound",
"propext"
],
"Verif.Validate.C53_height": [
"Classical.choice",
"Quot.sound",
"propext"
],
"Verif.Validate.C53_unique": [
"Classical.choice",
"Quot.sound",
"propext"
],
"Verif.Validate.C53_small_heights": [
"Classical.choice",
"Quot.sound",
"propext"
],
"Verif.Validate.C54_commitment": [
"Classical.choice",
"Quot.sound",
"propext"
],
"Verif.Validate.C54_rule": [
"Classical.choice",
"Quot.sound",
"propext"
],
"Verif.Validate.C54_hash_limit": [
"Classical.choice",
"Quot.sound",
"propext"
],
"Verif.Validate.C54_check": [
"Classical.choice",
"Quot.sound",
"propext"
],
"Verif.State.C55_accept": [
"Classical.choice",
"Quot.sound",
"propext"
],
"Verif.State.C55_signed_version_counterexample": [
"Quot.sound",
"propext"
],
"Verif.Base10.C56_decode": [
"Classical.choice",
"Quot.sound",
"propext"
],
"Verif.Base10.C56_encode": [
"Classical.choice",
"Quot.sound",
"propext"
],
"Verif.Base10.C56_roundtrip": [
"Classical.choice",
"Quot.sound",
"propext"
],
"Verif.Bech32.C57_accepts": [
"Classical.choice",
"Quot.sound",
"propext"
],
"Verif.Bech32.C57_parameters": [
"Classical.choice",
"Quot.sound",
"propext"
],
"Verif.Bech32.C57_encoded_parses_partial": [
"Classical.choice",
"Quot.sound",
"propext"
],
"Verif.Bech32.C57_too_long_counterexample": [
"Classical.choice",
"Quot.sound",
"propext"
],
"Verif.Bech32.C57_reencodes_partial": [
"Classical.choice",
"Quot.sound",
"propext"
],
"Verif.Bech32.C57_overlong_counterexample": [
"Classical.choice",
"Quot.sound",
"propext"
],
"Verif.Bech32.C57_single_error": [
"Classical.choice",
"Quot.sound",
"propext"
],
"Verif.Hash.C58_hash": [
"Classical.choice",
"Quot.sound",
"propext"
],
"Verif.Hash.C58_double_hash": [
"Classical.choice",
"Quot.sound",
"propext"
],
"Verif.Hash.C58_size": [
"Classical.choice",
"Quot.sound",
"propext"
],
"Verif.Hash.C58_pair": [
"Classical.choice",
"Quot.sound",
"propext"
],
"Verif.Hash.C58_pair512": [
"Classical.choice",
"Quot.sound",
"propext"
],
"Verif.Hash.C58_quarters": [
"Classical.choice",
"Quot.sound",
"propext"
],
"Verif.Hash.C58_simple": [
"Classical.choice",
"Quot.sound",
"propext"
],
"Verif.HashFn.C58_functions": [
"Classical.choice",
"Quot.sound",
"propext"
],
"Verif.HashFn.C58_two_parts": [
"Classical.choice",
"Quot.sound",
"propext"
],
"Verif.HashFn.C58_digest_pair": [
"Classical.choice",
"Quot.sound",
"propext"
],
"Verif.HashFn.C58_tagged": [
"Classical.choice",
"Quot.sound",
"propext"
],
"Verif.HashFn.C58_sha256_writer": [
"Classical.choice",
"Quot.sound",
"propext"
],
"Verif.HashFn.C58_sha256x2_writer": [
"Classical.choice",
"Quot.sound",
"propext"
],
"Verif.HashFn.C58_sha256t_writer": [
"Classical.choice",
"Quot.sound",
"propext"
],
"Verif.HashFn.C58_djb2": [
"Quot.sound",
"propext"
],
"Verif.Hmac.C59_block_sizes": [
"Quot.sound",
"propext"
],
"Verif.Hmac.C59_hmac_chunks": [
"Classical.choice",
"Quot.sound",
"propext"
],
"Verif.Hmac.C59_hmac": [
"Classical.choice",
"Quot.sound",
"propext"
],
"Verif.Hmac.C59_pbkdf2": [
"Classical.choice",
"Quot.sound",
"propext"
],
"Verif.Hmac.C59_hkdf_extract": [
"Classical.choice",
"Quot.sound",
"propext"
],
"Verif.Hmac.C59_hkdf_expand": [
"Classical.choice",
"Quot.sound",
"propext"
],
"Verif.Hmac.C59_hkdf": [
"Classical.choice",
"Quot.sound",
"propext"
],
"Verif.Hmac.C59_hkdf_counterexample": [
"Quot.sound",
"propext"
],
"Verif.Views.C60_accepts": [
"Classical.choice",
"Quot.sound",
"propext"
],
"Verif.Views.C60_transactions": [
"Classical.choice",
"Quot.sound",
"propext"
],
"Verif.Views.C60_block": [
"Classical.choice",
"Quot.sound",
"propext"
],
"Verif.Views.C60_identify": [
"Classical.choice",
"Quot.sound",
"propext"
],
"Verif.Views.C60_commitment": [
"Classical.choice",
"Quot.sound",
"propext"
],
"Verif.Views.C60_streamers": [
"Classical.choice",
"Quot.sound",
"propext"
],
"Verif.Views.C60_whole_buffer_counterexample": [
"propext"
],
"Verif.Views.C60_position_counterexample": [
"propext"
],
"Verif.Ident.C61_history": [
"propext"
],
"Verif.Ident.C61_header": [],
"Verif.Ident.C61_desegregated": [
"Quot.sound",
"propext"
],
"Verif.Ident.C61_set_hashes": [
"Quot.sound",
"propext"
],
"Verif.Ident.C61_mode_counterexample": [
"propext"
],
"Verif.Hd.C62_private": [
"Classical.choice",
"Quot.sound",
"propext"
],
"Verif.Hd.C62_public": [
"Classical.choice",
"Quot.sound",
"propext"
],
"Verif.Hd.C62_depth": [
"Quot.sound",
"propext"
],
"Verif.Hd.C62_master": [
"Classical.choice",
"Quot.sound",
"propext"
],
"Verif.Hd.C62_constructed": [
"Classical.choice",
"Quot.sound",
"propext"
],
"Verif.Hd.C62_path": [
"Classical.choice",
"Quot.sound",
"propext"
],
"Verif.Hd.C62_hardened": [
"Classical.choice",
"Quot.sound",
"propext"
],
"Verif.Hd.C62_private_text": [
"Classical.choice",
"Quot.sound",
"propext"
],
"Verif.Hd.C62_public_text": [
"Classical.choice",
"Quot.sound",
"propext"
],
"Verif.Hd.C62_checksum_counterexample": [
"Classical.choice",
"Quot.sound",
"propext"
],
"Verif.Wallet.C63_address_accepts": [
"Classical.choice",
"Quot.sound",
"propext"
],
"Verif.Wallet.C63_address_text": [
"Classical.choice",
"Quot.sound",
"propext"
],
"Verif.Wallet.C63_address_canonical": [
"Classical.choice",
"Quot.sound",
"propext"
],
"Verif.Wallet.C63_public_text": [
"Classical.choice",
"Quot.sound",
"propext"
],
"Verif.Wallet.C63_key_address": [
"Classical.choice",
"Quot.sound",
"propext"
],
"Verif.Wallet.C63_wif_accepts": [
"Classical.choice",
"Quot.sound",
"propext"
],
"Verif.Wallet.C63_wif_text": [
"Classical.choice",
"Quot.sound",
"propext"
],
"Verif.Wallet.C63_private_address": [
"Classical.choice",
"Quot.sound",
"propext"
],
"Verif.Wallet.C63_entropy_counterexample": [
"Classical.choice",
"Quot.sound",
"propext"
],
"Verif.Wallet.C63_order_counterexample": [
"Classical.choice",
"Quot.sound",
"propext"
],
"Verif.Wallet.C63_output_script": [
"Classical.choice",
"Quot.sound",
"propext"
],
"Verif.Wallet.C63_minikey": [
"Classical.choice",
"Quot.sound",
"propext"
],
"Verif.Pattern.C64_output": [
"Classical.choice",
"Quot.sound",
"propext"
],
"Verif.Pattern.C64_input": [
"Classical.choice",
"Quot.sound",
"propext"
],
"Verif.Pattern.C64_input_counterexample": [
"Classical.choice",
"Quot.sound",
"propext"
],
"Verif.Pattern.C64_unambiguous_counterexample": [
"Quot.sound",
"propext"
],
"Verif.Pattern.C64_unambiguous": [
"Classical.choice",
"Quot.sound",
"propext"
],
"Verif.Pattern.C64_builders": [
"Classical.choice",
"Quot.sound",
"propext"
],
"Verif.Pattern.C64_null_data_counterexample": [
"propext"
],
"Verif.Pattern.C64_tapscript_multisig": [
"Classical.choice",
"Quot.sound",
"propext"
],
"Verif.Pattern.C64_tapscript_threshold": [
"Classical.choice",
"Quot.sound",
"propext"
],
"Verif.Ec.C65_scalar_partial": [
"Classical.choice",
"Quot.sound",
"propext"
],
"Verif.Ec.C65_zero_counterexample": [
"Classical.choice",
"Quot.sound",
"propext"
],
"Verif.Ec.C65_integer": [
"Classical.choice",
"Quot.sound",
"propext"
],
"Verif.Ec.C65_point_partial": [
"Classical.choice",
"Quot.sound",
"propext"
],
"Verif.Ec.C65_infinity_counterexample": [
"propext"
],
"Verif.Ec.C65_sum": [
"Quot.sound",
"propext"
],
"Verif.Ec.C65_action": [
"Classical.choice",
"Quot.sound",
"propext"
],
"Verif.Binary.C66_string": [
"Quot.sound",
"propext"
],
"Verif.Binary.C66_data": [
"Classical.choice",
"Quot.sound",
"propext"
],
"Verif.Binary.C66_encoded": [
"Classical.choice",
"Quot.sound",
"propext"
],
"Verif.Binary.C66_roundtrip": [
"Classical.choice",
"Quot.sound",
"propext"
],
"Verif.Binary.C66_equal": [
"Classical.choice",
"Quot.sound",
"propext"
],
"Verif.Binary.C66_order": [
"Classical.choice",
"Quot.sound",
"propext"
],
"Verif.Binary.C66_index": [
"Quot.sound",
"propext"
],
"Verif.Binary.C66_index_counterexample": [
"Quot.sound",
"propext"
],
"Verif.Stealth.C67_shared": [
"Quot.sound",
"propext"
],
"Verif.Stealth.C67_private": [
"Classical.choice",
"Quot.sound",
"propext"
],
"Verif.Stealth.C67_script": [
"Classical.choice",
"Quot.sound",
"propext"
],
"Verif.Stealth.C67_ephemeral": [
"Classical.choice",
"Quot.sound",
"propext"
],
"Verif.Stealth.C67_payment": [
"Classical.choice",
"Quot.sound",
"propext"
],
"Verif.Stealth.C67_address_safe": [
"Classical.choice",
"Quot.sound",
"propext"
],
"Verif.Stealth.C67_address_accepts": [
"Classical.choice",
"Quot.sound",
"propext"
],
"Verif.Stealth.C67_address_text": [
"Classical.choice",
"Quot.sound",
"propext"
],
"Verif.Stealth.C67_address_text_limit": [
"Quot.sound",
"propext"
],
"Verif.Message.C68_hash": [
"Classical.choice",
"Quot.sound",
"propext"
],
"Verif.Message.C68_binding": [
"Classical.choice",
"Quot.sound",
"propext"
],
"Verif.Message.C68_header": [
"Quot.sound",
"propext"
],
"Verif.Message.C68_verify": [
"Classical.choice",
"Quot.sound",
"propext"
],
"Verif.Message.C68_sign": [
"Classical.choice",
"Quot.sound",
"propext"
],
"Verif.Message.C68_key": [
"Classical.choice",
"Quot.sound",
"propext"
],
"Verif.Message.C68_wif": [
"Classical.choice",
"Quot.sound",
"propext"
],
"Verif.Sip.C69_siphash": [
"Quot.sound",
"propext"
],
"Verif.Sip.C69_half": [
"Quot.sound",
"propext"
],
"Verif.Scrypt.C70_scrypt": [
"Classical.choice",
"Quot.sound",
"propext"
],
"Verif.Scrypt.C70_litecoin": [
"Classical.choice",
"Quot.sound",
"propext"
],
"Verif.Scrypt.C70_memory_counterexample": [
"Quot.sound",
"propext"
],
"Verif.Aes.C71_encrypt": [
"Quot.sound",
"propext"
],
"Verif.Aes.C71_decrypt_encrypt": [
"Quot.sound",
"propext"
],
"Verif.Aes.C71_encrypt_decrypt": [
"Quot.sound",
"propext"
],
"Verif.Bip38.C72_encrypt": [
"Classical.choice",
"Quot.sound",
"propext"
],
"Verif.Bip38.C72_decrypt": [
"Classical.choice",
"Quot.sound",
"propext"
],
"Verif.Bip38.C72_token": [
"Classical.choice",
"Quot.sound",
"propext"
],
"Verif.Bip38.C72_token_lot_partial": [
"Classical.choice",
"Quot.sound",
"propext"
],
"Verif.Bip38.C72_pair": [
"Classical.choice",
"Quot.sound",
"propext"
],
"Verif.Bip38.C72_decrypt_pair": [
"Classical.choice",
"Quot.sound",
"propext"
],
"Verif.Bip38.C72_sound": [
"Classical.choice",
"Quot.sound",
"propext"
],
"Verif.Bip38.C72_text": [
"Classical.choice",
"Quot.sound",
"propext"
],
"Verif.Filter.Bloom.C73_bloom_exact": [
"Classical.choice",
"Quot.sound",
"propext"
],
"Verif.Filter.Bloom.C73_bloom_no_false_negative": [
"Classical.choice",
"Quot.sound",
"propext"
],
"Verif.Filter.Bloom.C73_bloom_collision": [
"Classical.choice",
"Quot.sound",
"propext"
],
"Verif.Filter.Sieve.C73_sieve_no_false_negative": [
"Classical.choice",
"Quot.sound",
"propext"
],
"Verif.Filter.Sieve.C73_sieve_adding": [
"Classical.choice",
"Quot.sound",
"propext"
],
"Verif.Filter.Sieve.C73_sieve_one": [
"Classical.choice",
"Quot.sound",
"propext"
],
"Verif.Filter.Sieve.C73_sieve_screens": [
"Classical.choice",
"Quot.sound",
"propext"
],
"Verif.Ring.C74_digest": [
"Classical.choice",
"Quot.sound",
"propext"
],
"Verif.Ring.C74_verify": [
"Classical.choice",
"Quot.sound",
"propext"
],
"Verif.Ring.C74_needs": [
"Classical.choice",
"Quot.sound",
"propext"
],
"Verif.Ring.C74_signer": [
"Classical.choice",
"Quot.sound",
"propext"
],
"Verif.Ring.C74_complete": [
"Classical.choice",
"Quot.sound",
"propext"
],
"Verif.Ring.C74_digest_counterexample": [
"Classical.choice",
"Quot.sound",
"propext"
],
"Verif.Ring.C74_extra_counterexample": [
"Classical.choice",
"Quot.sound",
"propext"
],
"Verif.Batch.C75_threshold": [
"Quot.sound",
"propext"
],
"Verif.Batch.C75_log": [
"Classical.choice",
"Quot.sound",
"propext"
],
"Verif.Batch.C75_schnorr": [
"Classical.choice",
"Quot.sound",
"propext"
],
"Verif.Batch.C75_ecdsa": [
"Classical.choice",
"Quot.sound",
"propext"
],
"Verif.Capture.C76_block": [
"Classical.choice",
"Quot.sound",
"propext"
],
"Verif.Capture.C76_stored": [
"Classical.choice",
"Quot.sound",
"propext"
],
"Verif.Points.C77_greedy": [
"Classical.choice",
"Quot.sound",
"propext"
],
"Verif.Points.C77_individual": [
"Quot.sound",
"propext"
],
"Verif.Bech32.C78_groups": [
"Classical.choice",
"Quot.sound",
"propext"
],
"Verif.Bech32.C78_distance": [
"Classical.choice",
"Quot.sound",
"propext"
],
"Verif.Bech32.C78_detects": [
"Classical.choice",
"Quot.sound",
"propext"
],
"Verif.Bech32.C78_tight": [
"Classical.choice",
"Quot.sound",
"propext"
],
"Verif.Registry.C79_isolation": [
"Quot.sound",
"propext"
],
"Verif.Registry.C79_registered": [
"Quot.sound",
"propext"
],
"Verif.Registry.C79_progress": [
"Classical.choice",
"Quot.sound",
"propext"
],
"Verif.Registry.C79_safe": [
"Quot.sound",
"propext"
],
"Verif.Registry.C79_purge": [
"Quot.sound",
"propext"
],
"Verif.Registry.C79_race_counterexample": [
"Classical.choice",
"Quot.sound",
"propext"
],
"Verif.Registry.C79_dangling_counterexample": [
"Classical.choice",
"Quot.sound",
"propext"
],
"Verif.Electrum.C80_exclusive": [
"Classical.choice",
"Quot.sound",
"propext"
],
"Verif.Electrum.C80_grind": [
"Classical.choice",
"Quot.sound",
"propext"
],
"Verif.Electrum.C80_refused": [
"Classical.choice",
"Quot.sound",
"propext"
],
"Verif.Electrum.C80_again": [
"Classical.choice",
"Quot.sound",
"propext"
],
"Verif.Electrum.C80_seed": [
"Classical.choice",
"Quot.sound",
"propext"
],
"Verif.Electrum.C81_prefix": [
"Classical.choice",
"Quot.sound",
"propext"
],
"Verif.Electrum.C81_words": [
"Classical.choice",
"Quot.sound",
"propext"
],
"Verif.Electrum.C81_restore_partial": [
"Classical.choice",
"Quot.sound",
"propext"
],
"Verif.Electrum.C81_restore_counterexample": [
"Classical.choice",
"Quot.sound",
"propext"
],
"Verif.Electrum.C81_to_prefix_counterexample": [
"Classical.choice",
"Quot.sound",
"propext"
],
"Verif.Electrum.C81_to_prefix_partial": [
"Classical.choice",
"Quot.sound",
"propext"
],
"Verif.Electrum.C81_none_counterexample": [
"Classical.choice",
"Quot.sound",
"propext"
],
"Verif.C82_p2pkh_needs_key_and_signature": [
"Classical.choice",
"Quot.sound",
"propext"
],
"Verif.C82_p2pkh": [
"Classical.choice",
"Quot.sound",
"propext"
],
"Verif.C82_covered": [
"Quot.sound",
"propext"
],
"Verif.C82_covered_p2pkh": [
"Classical.choice",
"Quot.sound",
"propext"
],
"Verif.C82_p2pk": [
"Classical.choice",
"Quot.sound",
"propext"
],
"Verif.C82_p2sh_needs_redeem": [
"Classical.choice",
"Quot.sound",
"propext"
],
"Verif.C82_p2wpkh": [
"Classical.choice",
"Quot.sound",
"propext"
],
"Verif.C82_p2sh_p2wpkh": [
"Classical.choice",
"Quot.sound",
"propext"
],
"Verif.C82_p2wsh_needs_script": [
"Classical.choice",
"Quot.sound",
"propext"
],
"Verif.C82_multisig_needs_signatures": [
"Classical.choice",
"Quot.sound",
"propext"
],
"Verif.C82_multisig": [
"Classical.choice",
"Quot.sound",
"propext"
],
"Verif.C82_multisig_p2sh": [
"Classical.choice",
"Quot.sound",
"propext"
],
"Verif.C82_multisig_p2wsh": [
"Classical.choice",
"Quot.sound",
"propext"
],
"Verif.C82_multisig_p2sh_p2wsh": [
"Classical.choice",
"Quot.sound",
"propext"
],
"Verif.Sign.C83_verify_exact": [
"Classical.choice",
"Quot.sound",
"propext"
],
"Verif.Sign.C83_malleable": [
"Classical.choice",
"Quot.sound",
"propext"
],
"Verif.Sign.C83_normalize": [
"Quot.sound",
"propext"
],
"Verif.Sign.C83_signature_verifies": [
"Classical.choice",
"Quot.sound",
"propext"
],
"Verif.Sign.C83_endorsement": [
"Classical.choice",
"Quot.sound",
"propext"
],
"Verif.Sign.C83_endorsement_verifies": [
"Classical.choice",
"Quot.sound",
"propext"
],
"Verif.Sign.C83_hash_skeleton": [
"Quot.sound",
"propext"
],
"Verif.Sign.C83_p2pkh": [
"Classical.choice",
"Quot.sound",
"propext"
],
"Verif.Sign.C83_p2pk": [
"Classical.choice",
"Quot.sound",
"propext"
],
"Verif.Sign.C83_p2wpkh": [
"Classical.choice",
"Quot.sound",
"propext"
],
"Verif.Sign.C83_p2sh_p2wpkh": [
"Classical.choice",
"Quot.sound",
"propext"
],
"Verif.Sign.C83_multisig_p2wsh": [
"Classical.choice",
"Quot.sound",
"propext"
],
"Verif.Sign.C83_multisig": [
"Classical.choice",
"Quot.sound",
"propext"
],
"Verif.C84_schnorr_exact": [
"Quot.sound",
"propext"
],
"Verif.C84_schnorr_signs": [
"Quot.sound",
"propext"
],
"Verif.C84_key_path": [
"Classical.choice",
"Quot.sound",
"propext"
],
"Verif.C84_tree_leaf_spends": [
"Classical.choice",
"Quot.sound",
"propext"
],
"Verif.C84_commits": [
"Classical.choice",
"Quot.sound",
"propext"
],
"Verif.C84_checksig_leaf": [
"Classical.choice",
"Quot.sound",
"propext"
],
"Verif.C84_hash_skeleton": [
"Classical.choice",
"Quot.sound",
"propext"
],
"Verif.C84_signed_key_path": [
"Classical.choice",
"Quot.sound",
"propext"
],
"Verif.C84_script_path": [
"Classical.choice",
"Quot.sound",
"propext"
],
"Verif.Config.C85_version_text": [
"Classical.choice",
"Quot.sound",
"propext"
],
"Verif.Config.C85_version": [
"Classical.choice",
"Quot.sound",
"propext"
],
"Verif.Config.C85_version_order": [
"Classical.choice",
"Quot.sound",
"propext"
],
"Verif.Config.C85_version_counterexample": [
"Classical.choice",
"Quot.sound",
"propext"
],
"Verif.Config.C85_byte": [
"Classical.choice",
"Quot.sound",
"propext"
],
"Verif.Config.C85_hashes": [
"Classical.choice",
"Quot.sound",
"propext"
],
"Verif.Config.C85_data": [
"Classical.choice",
"Quot.sound",
"propext"
],
"Verif.Config.C85_point": [
"Classical.choice",
"Quot.sound",
"propext"
],
"Verif.Config.C85_checkpoint": [
"Classical.choice",
"Quot.sound",
"propext"
],
"Verif.Config.C85_checkpoints": [
"Classical.choice",
"Quot.sound",
"propext"
],
"Verif.Config.C85_conflict_counterexample": [
"propext"
],
"Verif.Config.C85_point_counterexample": [
"Classical.choice",
"Quot.sound",
"propext"
],
"Verif.Config.C85_chain": [
"Classical.choice",
"Quot.sound",
"propext"
],
"Verif.Config.C85_script": [
"Classical.choice",
"Quot.sound",
"propext"
],
"Verif.Config.C85_output_counterexample": [
"Classical.choice",
"Quot.sound",
"propext"
],
"Verif.Config.C85_input_counterexample": [
"Classical.choice",
"Quot.sound",
"propext"
],
"Verif.Lists.C85_base2": [
"Classical.choice",
"Quot.sound",
"propext"
],
"Verif.Lists.C85_base32": [
"Classical.choice",
"Quot.sound",
"propext"
],
"Verif.Network.C86_endpoint": [
"Classical.choice",
"Quot.sound",
"propext"
],
"Verif.Network.C86_endpoint_roundtrip": [
"Classical.choice",
"Quot.sound",
"propext"
],
"Verif.Network.C86_url": [
"Classical.choice",
"Quot.sound",
"propext"
],
"Verif.Network.C86_url_roundtrip": [
"Classical.choice",
"Quot.sound",
"propext"
],
"Verif.Network.C86_authority": [
"Classical.choice",
"Quot.sound",
"propext"
],
"Verif.Network.C86_authority_roundtrip": [
"Classical.choice",
"Quot.sound",
"propext"
],
"Verif.Network.C86_authority_endpoint": [
"Classical.choice",
"Quot.sound",
"propext"
],
"Verif.Network.C86_url_counterexample": [
"Classical.choice",
"Quot.sound",
"propext"
],
"Verif.Network.C86_mapped_counterexample": [
"Classical.choice",
"Quot.sound",
"propext"
],
"Verif.Network.C86_member4": [
"Classical.choice",
"Quot.sound",
"propext"
],
"Verif.Network.C86_member6": [
"Classical.choice",
"Quot.sound",
"propext"
],
"Verif.Network.C86_match": [
"Classical.choice",
"Quot.sound",
"propext"
],
"Verif.Network.C86_match_counterexample": [
"propext"
],
"Verif.Network.C86_mapped": [
"Quot.sound",
"propext"
],
"Verif.Network.C86_host": [
"Classical.choice",
"Quot.sound",
"propext"
],
"Verif.Network.C86_host_roundtrip": [
"Classical.choice",
"Quot.sound",
"propext"
],
"Verif.Network.C86_lower": [
"Classical.choice",
"Quot.sound",
"propext"
],
"Verif.Network.C86_local": [
"Classical.choice",
"Quot.sound",
"propext"
],
"Verif.BitOps.C87_shift": [
"Quot.sound",
"propext"
],
"Verif.BitOps.C87_shift_modulo": [
"Quot.sound",
"propext"
],
"Verif.BitOps.C87_get": [
"Classical.choice",
"Quot.sound",
"propext"
],
"Verif.BitOps.C87_set": [
"Classical.choice",
"Quot.sound",
"propext"
],
"Verif.BitOps.C87_mask": [
"Classical.choice",
"Quot.sound",
"propext"
],
"Verif.BitOps.C87_rotate": [
"Quot.sound",
"propext"
],
"Verif.BitOps.C87_rotate_hash": [
"Classical.choice",
"Quot.sound",
"propext"
],
"Verif.BitOps.C87_rotate_counterexample": [
"Quot.sound",
"propext"
],
"Verif.BitOps.C87_words": [
"Classical.choice",
"Quot.sound",
"propext"
],
"Verif.Endian.C88_fill": [
"Classical.choice",
"Quot.sound",
"propext"
],
"Verif.Endian.C88_fill_counterexample": [
"propext"
],
"Verif.Endian.C88_read": [
"Classical.choice",
"Quot.sound",
"propext"
],
"Verif.Endian.C88_read_integral": [
"Classical.choice",
"Quot.sound",
"propext"
],
"Verif.Endian.C88_write_at": [
"Classical.choice",
"Quot.sound",
"propext"
],
"Verif.Endian.C88_read_at": [
"Quot.sound",
"propext"
],
"Verif.Endian.C88_byteswap": [
"Classical.choice",
"Quot.sound",
"propext"
],
"Verif.Endian.C88_to": [
"Classical.choice",
"Quot.sound",
"propext"
],
"Verif.Endian.C88_from": [
"Classical.choice",
"Quot.sound",
"propext"
],
"Verif.Endian.C88_roundtrip": [
"Classical.choice",
"Quot.sound",
"propext"
],
"Verif.Endian.C88_stream": [
"Classical.choice",
"Quot.sound",
"propext"
],
"Verif.Endian.C88_variable": [
"Classical.choice",
"Quot.sound",
"propext"
],
"Verif.Endian.C88_words": [
"Classical.choice",
"Quot.sound",
"propext"
],
"Verif.Endian.C88_uintx": [
"Classical.choice",
"Quot.sound",
"propext"
],
"Verif.Endian.C88_unbounded": [
"Quot.sound",
"propext"
],
"Verif.Json.C89_point": [
"Classical.choice",
"Quot.sound",
"propext"
],
"Verif.Json.C89_checkpoint": [
"Classical.choice",
"Quot.sound",
"propext"
],
"Verif.Json.C89_outpoint": [
"Classical.choice",
"Quot.sound",
"propext"
],
"Verif.Json.C89_header": [
"Classical.choice",
"Quot.sound",
"propext"
],
"Verif.Json.C89_text": [
"Classical.choice",
"Quot.sound",
"propext"
],
"Verif.Json.C89_input": [
"Classical.choice",
"Quot.sound",
"propext"
],
"Verif.Json.C89_output": [
"Classical.choice",
"Quot.sound",
"propext"
],
"Verif.Json.C89_output_text": [
"Classical.choice",
"Quot.sound",
"propext"
],
"Verif.Json.C89_transaction": [
"Classical.choice",
"Quot.sound",
"propext"
],
"Verif.Json.C89_transaction_text_counterexample": [
"Classical.choice",
"Quot.sound",
"propext"
],
"Verif.Json.C89_block": [
"Classical.choice",
"Quot.sound",
"propext"
],
"Verif.Json.C89_bitcoind_transaction": [
"Classical.choice",
"Quot.sound",
"propext"
],
"Verif.Json.C89_bitcoind_input": [
"Classical.choice",
"Quot.sound",
"propext"
],
"Verif.Json.C89_bitcoind_coinbase": [
"Quot.sound",
"propext"
],
"Verif.Json.C89_bitcoind_lists": [
"Quot.sound",
"propext"
],
"Verif.Json.C89_legacy_counterexample": [
"Classical.choice",
"Quot.sound",
"propext"
],
"Verif.Native.C90_transform": [
"Quot.sound",
"propext"
],
"Verif.Native.C90_blocks": [
"Quot.sound",
"propext"
],
"Verif.Native.C90_hash": [
"Classical.choice",
"Quot.sound",
"propext"
],
"Verif.Native.C90_pair": [
"Classical.choice",
"Quot.sound",
"propext"
],
"Verif.Native.C90_byte": [
"Quot.sound",
"propext"
],
"Verif.Native.C90_quarters_partial": [
"Classical.choice",
"Quot.sound",
"propext"
],
"Verif.Native.C90_quarters_counterexample": [
"Classical.choice",
"Quot.sound",
"propext"
],
"Verif.Lanes.C91_level": [
"Classical.choice",
"Quot.sound",
"propext"
],
"Verif.Lanes.C91_root": [
"Classical.choice",
"Quot.sound",
"propext"
],
"Verif.Lanes.C91_builds": [
"Classical.choice",
"Quot.sound",
"propext"
],
"Verif.Lanes.C91_lanes": [
"Classical.choice",
"Quot.sound",
"propext"
],
"Verif.HexReader.C92_read": [
"Classical.choice",
"Quot.sound",
"propext"
],
"Verif.HexReader.C92_program": [
"Classical.choice",
"Quot.sound",
"propext"
],
"Verif.HexReader.C92_seek": [
"Classical.choice",
"Quot.sound",
"propext"
],
"Verif.HexReader.C92_write": [
"Quot.sound",
"propext"
],
"Verif.HexReader.C92_written": [
"Classical.choice",
"Quot.sound",
"propext"
],
"Verif.HexReader.C92_limit_counterexample": [
"Classical.choice",
"Quot.sound",
"propext"
],
"Verif.Writer.C93_confined": [
"Quot.sound",
"propext"
],
"Verif.Writer.C93_writes": [
"Classical.choice",
"Quot.sound",
"propext"
],
"Verif.Writer.C93_accepted": [
"Classical.choice",
"Quot.sound",
"propext"
],
"Verif.Writer.C93_transaction": [
"Classical.choice",
"Quot.sound",
"propext"
],
"Verif.Writer.C93_read_back": [
"Quot.sound",
"propext"
],
"Verif.Writer.C93_push": [
"Quot.sound",
"propext"
],
"Verif.Unicode.C94_decompose": [
"Classical.choice",
"Quot.sound",
"propext"
],
"Verif.Unicode.C94_order": [
"Classical.choice",
"Quot.sound",
"propext"
],
"Verif.Unicode.C94_compose": [
"Classical.choice",
"Quot.sound",
"propext"
],
"Verif.Unicode.C94_decomposed": [
"Classical.choice",
"Quot.sound",
"propext"
],
"Verif.Unicode.C94_composed": [
"Classical.choice",
"Quot.sound",
"propext"
],
"Verif.Unicode.C94_unique": [
"Classical.choice",
"Quot.sound",
"propext"
],
"Verif.Unicode.C94_stable": [
"Classical.choice",
"Quot.sound",
"propext"
],
"Verif.Unicode.C94_idempotent": [
"Classical.choice",
"Quot.sound",
"propext"
],
"Verif.Unicode.C94_equal": [
"Classical.choice",
"Quot.sound",
"propext"
],
"Verif.Unicode.C94_ascii": [
"Classical.choice",
"Quot.sound",
"propext"
],
"Verif.Unicode.C94_case": [
"Quot.sound",
"propext"
],
"Verif.Unicode.C94_case_rows": [
"Quot.sound",
"propext"
],
"Verif.Unicode.C94_old_classes_counterexample": [
"propext"
],
"Verif.Containers.C95_slice": [
"Quot.sound",
"propext"
],
"Verif.Containers.C95_make": [
"Classical.choice",
"Quot.sound",
"propext"
],
"Verif.Containers.C95_resize": [
"Quot.sound",
"propext"
],
"Verif.Containers.C95_equal": [
"Classical.choice",
"Quot.sound",
"propext"
],
"Verif.Containers.C95_build": [
"Quot.sound",
"propext"
],
"Verif.Containers.C95_splice": [
"Quot.sound",
"propext"
],
"Verif.Containers.C95_xor": [
"Quot.sound",
"propext"
],
"Verif.Containers.C95_search": [
"Quot.sound",
"propext"
],
"Verif.Containers.C95_search_total": [
"Quot.sound",
"propext"
],
"Verif.Containers.C95_insert": [
"Quot.sound",
"propext"
],
"Verif.Containers.C95_sort": [
"Quot.sound",
"propext"
],
"Verif.Containers.C95_lists": [
"Classical.choice",
"Quot.sound",
"propext"
],
"Verif.Strings.C96_ends": [
"Quot.sound",
"propext"
],
"Verif.Strings.C96_split_join": [
"Classical.choice",
"Quot.sound",
"propext"
],
"Verif.Strings.C96_split_first": [
"Classical.choice",
"Quot.sound",
"propext"
],
"Verif.Strings.C96_join_split": [
"Classical.choice",
"Quot.sound",
"propext"
],
"Verif.Strings.C96_replace": [
"Classical.choice",
"Quot.sound",
"propext"
],
"Verif.Strings.C96_trim": [
"Classical.choice",
"Quot.sound",
"propext"
],
"Verif.Strings.C96_split_fields": [
"Classical.choice",
"Quot.sound",
"propext"
],
"Verif.Strings.C96_words": [
"Classical.choice",
"Quot.sound",
"propext"
],
"Verif.Strings.C96_empty_counterexample": [
"Quot.sound",
"propext"
],
"Verif.Strings.C96_found_counterexample": [
"Classical.choice",
"Quot.sound",
"propext"
],
"Verif.Strings.C96_delimiters_counterexample": [],
"Verif.Utf.C97_utf8": [
"Classical.choice",
"Quot.sound",
"propext"
],
"Verif.Utf.C97_remainder": [
"Classical.choice",
"Quot.sound",
"propext"
],
"Verif.Utf.C97_write": [
"Classical.choice",
"Quot.sound",
"propext"
],
"Verif.Utf.C97_flush": [
"Classical.choice",
"Quot.sound",
"propext"
],
"Verif.Utf.C97_write_whole": [
"Classical.choice",
"Quot.sound",
"propext"
],
"Verif.Utf.C97_safe": [
"Quot.sound",
"propext"
],
"Verif.Utf.C97_overrun_counterexample": [
"Quot.sound",
"propext"
],
"Verif.Utf.C97_invalid_counterexample": [
"Quot.sound",
"propext"
],
"Verif.Utf.C97_read": [
"Classical.choice",
"Quot.sound",
"propext"
],
"Verif.Utf.C97_read_utf16_partial": [
"Classical.choice",
"Quot.sound",
"propext"
],
"Verif.Utf.C97_read_counterexample": [],
"Verif.Forms.C98_compressed": [
"Classical.choice",
"Quot.sound",
"propext"
],
"Verif.Forms.C98_words": [
"Classical.choice",
"Quot.sound",
"propext"
],
"Verif.Forms.C98_spacing": [
"Classical.choice",
"Quot.sound",
"propext"
],
"Verif.Forms.C98_idempotent": [
"Classical.choice",
"Quot.sound",
"propext"
],
"Verif.Forms.C98_non_combining": [
"Classical.choice",
"Quot.sound",
"propext"
],
"Verif.Forms.C98_non_diacritic": [
"Classical.choice",
"Quot.sound",
"propext"
],
"Verif.Forms.C98_has_whitespace": [
"Classical.choice",
"Quot.sound",
"propext"
],
"Verif.Forms.C98_invalid_passphrase_counterexample": [
"Classical.choice",
"Quot.sound",
"propext"
],
"Verif.Forms.C98_normal_text": [
"Classical.choice",
"Quot.sound",
"propext"
],
"Verif.Forms.C98_lower_text": [
"Classical.choice",
"Quot.sound",
"propext"
],
"Verif.Forms.C98_electrum_phrase": [
"Classical.choice",
"Quot.sound",
"propext"
],
"Verif.Forms.C98_electrum_sentence": [
"Classical.choice",
"Quot.sound",
"propext"
],
"Verif.Forms.C98_separator_counterexample": [
"Quot.sound",
"propext"
],
"Verif.Image.C99_pixels": [
"Classical.choice",
"Quot.sound",
"propext"
],
"Verif.Image.C99_rejected": [
"Quot.sound",
"propext"
],
"Verif.Image.C99_accepted": [
"Quot.sound",
"propext"
],
"Verif.Image.C99_picture": [
"Quot.sound",
"propext"
],
"Verif.Image.C99_image": [
"Classical.choice",
"Quot.sound",
"propext"
],
"Verif.Image.C99_no_image": [
"Quot.sound",
"propext"
],
"Verif.Image.C99_wrap_counterexample": [
"Classical.choice",
"Quot.sound",
"propext"
],
"Verif.Serial.C100_fails": [
"Quot.sound",
"propext"
],
"Verif.Serial.C100_json_partial": [
"Classical.choice",
"Quot.sound",
"propext"
],
"Verif.Serial.C100_distinct_partial": [
"Classical.choice",
"Quot.sound",
"propext"
],
"Verif.Serial.C100_number_partial": [
"Classical.choice",
"Quot.sound",
"propext"
],
"Verif.Serial.C100_number_counterexample": [],
"Verif.Serial.C100_escape_counterexample": [
"Quot.sound",
"propext"
],
"Verif.Serial.C100_info_partial": [
"Classical.choice",
"Quot.sound",
"propext"
],
"Verif.Serial.C100_info_counterexample": [
"Quot.sound",
"propext"
],
"Verif.Serial.C100_xml_partial": [
"Classical.choice",
"Quot.sound",
"propext"
],
"Verif.Serial.C100_xml_counterexample": [
"Quot.sound",
"propext"
],
"Verif.Wallet.C101_output": [
"Classical.choice",
"Quot.sound",
"propext"
],
"Verif.Wallet.C101_input_script": [
"Classical.choice",
"Quot.sound",
"propext"
],
"Verif.Wallet.C101_extract": [
"Classical.choice",
"Quot.sound",
"propext"
],
"Verif.Wallet.C101_output_scripts": [
"Classical.choice",
"Quot.sound",
"propext"
],
"Verif.Wallet.C101_input_key_counterexample": [
"Classical.choice",
"Quot.sound",
"propext"
],
"Verif.Wallet.C101_signature_form": [
"propext"
],
"Verif.Wallet.C101_extract_witness_counterexample": [
"Classical.choice",
"Quot.sound",
"propext"
],
"Verif.Dust.C102_unspendable": [
"Classical.choice",
"Quot.sound",
"propext"
],
"Verif.Dust.C102_unspendable_fails": [
"Classical.choice",
"Quot.sound",
"propext"
],
"Verif.Dust.C102_unspendable_iff": [
"Classical.choice",
"Quot.sound",
"propext"
],
"Verif.Dust.C102_null_data": [
"Classical.choice",
"Quot.sound",
"propext"
],
"Verif.Dust.C102_dusty": [
"Quot.sound",
"propext"
],
"Verif.Dust.C102_dusty_mono": [
"Quot.sound",
"propext"
],
"Verif.C103_bare": [
"Classical.choice",
"Quot.sound",
"propext"
],
"Verif.C103_p2sh": [
"Classical.choice",
"Quot.sound",
"propext"
],
"Verif.C103_p2wsh": [
"Classical.choice",
"Quot.sound",
"propext"
],
"Verif.C103_tapscript": [
"Classical.choice",
"Quot.sound",
"propext"
],
"Verif.C103_exact": [
"Classical.choice",
"Quot.sound",
"propext"
],
"Verif.C103_transaction": [
"Classical.choice",
"Quot.sound",
"propext"
],
"Verif.WalletStream.C104_payment": [
"Classical.choice",
"Quot.sound",
"propext"
],
"Verif.WalletStream.C104_public": [
"Classical.choice",
"Quot.sound",
"propext"
],
"Verif.WalletStream.C104_private": [
"Classical.choice",
"Quot.sound",
"propext"
],
"Verif.WalletStream.C104_private_version_counterexample": [
"Classical.choice",
"Quot.sound",
"propext"
],
"Verif.WalletStream.C104_encrypted": [
"Classical.choice",
"Quot.sound",
"propext"
],
"Verif.WalletStream.C104_stealth": [
"Classical.choice",
"Quot.sound",
"propext"
],
"Verif.WalletStream.C104_witness": [
"Classical.choice",
"Quot.sound",
"propext"
],
"Verif.WalletStream.C104_refused": [
"Classical.choice",
"Quot.sound",
"propext"
],
"Verif.WalletStream.C104_discarded_counterexample": [
"Classical.choice",
"Quot.sound",
"propext"
],
"Verif.BlockCommit.C105_block": [
"Classical.choice",
"Quot.sound",
"propext"
],
"Verif.BlockCommit.C105_witness": [
"Classical.choice",
"Quot.sound",
"propext"
],
"Verif.BlockCommit.C105_wire": [
"Classical.choice",
"Quot.sound",
"propext"
],
"Verif.Lists.C106_words": [
"Classical.choice",
"Quot.sound",
"propext"
],
"Verif.Lists.C106_list": [
"Classical.choice",
"Quot.sound",
"propext"
],
"Verif.Lists.C106_array": [
"Classical.choice",
"Quot.sound",
"propext"
],
"Verif.Lists.C106_numbers": [
"Classical.choice",
"Quot.sound",
"propext"
],
"Verif.Lists.C106_data": [
"Classical.choice",
"Quot.sound",
"propext"
],
"Verif.Lists.C106_empty_counterexample": [
"Classical.choice",
"Quot.sound",
"propext"
],
"Verif.Lists.C106_array_counterexample": [],
"Verif.Random.C107_duration": [
"Quot.sound",
"propext"
],
"Verif.Random.C107_reaches": [
"Classical.choice",
"Quot.sound",
"propext"
],
"Verif.Random.C107_next": [
"Quot.sound",
"propext"
],
"Verif.Random.C107_fill": [
"Quot.sound",
"propext"
],
"Verif.Random.C107_negative_counterexample": [
"Classical.choice",
"Quot.sound",
"propext"
],
"Verif.ArrayCast.C108_part": [
"Classical.choice",
"Quot.sound",
"propext"
],
"Verif.ArrayCast.C108_all": [
"Classical.choice",
"Quot.sound",
"propext"
],
"Verif.ArrayCast.C108_assign": [
"Classical.choice",
"Quot.sound",
"propext"
],
"Verif.ArrayCast.C108_bytes": [
"Classical.choice",
"Quot.sound",
"propext"
],
"Verif.ArrayCast.C108_vector": [
"Classical.choice",
"Quot.sound",
"propext"
],
"Verif.ArrayCast.C108_vector_counterexample": []
}