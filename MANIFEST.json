{
 "claims": [
  {
   "property": "C01",
   "status": "proved",
   "theorems": [
    "Verif.C01_variable_roundtrip",
    "Verif.C01_variable_canonical",
    "Verif.C01_variable_prefix_free",
    "Verif.C01_variable_size"
   ],
   "note": ""
  },
  {
   "property": "C02",
   "status": "proved",
   "theorems": [
    "Verif.C02_little_endian_roundtrip",
    "Verif.C02_big_endian_roundtrip",
    "Verif.C02_byte_order"
   ],
   "note": ""
  },
  {
   "property": "C03",
   "status": "proved",
   "theorems": [
    "Verif.C03_position_in_buffer",
    "Verif.C03_read_returns_buffer",
    "Verif.C03_failure_sticky"
   ],
   "note": ""
  },
  {
   "property": "C04",
   "status": "proved",
   "theorems": [
    "Verif.C04_any_bytes_are_a_script",
    "Verif.C04_operations_are_complete"
   ],
   "note": ""
  },
  {
   "property": "C05",
   "status": "proved",
   "theorems": [
    "Verif.C05_prefixed_accept_iff",
    "Verif.C05_prefixed_consumes_exactly"
   ],
   "note": ""
  },
  {
   "property": "C06",
   "status": "proved",
   "theorems": [
    "Verif.C06_operations_roundtrip",
    "Verif.C06_operations_injective"
   ],
   "note": ""
  },
  {
   "property": "C07",
   "status": "proved",
   "theorems": [
    "Verif.C07_prefixed_roundtrip",
    "Verif.C07_prefixed_canonical",
    "Verif.C07_unprefixed_roundtrip"
   ],
   "note": ""
  },
  {
   "property": "C08",
   "status": "proved",
   "theorems": [
    "Verif.C08_roundtrip",
    "Verif.C08_constructed_is_writable",
    "Verif.C08_canonical",
    "Verif.C08_parse_safe",
    "Verif.C08_injective",
    "Verif.C08_ambiguous_counterexample"
   ],
   "note": "Transactions with zero inputs and exactly one output are excluded (Tx.Writable.unambiguous); C08_ambiguous_counterexample shows why. Lengths are assumed below 2^63."
  },
  {
   "property": "C09",
   "status": "proved",
   "theorems": [
    "Verif.C09_script_size",
    "Verif.C09_witness_size",
    "Verif.C09_point_size",
    "Verif.C09_input_size",
    "Verif.C09_output_size",
    "Verif.C09_transaction_size",
    "Verif.C09_header_size",
    "Verif.C09_block_size",
    "Verif.C09_transaction_weight",
    "Verif.C09_block_weight",
    "Verif.C09_parsed_is_sized"
   ],
   "note": ""
  },
  {
   "property": "C10",
   "status": "proved",
   "theorems": [
    "Verif.C10_header_roundtrip",
    "Verif.C10_header_canonical",
    "Verif.C10_block_roundtrip",
    "Verif.C10_block_canonical",
    "Verif.C10_block_parse_safe"
   ],
   "note": ""
  },
  {
   "property": "C11",
   "status": "proved",
   "theorems": [
    "Verif.C11_bip144_is_segregated_form",
    "Verif.C11_skip_implies_keep",
    "Verif.C11_superfluous_rejected"
   ],
   "note": ""
  },
  {
   "property": "C12",
   "status": "partial",
   "theorems": [
    "Verif.C12_expand_meaning",
    "Verif.C12_expand_zero_iff",
    "Verif.C12_expand_bounded",
    "Verif.C12_compress_loss_partial",
    "Verif.C12_compress_wellformed_partial",
    "Verif.C12_compress_monotone_partial",
    "Verif.C12_compress_stable_partial",
    "Verif.C12_power_counterexample",
    "Verif.C12_stable_counterexample"
   ],
   "note": "expand is characterised for every word; loss bound, monotonicity and stability of compress are proved for all numbers except exact powers of 256, where the code is wrong (compress(256^k) denotes zero: C12_power_counterexample, C12_stable_counterexample)."
  },
  {
   "property": "C13",
   "status": "proved",
   "theorems": [
    "Verif.C13_proof_value",
    "Verif.C13_proof_antitone"
   ],
   "note": ""
  },
  {
   "property": "C14",
   "status": "proved",
   "theorems": [
    "Verif.Num.C14_decode",
    "Verif.Num.C14_encode_denotes",
    "Verif.Num.C14_encode_minimal",
    "Verif.Num.C14_encode_unique",
    "Verif.Num.C14_minimal_shortest",
    "Verif.Num.C14_decode_range",
    "Verif.Num.C14_roundtrip",
    "Verif.Num.C14_integer_variant",
    "Verif.Num.C14_boolean",
    "Verif.Num.C14_boolean_variant",
    "Verif.Num.C14_minimal_boolean"
   ],
   "note": ""
  },
  {
   "property": "C15",
   "status": "proved",
   "theorems": [
    "Verif.Merkle.C15_root",
    "Verif.Merkle.C15_branch",
    "Verif.Merkle.C15_branch_binding",
    "Verif.Merkle.C15_branch_outside"
   ],
   "note": ""
  },
  {
   "property": "C16",
   "status": "partial",
   "theorems": [
    "Verif.Merkle.C16_reported_is_malleated",
    "Verif.Merkle.C16_distinct_not_reported",
    "Verif.Merkle.C16_mutation_reported",
    "Verif.Merkle.C16_malleable_iff",
    "Verif.Merkle.C16_commitment",
    "Verif.Merkle.C16_odd_counterexample"
   ],
   "note": "Soundness (reported lists are malleated: a shorter list has the same root) and single-step detection are proved for every list; detection of malleations made by several duplications, e.g. at odd sizes, is false in the code (C16_odd_counterexample)."
  },
  {
   "property": "C17",
   "status": "proved",
   "theorems": [
    "Verif.Settings.C17_max_money",
    "Verif.Settings.C17_max_money_bound",
    "Verif.Settings.C17_initial_subsidy",
    "Verif.Settings.C17_max_money_mainnet",
    "Verif.Validate.C17_halving",
    "Verif.Validate.C17_monotone",
    "Verif.Validate.C17_without_bip42",
    "Verif.Validate.C17_total",
    "Verif.Validate.C17_mainnet"
   ],
   "note": "subsidy_initial below 2^64; C17_total/C17_mainnet for every number of blocks."
  },
  {
   "property": "C18",
   "status": "proved",
   "theorems": [
    "Verif.Validate.C18_transaction",
    "Verif.Validate.C18_block",
    "Verif.Validate.C18_supply",
    "Verif.Validate.C18_mainnet"
   ],
   "note": "Unspent outputs handed to the block are those of the ledger; a transaction never spends its own output and no transaction hash is null (hash preimage infeasibility); BIP42 active at every height; arithmetic saturates in the code and the supply bound shows saturation is never reached."
  },
  {
   "property": "C19",
   "status": "proved",
   "theorems": [
    "Verif.State.C19_required",
    "Verif.State.C19_limit",
    "Verif.State.C19_factor",
    "Verif.State.C19_chain"
   ],
   "note": "For the header chain rule with block storm patch and litecoin overflow patch off (those variants are excluded by hypothesis) and, when retargeting, previous targets below 2^224 (all valid targets are). C19_chain gives the store-built and the promoted states the same required bits."
  },
  {
   "property": "C20",
   "status": "proved",
   "theorems": [
    "Verif.State.C20_median",
    "Verif.State.C20_step",
    "Verif.State.C20_monotone"
   ],
   "note": ""
  },
  {
   "property": "C21",
   "status": "partial",
   "theorems": [
    "Verif.State.C21_promotion_partial",
    "Verif.State.C21_block_partial",
    "Verif.State.C21_storm_counterexample",
    "Verif.State.C21_genesis_counterexample",
    "Verif.State.C21_unconfigured_counterexample",
    "Verif.State.C21_block_counterexample",
    "Verif.State.C21_timewarp_counterexample"
   ],
   "note": "Proved for header promotion with every checkpoint group configured, positive checkpoint heights, block storm and litecoin time warp patches off (C21_promotion_partial), and for block promotion up to the checkpoint caches (C21_block_partial). False outside those: five counterexample theorems (storm patch, checkpoint at genesis, unconfigured forks, block path with null hash, litecoin time warp)."
  },
  {
   "property": "C22",
   "status": "proved",
   "theorems": [
    "Verif.Machine.C22_no_undefined_access",
    "Verif.Machine.C22_limits",
    "Verif.Machine.C22_checked_before_run",
    "Verif.Machine.C22_no_undefined_access_in_library_containers"
   ],
   "note": ""
  },
  {
   "property": "C23",
   "status": "proved",
   "theorems": [
    "Verif.Machine.C23_success_is_balanced",
    "Verif.Machine.C23_untaken_branch_has_no_effect"
   ],
   "note": ""
  },
  {
   "property": "C24",
   "status": "proved",
   "theorems": [
    "Verif.Machine.C24_stack_containers_agree",
    "Verif.Machine.C24_result_test_agrees"
   ],
   "note": ""
  },
  {
   "property": "C25",
   "status": "proved",
   "theorems": [
    "Verif.C25_script_count",
    "Verif.C25_bounds",
    "Verif.C25_transaction_cost",
    "Verif.C25_block_limit"
   ],
   "note": "Assumes BIP141 implies BIP16 active (as in every deployed configuration) and scripts of fewer than 2^57 operations."
  },
  {
   "property": "C26",
   "status": "proved",
   "theorems": [
    "Verif.Validate.C26_absolute",
    "Verif.Validate.C26_absolute_monotone",
    "Verif.Validate.C26_relative",
    "Verif.Validate.C26_relative_monotone",
    "Verif.Validate.C26_confirm"
   ],
   "note": "Metadata of the previous outputs is given by the node (View); heights below 2^64-100."
  },
  {
   "property": "C27",
   "status": "proved",
   "theorems": [
    "Verif.Validate.C27_check",
    "Verif.Validate.C27_transaction_codes",
    "Verif.Validate.C27_codes"
   ],
   "note": "For blocks shorter than 2^64 bytes. Codes: C27_codes and C27_transaction_codes give the reported code as the first broken rule."
  },
  {
   "property": "C28",
   "status": "proved",
   "theorems": [
    "Verif.Der.C28_strict_total",
    "Verif.Der.C28_strict",
    "Verif.Der.C28_lax_total",
    "Verif.Der.C28_lax",
    "Verif.Der.C28_decode",
    "Verif.Der.C28_encode",
    "Verif.Der.C28_unique"
   ],
   "note": "ec_signature parsing (strict and lax) modelled byte for byte; the encoder is libsecp256k1's serializer, represented by its documented DER encoding Spec.encode. Strict acceptance = BIP66 grammar, lax parse is total and never reads out of bounds, encoding is accepted and unique."
  },
  {
   "property": "C29",
   "status": "partial",
   "theorems": [
    "Verif.Golomb.C29_decodes",
    "Verif.Golomb.C29_single",
    "Verif.Golomb.C29_member",
    "Verif.Golomb.C29_stack_sound",
    "Verif.Golomb.C29_stack_partial",
    "Verif.Golomb.C29_stack_counterexample",
    "Verif.Golomb.C29_filter_fails",
    "Verif.Golomb.C29_filter",
    "Verif.Golomb.C29_filter_member"
   ],
   "note": "siphash is an arbitrary function below 2^64. Proved: decoded set = sorted hashed values, exact single match, no false negatives of single matches and of block filters (neutrino compute_filter/match_filter), soundness of the list match. The last clause (list match iff some single match) is false: C29_stack_counterexample (golomb::match_stack skips elements); C29_stack_partial gives the part that holds (least hashed target)."
  },
  {
   "property": "C30",
   "status": "proved",
   "theorems": [
    "Verif.Bit.C30_written",
    "Verif.Bit.C30_roundtrip",
    "Verif.Bit.C30_position",
    "Verif.Bit.C30_exhausted",
    "Verif.Bit.C30_peek_partial",
    "Verif.Bit.C30_peek_counterexample"
   ],
   "note": "Round trip, random access positions, exhaustion. peek: C30_peek_partial (when a bit was taken) with C30_peek_counterexample showing peek_byte is wrong after rewinding to a byte boundary (outside the property's statement)."
  },
  {
   "property": "C31",
   "status": "proved",
   "theorems": [
    "Verif.Radix.C31_decode_encode",
    "Verif.Radix.C31_accepts",
    "Verif.Radix.C31_encode_decode",
    "Verif.Radix.C31_array",
    "Verif.Radix.C31_hash"
   ],
   "note": "Base16 (vector, array and hash forms) for every byte string/text."
  },
  {
   "property": "C32",
   "status": "proved",
   "theorems": [
    "Verif.Radix.C32_decode_encode",
    "Verif.Radix.C32_accepts",
    "Verif.Radix.C32_encode_decode",
    "Verif.Radix.C32_meaning"
   ],
   "note": "Base58 for every byte string/text, plus the positional meaning (C32_meaning)."
  },
  {
   "property": "C33",
   "status": "proved",
   "theorems": [
    "Verif.Pack.C33_base32",
    "Verif.Pack.C33_base32_accepts",
    "Verif.Pack.C33_base32_bounds_counterexample",
    "Verif.Radix.C33_base64",
    "Verif.Radix.C33_base64_text",
    "Verif.Radix.C33_base64_lax",
    "Verif.Radix.C33_base85",
    "Verif.Radix.C33_base85_lax"
   ],
   "note": "Base64, base85 and base32 decode their own encodings for every input. Findings outside the claim: C33_base64_lax, C33_base85_lax (foreign texts accepted) and C33_base32_bounds_counterexample (characters >= 128 index outside the 128-entry table)."
  },
  {
   "property": "C34",
   "status": "proved",
   "theorems": [
    "Verif.Pack.C34_unpack32",
    "Verif.Pack.C34_pack32",
    "Verif.Pack.C34_roundtrip32",
    "Verif.Pack.C34_repack32",
    "Verif.Pack.C34_overlong_counterexample",
    "Verif.Pack.C34_unpack2048",
    "Verif.Pack.C34_roundtrip2048",
    "Verif.Pack.C34_pack2048"
   ],
   "note": "Packing of 5-bit and 11-bit groups. C34_overlong_counterexample: padding of five or more zero bits is accepted."
  },
  {
   "property": "C35",
   "status": "proved",
   "theorems": [
    "Verif.Bech32.C35_built",
    "Verif.Bech32.C35_constant",
    "Verif.Bech32.C35_single_error",
    "Verif.Bech32.C35_wrong_constant"
   ],
   "note": "Built checksums verify and return version and program; one wrong group is detected at any length, including a changed version (which changes the constant; shown by the period 1023 of the feedback); constants by version."
  },
  {
   "property": "C36",
   "status": "proved",
   "theorems": [
    "Verif.Mnemonic.C36_shared",
    "Verif.Mnemonic.C36_index",
    "Verif.Mnemonic.C36_encode",
    "Verif.Mnemonic.C36_encode_refused",
    "Verif.Mnemonic.C36_unique",
    "Verif.Mnemonic.C36_decode",
    "Verif.Mnemonic.C36_decode_only",
    "Verif.Mnemonic.C36_roundtrip",
    "Verif.Mnemonic.C36_unspecified",
    "Verif.Mnemonic.C36_seed"
   ],
   "note": "All ten word lists are in the model (generated, tools/gen_words.py) and their facts are kernel-checked. Unicode normalisation of words is a parameter (identity on dictionary words). C36_seed is PBKDF2-HMAC-SHA512 of the standard, with the NFKD of the passphrase a parameter."
  },
  {
   "property": "C37",
   "status": "proved",
   "theorems": [
    "Verif.Mnemonic.C37_number",
    "Verif.Mnemonic.C37_words",
    "Verif.Mnemonic.C37_encode",
    "Verif.Mnemonic.C37_decode",
    "Verif.Mnemonic.C37_decode_only",
    "Verif.Mnemonic.C37_roundtrip",
    "Verif.Mnemonic.C37_reencode",
    "Verif.Mnemonic.C37_overflow"
   ],
   "note": "Stated against a transcription of the Python code quoted in the source. Unicode normalisation of words is a parameter; the 100000 SHA-256 rounds (strecher) are modelled but nothing is proved about them."
  },
  {
   "property": "C38",
   "status": "proved",
   "theorems": [
    "Verif.Hash.C38_padding",
    "Verif.Hash.C38_chunks",
    "Verif.Hash.C38_one_call",
    "Verif.Hash.C38_accepted",
    "Verif.Hash.C38_reset",
    "Verif.Hash.C38_midstate",
    "Verif.Hash.C38_double"
   ],
   "note": "For total sizes below 2^61 - 512 bytes (the length counter of the code is a size_t of bits). Checked and unchecked accumulators, resets and midstates included."
  },
  {
   "property": "C39",
   "status": "proved",
   "theorems": [
    "Verif.Sighash.C39_original",
    "Verif.Sighash.C39_original_iff",
    "Verif.Sighash.C39_v0",
    "Verif.Sighash.C39_v0_iff",
    "Verif.Sighash.C39_lists",
    "Verif.Sighash.C39_v1",
    "Verif.Sighash.C39_v1_iff",
    "Verif.Sighash.C39_signature_hash",
    "Verif.Sighash.C39_offset_counterexample",
    "Verif.Sighash.C39_empty_code_counterexample"
   ],
   "note": "C39_signature_hash: every history of calls. C39_original_iff, C39_v0_iff, C39_v1_iff: messages agree exactly if the committed fields do; C39_lists: the hashed lists determine outpoints, sequences, outputs, amounts and scripts. Version 1 needs that no previous output script is left at a code separator by an earlier evaluation: C39_offset_counterexample shows that BIP341 is violated otherwise (script.offset is only cleared at construction of a program). C39_empty_code_counterexample: position not committed to with an empty code (as in the original client)."
  },
  {
   "property": "C40",
   "status": "partial",
   "theorems": [
    "Verif.Arith.C40_add_overflow",
    "Verif.Arith.C40_subtract_overflow",
    "Verif.Arith.C40_multiply_overflow",
    "Verif.Arith.C40_negate_overflow",
    "Verif.Arith.C40_ceilinged_add",
    "Verif.Arith.C40_floored_subtract",
    "Verif.Arith.C40_ceilinged_multiply",
    "Verif.Arith.C40_safe_add",
    "Verif.Arith.C40_safe_subtract",
    "Verif.Arith.C40_safe_multiply",
    "Verif.Arith.C40_safe_negate",
    "Verif.Arith.C40_is_greater",
    "Verif.Arith.C40_is_lesser",
    "Verif.Arith.C40_is_limited",
    "Verif.Arith.C40_limit",
    "Verif.Arith.C40_absolute",
    "Verif.Arith.C40_floored_negate",
    "Verif.Arith.C40_delta_unsigned",
    "Verif.Arith.C40_delta_signed",
    "Verif.Arith.C40_is_multiple",
    "Verif.Arith.C40_is_product",
    "Verif.Arith.C40_truncated",
    "Verif.Arith.C40_floored",
    "Verif.Arith.C40_ceilinged_partial",
    "Verif.Arith.C40_ceilinged_modulo_counterexample"
   ],
   "note": "Everything proved, except that ceilinged division/modulo needs the divisor to fit the signed type of the same width (C40_ceilinged_partial); beyond it ceilinged_modulo is wrong (counterexample theorem)."
  },
  {
   "property": "C41",
   "status": "partial",
   "theorems": [
    "Verif.State.C41_single_limit_partial",
    "Verif.State.C41_proof_of_work_counterexample",
    "Verif.State.C41_work_required_counterexample",
    "Verif.State.C41_check",
    "Verif.State.C41_history_partial",
    "Verif.State.C41_timestamp_counterexample"
   ],
   "note": "Holds for every history of header::check and work_required calls that use the limits of one network (C41_history_partial, with C41_check for what a check says). Missing: histories with several limits, where the claim is false because three limits are cached in function-local statics (three counterexample theorems)."
  },
  {
   "property": "C42",
   "status": "proved",
   "theorems": [
    "Verif.ScriptText.C42_operation_printable",
    "Verif.ScriptText.C42_operation",
    "Verif.ScriptText.C42_script",
    "Verif.ScriptText.C42_witness",
    "Verif.ScriptText.C42_canonical",
    "Verif.ScriptText.C42_underflow_counterexample"
   ],
   "note": "Operations, scripts and witnesses, all fork sets, all opcodes (name table generated from opcode.cpp). C42_underflow_counterexample shows that the printed form of an underflow operation is not readable, for every data."
  },
  {
   "property": "C43",
   "status": "not_applicable",
   "theorems": [],
   "note": "src/unicode/conversion.cpp delegates every conversion to boost::locale::conv::utf_to_utf, an external library that is not in the repository; nothing remains to model."
  },
  {
   "property": "C44",
   "status": "proved",
   "theorems": [
    "Verif.Aead.C44_keystream",
    "Verif.Aead.C44_keystream_initial",
    "Verif.Aead.C44_poly1305",
    "Verif.Aead.C44_encrypt",
    "Verif.Aead.C44_decrypt",
    "Verif.Aead.C44_round_trip",
    "Verif.Aead.C44_packets",
    "Verif.Aead.C44_session",
    "Verif.Aead.C44_chunks"
   ],
   "note": "All four files in full, scalar and vector (SSE4.1/AVX2/AVX512 widths) paths; sizes are size_t. Clearing of local secrets is not modelled. An interval of zero is excluded (the code then uses 2^32)."
  },
  {
   "property": "C45",
   "status": "proved",
   "theorems": [
    "Verif.Uri.C45_roundtrip",
    "Verif.Uri.C45_amount",
    "Verif.Uri.C45_setters",
    "Verif.Uri.C45_accepts",
    "Verif.Uri.C45_equality_counterexample",
    "Verif.Uri.C45_witness_counterexample",
    "Verif.Uri.C45_valid"
   ],
   "note": "Boost.URL is a parameter of which only Urls.Faithful is assumed (for the round trip alone); its size limit is ignored. Equality after the round trip fails if the scheme was not set (C45_equality_counterexample), and witness addresses are refused (C45_witness_counterexample)."
  },
  {
   "property": "C46",
   "status": "partial",
   "theorems": [
    "Verif.C46_limit_respected_partial",
    "Verif.C46_limit_counterexample"
   ],
   "note": "Holds for every call sequence without a failed rewind/clearing call (partial theorem); false in general: a failed rewind_bytes still raises the remaining limit (counterexample theorem)."
  },
  {
   "property": "C47",
   "status": "partial",
   "theorems": [
    "Verif.C47_read_line_partial",
    "Verif.C47_read_line_counterexample",
    "Verif.C47_write_read_line"
   ],
   "note": "Proved for terminators for which the single-step fallback search is exact; false in general (counterexample theorem: overlapping terminator prefix is missed)."
  },
  {
   "property": "C48",
   "status": "partial",
   "theorems": [
    "Verif.C48_keep_implies_skip_partial",
    "Verif.C48_mode_counterexample"
   ],
   "note": "Proved except for transactions all of whose witness elements are empty, where the code gives different verdicts in the two modes (counterexample theorem)."
  },
  {
   "property": "C49",
   "status": "partial",
   "theorems": [
    "Verif.Arith.C49_power",
    "Verif.Arith.C49_floored_log",
    "Verif.Arith.C49_ceilinged_log_partial",
    "Verif.Arith.C49_ceilinged_log_counterexample",
    "Verif.Arith.C49_log2",
    "Verif.Arith.C49_log256",
    "Verif.Arith.C49_byte_width"
   ],
   "note": "ceilinged_log for a general base is not a ceiling (C49_ceilinged_log_counterexample: ceilinged_log(10,11)=1); what it does compute is C49_ceilinged_log_partial. The rest is proved in full."
  },
  {
   "property": "C50",
   "status": "partial",
   "theorems": [
    "Verif.Machine.C50_success_is_reference_success",
    "Verif.Machine.C50_prevalid_iff_reserved",
    "Verif.Machine.C50_reference_success_partial",
    "Verif.Machine.C50_exact",
    "Verif.Machine.C50_multisig_counterexample"
   ],
   "note": "Soundness (success implies reference success with equal stacks) and the OP_SUCCESS rule hold for all scripts; completeness holds exactly for tapscripts and without BIP66 (C50_exact). With BIP66 a failing multisig may abort on a signature the reference never looks at (C50_multisig_counterexample), so the general completeness is _partial. Signature capture is C76; cryptography is an uninterpreted oracle."
  },
  {
   "property": "C51",
   "status": "proved",
   "theorems": [
    "Verif.C51_pay_script_hash",
    "Verif.C51_witness_program",
    "Verif.C51_standard_witness"
   ],
   "note": "Scripts shorter than 2^63 bytes."
  },
  {
   "property": "C52",
   "status": "partial",
   "theorems": [
    "Verif.C52_no_undefined_access",
    "Verif.C52_accepted_is_valid",
    "Verif.C52_valid_is_accepted_partial",
    "Verif.C52_exact",
    "Verif.C52_exact_ordinary",
    "Verif.C52_multisig_counterexample"
   ],
   "note": "Soundness and absence of undefined access for all inputs. Completeness holds for every spend in which CHECKMULTISIG occurs only as the last operation of the previous output, redeem or witness script (C52_exact_ordinary: every standard form), and without BIP66 for all (C52_exact). Elsewhere, with BIP66 a failing multisig may abort on a signature that the reference never examines (C52_multisig_counterexample); C52_valid_is_accepted_partial says this is the only exception. BIP341 and BIP342 are assumed active together; batch signature capture is C76; cryptography is an arbitrary oracle."
  },
  {
   "property": "C53",
   "status": "proved",
   "theorems": [
    "Verif.Validate.C53_height",
    "Verif.Validate.C53_unique",
    "Verif.Validate.C53_small_heights"
   ],
   "note": "Conforms to the text of BIP34; other implementations expect OP_1..OP_16 for heights 1 to 16 (C53_small_heights shows these are refused)."
  },
  {
   "property": "C54",
   "status": "proved",
   "theorems": [
    "Verif.Validate.C54_commitment",
    "Verif.Validate.C54_rule",
    "Verif.Validate.C54_hash_limit",
    "Verif.Validate.C54_check"
   ],
   "note": "Blocks shorter than 2^61 bytes, heights below 2^63; hash functions are arbitrary functions."
  },
  {
   "property": "C55",
   "status": "proved",
   "theorems": [
    "Verif.State.C55_accept",
    "Verif.State.C55_signed_version_counterexample"
   ],
   "note": "Time, version, work and time warp rules exact for every Good state (store-built or promoted). Separate finding: rules of a block are chosen by unsigned comparison of its own version (C55_signed_version_counterexample)."
  },
  {
   "property": "C56",
   "status": "proved",
   "theorems": [
    "Verif.Base10.C56_decode",
    "Verif.Base10.C56_encode",
    "Verif.Base10.C56_roundtrip"
   ],
   "note": "Stream formatting/parsing of uint64_t in the classic locale is taken as decimal digits."
  },
  {
   "property": "C57",
   "status": "partial",
   "theorems": [
    "Verif.Bech32.C57_accepts",
    "Verif.Bech32.C57_parameters",
    "Verif.Bech32.C57_encoded_parses_partial",
    "Verif.Bech32.C57_too_long_counterexample",
    "Verif.Bech32.C57_reencodes_partial",
    "Verif.Bech32.C57_overlong_counterexample",
    "Verif.Bech32.C57_single_error"
   ],
   "note": "Acceptance is characterised exactly (C57_accepts) and single errors are rejected. Two claims are false of the code and have counterexamples: parameters with prefix and program together too long yield an address whose text (over 90 characters) is rejected (C57_too_long_counterexample; C57_encoded_parses_partial covers the rest), and zero padding of 5-7 bits, which BIP173 forbids, is accepted (C57_overlong_counterexample; C57_reencodes_partial covers the rest). Also version 1 programs of sizes other than 32 are refused even if not strict (in Sized)."
  },
  {
   "property": "C58",
   "status": "proved",
   "theorems": [
    "Verif.Hash.C58_hash",
    "Verif.Hash.C58_double_hash",
    "Verif.Hash.C58_size",
    "Verif.Hash.C58_pair",
    "Verif.Hash.C58_pair512",
    "Verif.Hash.C58_quarters",
    "Verif.Hash.C58_simple",
    "Verif.HashFn.C58_functions",
    "Verif.HashFn.C58_two_parts",
    "Verif.HashFn.C58_digest_pair",
    "Verif.HashFn.C58_tagged",
    "Verif.HashFn.C58_sha256_writer",
    "Verif.HashFn.C58_sha256x2_writer",
    "Verif.HashFn.C58_sha256t_writer",
    "Verif.HashFn.C58_djb2"
   ],
   "note": "Portable code in every build configuration (compressed, vectorised schedule, cached padding); the native SHA-NI/NEON intrinsics are not modelled. Messages below 2^61 - 512 bytes."
  },
  {
   "property": "C59",
   "status": "partial",
   "theorems": [
    "Verif.Hmac.C59_block_sizes",
    "Verif.Hmac.C59_hmac_chunks",
    "Verif.Hmac.C59_hmac",
    "Verif.Hmac.C59_pbkdf2",
    "Verif.Hmac.C59_hkdf_extract",
    "Verif.Hmac.C59_hkdf_expand",
    "Verif.Hmac.C59_hkdf",
    "Verif.Hmac.C59_hkdf_counterexample"
   ],
   "note": "HMAC and PBKDF2 proved for everything; HKDF proved for outputs up to 254 digests. For the permitted sizes above 254 digests the code does not terminate: C59_hkdf_counterexample proves this for every algorithm and input."
  },
  {
   "property": "C60",
   "status": "proved",
   "theorems": [
    "Verif.Views.C60_accepts",
    "Verif.Views.C60_transactions",
    "Verif.Views.C60_block",
    "Verif.Views.C60_identify",
    "Verif.Views.C60_commitment",
    "Verif.Views.C60_streamers",
    "Verif.Views.C60_whole_buffer_counterexample",
    "Verif.Views.C60_position_counterexample"
   ],
   "note": "Both view classes in full, over any hash function. to_data(true)/serialized_size(true) of a block view are those of the whole buffer (C60_whole_buffer_counterexample) and the first transaction is the coinbase by position (C60_position_counterexample), so identify(ctx) is stated for blocks whose first and only coinbase is the first transaction."
  },
  {
   "property": "C61",
   "status": "proved",
   "theorems": [
    "Verif.Ident.C61_history",
    "Verif.Ident.C61_header",
    "Verif.Ident.C61_desegregated",
    "Verif.Ident.C61_set_hashes",
    "Verif.Ident.C61_mode_counterexample"
   ],
   "note": "set_hashes needs the bytes to be the serialisation of the block in the mode it was parsed (C61_mode_counterexample) and at most one coinbase. Serialisation after script evaluation is covered by C39_offset_counterexample."
  },
  {
   "property": "C62",
   "status": "proved",
   "theorems": [
    "Verif.Hd.C62_private",
    "Verif.Hd.C62_public",
    "Verif.Hd.C62_depth",
    "Verif.Hd.C62_master",
    "Verif.Hd.C62_constructed",
    "Verif.Hd.C62_path",
    "Verif.Hd.C62_hardened",
    "Verif.Hd.C62_private_text",
    "Verif.Hd.C62_public_text",
    "Verif.Hd.C62_checksum_counterexample"
   ],
   "note": "libsecp256k1 is a parameter with its documented contract (Spec/Secp.lean; Toy.curve shows an instance with an order just below 2^256). from_key/from_string never verify the checksum (C62_checksum_counterexample) and hd_public does not check that the point is on the curve. Seeds are limited to 100000 bytes in the theorems (the hash bound is 2^61)."
  },
  {
   "property": "C63",
   "status": "proved",
   "theorems": [
    "Verif.Wallet.C63_address_accepts",
    "Verif.Wallet.C63_address_text",
    "Verif.Wallet.C63_address_canonical",
    "Verif.Wallet.C63_public_text",
    "Verif.Wallet.C63_key_address",
    "Verif.Wallet.C63_wif_accepts",
    "Verif.Wallet.C63_wif_text",
    "Verif.Wallet.C63_private_address",
    "Verif.Wallet.C63_entropy_counterexample",
    "Verif.Wallet.C63_order_counterexample",
    "Verif.Wallet.C63_output_script",
    "Verif.Wallet.C63_minikey"
   ],
   "note": "libsecp256k1 is a parameter with its documented contract. ec_private from entropy or from an ec_scalar keeps only the address byte, so its WIF text has version 0 (C63_entropy_counterexample); WIF texts with secrets at or above the order are accepted (C63_order_counterexample); extract_input of a key hash input takes the signature for the key (not modelled here, see DESIGN)."
  },
  {
   "property": "C64",
   "status": "proved",
   "theorems": [
    "Verif.Pattern.C64_output",
    "Verif.Pattern.C64_input",
    "Verif.Pattern.C64_input_counterexample",
    "Verif.Pattern.C64_unambiguous_counterexample",
    "Verif.Pattern.C64_unambiguous",
    "Verif.Pattern.C64_builders",
    "Verif.Pattern.C64_null_data_counterexample",
    "Verif.Pattern.C64_tapscript_multisig",
    "Verif.Pattern.C64_tapscript_threshold"
   ],
   "note": "Scripts shorter than 2^63 bytes. input_pattern never returns sign_public_key or sign_multisig for whole scripts, since the script hash test comes first; it returns them for scripts ending in an incomplete push (C64_input, C64_input_counterexample). Null data of one byte with its own opcode is built non minimally and is not recognised (C64_null_data_counterexample). A witness key hash output is also a script hash input, contrary to the comment (C64_unambiguous_counterexample)."
  },
  {
   "property": "C65",
   "status": "partial",
   "theorems": [
    "Verif.Ec.C65_scalar_partial",
    "Verif.Ec.C65_zero_counterexample",
    "Verif.Ec.C65_integer",
    "Verif.Ec.C65_point_partial",
    "Verif.Ec.C65_infinity_counterexample",
    "Verif.Ec.C65_sum",
    "Verif.Ec.C65_action"
   ],
   "note": "libsecp256k1 is a parameter with its documented contract. The full statement fails: zero plus or minus anything is zero (C65_zero_counterexample) and an invalid point, the only value for infinity, is not neutral (C65_infinity_counterexample); the theorems hold for left operands that are not zero (partial)."
  },
  {
   "property": "C66",
   "status": "proved",
   "theorems": [
    "Verif.Binary.C66_string",
    "Verif.Binary.C66_data",
    "Verif.Binary.C66_encoded",
    "Verif.Binary.C66_roundtrip",
    "Verif.Binary.C66_equal",
    "Verif.Binary.C66_order",
    "Verif.Binary.C66_index",
    "Verif.Binary.C66_index_counterexample"
   ],
   "note": "The guard of operator[] compares the byte position with the number of bits, so an index past the padding and below eight times the size reads outside of the vector (C66_index_counterexample)."
  },
  {
   "property": "C67",
   "status": "proved",
   "theorems": [
    "Verif.Stealth.C67_shared",
    "Verif.Stealth.C67_private",
    "Verif.Stealth.C67_script",
    "Verif.Stealth.C67_ephemeral",
    "Verif.Stealth.C67_payment",
    "Verif.Stealth.C67_address_safe",
    "Verif.Stealth.C67_address_accepts",
    "Verif.Stealth.C67_address_text",
    "Verif.Stealth.C67_address_text_limit"
   ],
   "note": "Over the assumed contract of libsecp256k1 (Spec/Secp). Address data up to 100000 bytes. C67_address_text_limit: an address that lists its scan key twice is valid but is not read back."
  },
  {
   "property": "C68",
   "status": "proved",
   "theorems": [
    "Verif.Message.C68_hash",
    "Verif.Message.C68_binding",
    "Verif.Message.C68_header",
    "Verif.Message.C68_verify",
    "Verif.Message.C68_sign",
    "Verif.Message.C68_key",
    "Verif.Message.C68_wif"
   ],
   "note": "Over the assumed contract of the recovery module of libsecp256k1 (Spec/Message: Recovery). The version of the address is ignored by verify_message, as C68_verify states."
  },
  {
   "property": "C69",
   "status": "proved",
   "theorems": [
    "Verif.Sip.C69_siphash",
    "Verif.Sip.C69_half"
   ],
   "note": "The partial last word relies on the zero filled short read of the stream, which is modelled."
  },
  {
   "property": "C70",
   "status": "proved",
   "theorems": [
    "Verif.Scrypt.C70_scrypt",
    "Verif.Scrypt.C70_litecoin",
    "Verif.Scrypt.C70_memory_counterexample"
   ],
   "note": "Memory exhaustion is modelled: C70_memory_counterexample shows that a failed allocation inside of the mixing is reported as success, with an unmixed result."
  },
  {
   "property": "C71",
   "status": "proved",
   "theorems": [
    "Verif.Aes.C71_encrypt",
    "Verif.Aes.C71_decrypt_encrypt",
    "Verif.Aes.C71_encrypt_decrypt"
   ],
   "note": "The implementation with in-place updates and on-the-fly key expansion in both directions is modelled statement by statement; the specification is FIPS 197 with the S-box computed from the field inverse."
  },
  {
   "property": "C72",
   "status": "partial",
   "theorems": [
    "Verif.Bip38.C72_encrypt",
    "Verif.Bip38.C72_decrypt",
    "Verif.Bip38.C72_token",
    "Verif.Bip38.C72_token_lot_partial",
    "Verif.Bip38.C72_pair",
    "Verif.Bip38.C72_decrypt_pair",
    "Verif.Bip38.C72_sound",
    "Verif.Bip38.C72_text"
   ],
   "note": "C72_token_lot_partial: with a lot and sequence, create_token returns true and leaves the output untouched when the derived factor is not a valid secret (finding 60), so the full claim (fails) is false there; everything else is proved in full. Passphrase normalization (ICU) is an arbitrary function; the curve is the secp256k1 contract."
  },
  {
   "property": "C73",
   "status": "proved",
   "theorems": [
    "Verif.Filter.Bloom.C73_bloom_exact",
    "Verif.Filter.Bloom.C73_bloom_no_false_negative",
    "Verif.Filter.Bloom.C73_bloom_collision",
    "Verif.Filter.Sieve.C73_sieve_no_false_negative",
    "Verif.Filter.Sieve.C73_sieve_adding",
    "Verif.Filter.Sieve.C73_sieve_one",
    "Verif.Filter.Sieve.C73_sieve_screens"
   ],
   "note": "The compile-time table is modelled as generated, in its flat layout."
  },
  {
   "property": "C74",
   "status": "proved",
   "theorems": [
    "Verif.Ring.C74_digest",
    "Verif.Ring.C74_verify",
    "Verif.Ring.C74_needs",
    "Verif.Ring.C74_signer",
    "Verif.Ring.C74_complete",
    "Verif.Ring.C74_digest_counterexample",
    "Verif.Ring.C74_extra_counterexample"
   ],
   "note": "Over the contract of libsecp256k1 (Curve). Sizes of the proofs and salts, which the code only asserts, are hypotheses; C74_extra_counterexample and C74_digest_counterexample show what is not checked."
  },
  {
   "property": "C75",
   "status": "proved",
   "theorems": [
    "Verif.Batch.C75_threshold",
    "Verif.Batch.C75_log",
    "Verif.Batch.C75_schnorr",
    "Verif.Batch.C75_ecdsa"
   ],
   "note": "The accelerated (HAVE_ULTRAFAST) evaluation and silent payment scanning are not modelled; the expansion of a group to rows is done by the store (another library) and is the specification Spec.Batch.expand, taken from the comments and tests."
  },
  {
   "property": "C76",
   "status": "proved",
   "theorems": [
    "Verif.Capture.C76_block",
    "Verif.Capture.C76_stored"
   ],
   "note": "Telemetry of what was missed or batched is not modelled. Points that compress must verify alike, digests are 32 bytes and decoded signatures 64."
  },
  {
   "property": "C77",
   "status": "proved",
   "theorems": [
    "Verif.Points.C77_greedy",
    "Verif.Points.C77_individual"
   ],
   "note": "The output object is taken not to be the input object, which select clears first. A minimum of zero takes one coin, the least."
  },
  {
   "property": "C78",
   "status": "proved",
   "theorems": [
    "Verif.Bech32.C78_groups",
    "Verif.Bech32.C78_distance",
    "Verif.Bech32.C78_detects",
    "Verif.Bech32.C78_tight"
   ],
   "note": "Replacement characters other than the separator '1' (with it the text has another prefix). The data part only: a wrong prefix character changes two groups."
  },
  {
   "property": "C79",
   "status": "proved",
   "theorems": [
    "Verif.Registry.C79_isolation",
    "Verif.Registry.C79_registered",
    "Verif.Registry.C79_progress",
    "Verif.Registry.C79_safe",
    "Verif.Registry.C79_purge",
    "Verif.Registry.C79_race_counterexample",
    "Verif.Registry.C79_dangling_counterexample"
   ],
   "note": "Sequentially consistent steps of the granularity stated in Model/Registry.lean; the promises are the documented ones (signatures.hpp:327-330, signatures.cpp:33-34)."
  },
  {
   "property": "C80",
   "status": "proved",
   "theorems": [
    "Verif.Electrum.C80_exclusive",
    "Verif.Electrum.C80_grind",
    "Verif.Electrum.C80_refused",
    "Verif.Electrum.C80_again",
    "Verif.Electrum.C80_seed"
   ],
   "note": "Hash functions, HMAC and PBKDF2 are those proved standard in C58 and C59. Unicode normalization is a parameter (it does not lengthen the phrase). Non-vacuity: a 19 byte entropy whose third candidate is the first of the standard version, computed in the kernel."
  },
  {
   "property": "C81",
   "status": "partial",
   "theorems": [
    "Verif.Electrum.C81_prefix",
    "Verif.Electrum.C81_words",
    "Verif.Electrum.C81_restore_partial",
    "Verif.Electrum.C81_restore_counterexample",
    "Verif.Electrum.C81_to_prefix_counterexample",
    "Verif.Electrum.C81_to_prefix_partial",
    "Verif.Electrum.C81_none_counterexample"
   ],
   "note": "Partial: false as stated. C81_restore_counterexample: a generated Portuguese instance whose words restore to an Electrum v1 instance, as from_words tries Electrum v1 in the given language and generation only avoids English ones. C81_to_prefix_counterexample: to_prefix passes on the words as given instead of the normalized ones. C81_none_counterexample: is_prefix(words, none) is always true."
  },
  {
   "property": "C82",
   "status": "proved",
   "theorems": [
    "Verif.C82_p2pkh_needs_key_and_signature",
    "Verif.C82_p2pkh",
    "Verif.C82_covered",
    "Verif.C82_covered_p2pkh",
    "Verif.C82_p2pk",
    "Verif.C82_p2sh_needs_redeem",
    "Verif.C82_p2wpkh",
    "Verif.C82_p2sh_p2wpkh",
    "Verif.C82_p2wsh_needs_script",
    "Verif.C82_multisig_needs_signatures",
    "Verif.C82_multisig",
    "Verif.C82_multisig_p2sh",
    "Verif.C82_multisig_p2wsh",
    "Verif.C82_multisig_p2sh_p2wsh"
   ],
   "note": "The signature hash, signature decoding and signature check are the transaction's oracles (their models are C07, C08, C53). P2WPKH and P2WSH need BIP141 and BIP143, and the program must not be a script zero (truthy). The covered script is the script without pushes of the signatures themselves (legacy); C82_covered_p2pkh shows this is the whole script for P2PKH unless the signature equals the hash."
  },
  {
   "property": "C83",
   "status": "proved",
   "theorems": [
    "Verif.Sign.C83_verify_exact",
    "Verif.Sign.C83_malleable",
    "Verif.Sign.C83_normalize",
    "Verif.Sign.C83_signature_verifies",
    "Verif.Sign.C83_endorsement",
    "Verif.Sign.C83_endorsement_verifies",
    "Verif.Sign.C83_hash_skeleton",
    "Verif.Sign.C83_p2pkh",
    "Verif.Sign.C83_p2pk",
    "Verif.Sign.C83_p2wpkh",
    "Verif.Sign.C83_p2sh_p2wpkh",
    "Verif.Sign.C83_multisig_p2wsh",
    "Verif.Sign.C83_multisig"
   ],
   "note": "The legacy cases exclude an endorsement that equals, byte for byte, a push of the script (find and delete), and the witness cases a program of zero bytes, as C82. The reader libsecp256k1 is a parameter."
  },
  {
   "property": "C84",
   "status": "proved",
   "theorems": [
    "Verif.C84_schnorr_exact",
    "Verif.C84_schnorr_signs",
    "Verif.C84_key_path",
    "Verif.C84_tree_leaf_spends",
    "Verif.C84_commits",
    "Verif.C84_checksig_leaf",
    "Verif.C84_hash_skeleton",
    "Verif.C84_signed_key_path",
    "Verif.C84_script_path"
   ],
   "note": "libsecp256k1 is a parameter with a contract (Spec/Taproot.lean `Schnorr`), met by an instance. The exclusion is for control blocks with the internal key of the output: another key with a tweak to the same output is not excluded by hash collisions. A zero output key (32 zero bytes, not an x coordinate) is refused by the code through the truth of the stack."
  },
  {
   "property": "C85",
   "status": "proved",
   "theorems": [
    "Verif.Config.C85_version_text",
    "Verif.Config.C85_version",
    "Verif.Config.C85_version_order",
    "Verif.Config.C85_version_counterexample",
    "Verif.Config.C85_byte",
    "Verif.Config.C85_hashes",
    "Verif.Config.C85_data",
    "Verif.Config.C85_point",
    "Verif.Config.C85_checkpoint",
    "Verif.Config.C85_checkpoints",
    "Verif.Config.C85_conflict_counterexample",
    "Verif.Config.C85_point_counterexample",
    "Verif.Config.C85_chain",
    "Verif.Config.C85_script",
    "Verif.Config.C85_output_counterexample",
    "Verif.Config.C85_input_counterexample",
    "Verif.Lists.C85_base2",
    "Verif.Lists.C85_base32"
   ],
   "note": "C85_output_counterexample: no output written is read back, the test of the value is inverted (finding 69). C85_input_counterexample: no input written is read back, nothing separates the script from the point (finding 70). C85_version_counterexample, C85_point_counterexample: texts that are not values are accepted. C85_conflict_counterexample: of two checkpoints at one height only the first is compared. The stream library is modelled by its standard contract in the C locale."
  },
  {
   "property": "C86",
   "status": "proved",
   "theorems": [
    "Verif.Network.C86_endpoint",
    "Verif.Network.C86_endpoint_roundtrip",
    "Verif.Network.C86_url",
    "Verif.Network.C86_url_roundtrip",
    "Verif.Network.C86_authority",
    "Verif.Network.C86_authority_roundtrip",
    "Verif.Network.C86_authority_endpoint",
    "Verif.Network.C86_url_counterexample",
    "Verif.Network.C86_mapped_counterexample",
    "Verif.Network.C86_member4",
    "Verif.Network.C86_member6",
    "Verif.Network.C86_match",
    "Verif.Network.C86_match_counterexample",
    "Verif.Network.C86_mapped",
    "Verif.Network.C86_host",
    "Verif.Network.C86_host_roundtrip",
    "Verif.Network.C86_lower",
    "Verif.Network.C86_local"
   ],
   "note": "C86_url_counterexample: an URL made of an IPv6 authority or address is written without brackets and never read back (finding 71). C86_mapped_counterexample: a mapped address in hexadecimal is accepted by the reader but not brought to the form of the constructors, so it does not match itself (finding 72). C86_match_counterexample: == is not transitive. Address text functions are a parameter with the contract Lawful; networks are modelled by the ranges Boost documents; scope identifiers are left out; std::regex is modelled by functions whose languages are stated by the theorems."
  },
  {
   "property": "C87",
   "status": "proved",
   "theorems": [
    "Verif.BitOps.C87_shift",
    "Verif.BitOps.C87_shift_modulo",
    "Verif.BitOps.C87_get",
    "Verif.BitOps.C87_set",
    "Verif.BitOps.C87_mask",
    "Verif.BitOps.C87_rotate",
    "Verif.BitOps.C87_rotate_hash",
    "Verif.BitOps.C87_rotate_counterexample",
    "Verif.BitOps.C87_words"
   ],
   "note": "Values as bit vectors of any width. std::rotl/rotr by their definition in the standard."
  },
  {
   "property": "C88",
   "status": "proved",
   "theorems": [
    "Verif.Endian.C88_fill",
    "Verif.Endian.C88_fill_counterexample",
    "Verif.Endian.C88_read",
    "Verif.Endian.C88_read_integral",
    "Verif.Endian.C88_write_at",
    "Verif.Endian.C88_read_at",
    "Verif.Endian.C88_byteswap",
    "Verif.Endian.C88_to",
    "Verif.Endian.C88_from",
    "Verif.Endian.C88_roundtrip",
    "Verif.Endian.C88_stream",
    "Verif.Endian.C88_variable",
    "Verif.Endian.C88_words",
    "Verif.Endian.C88_uintx",
    "Verif.Endian.C88_unbounded"
   ],
   "note": "The byte order of the machine is a parameter. Casts of arrays and integers are the bytes in memory."
  },
  {
   "property": "C89",
   "status": "proved",
   "theorems": [
    "Verif.Json.C89_point",
    "Verif.Json.C89_checkpoint",
    "Verif.Json.C89_outpoint",
    "Verif.Json.C89_header",
    "Verif.Json.C89_text",
    "Verif.Json.C89_input",
    "Verif.Json.C89_output",
    "Verif.Json.C89_output_text",
    "Verif.Json.C89_transaction",
    "Verif.Json.C89_transaction_text_counterexample",
    "Verif.Json.C89_block",
    "Verif.Json.C89_bitcoind_transaction",
    "Verif.Json.C89_bitcoind_input",
    "Verif.Json.C89_bitcoind_coinbase",
    "Verif.Json.C89_bitcoind_lists",
    "Verif.Json.C89_legacy_counterexample",
    "Verif.Json.C89_bitcoind_fields",
    "Verif.Json.C89_operation_names"
   ],
   "note": "The full round trip fails for transactions without witnesses and for text (findings 74, 75): the exact conditions are proved. boost::json itself is modelled as a value with int64/uint64/string/array/object, its text layer as the change of integer kind. The decoded asm, amounts as floating point, addresses and block difficulty of the bitcoind form are not modelled."
  },
  {
   "property": "C90",
   "status": "partial",
   "theorems": [
    "Verif.Native.C90_transform",
    "Verif.Native.C90_blocks",
    "Verif.Native.C90_hash",
    "Verif.Native.C90_pair",
    "Verif.Native.C90_byte",
    "Verif.Native.C90_quarters_partial",
    "Verif.Native.C90_quarters_counterexample"
   ],
   "note": "Partial since the last sentence is false: pairs of 16 byte values are hashed with every four bytes reversed (C90_quarters_partial says exactly what is hashed, C90_quarters_counterexample; finding 76). The semantics of the instructions (sha256rnds2, sha256msg1/2, SHA256H/H2/SU0/SU1, pshufd, palignr, pblendw) is specified in Spec/ShaIsa.lean from the processor manuals. Not modelled: the native merkle and hash-vector functions."
  },
  {
   "property": "C91",
   "status": "proved",
   "theorems": [
    "Verif.Lanes.C91_level",
    "Verif.Lanes.C91_root",
    "Verif.Lanes.C91_builds",
    "Verif.Lanes.C91_lanes"
   ],
   "note": "The register instructions are specified lane by lane (xor, and, or, add, shifts; byte swap of each lane); rotation is two shifts. SHA-256 only."
  },
  {
   "property": "C92",
   "status": "proved",
   "theorems": [
    "Verif.HexReader.C92_read",
    "Verif.HexReader.C92_program",
    "Verif.HexReader.C92_seek",
    "Verif.HexReader.C92_write",
    "Verif.HexReader.C92_written",
    "Verif.HexReader.C92_limit_counterexample"
   ],
   "note": "Programs do not include clearing an error by set_position: C92_seek covers positioning from a valid state, C92_limit_counterexample shows that after an error the two readers differ (finding 77)."
  },
  {
   "property": "C93",
   "status": "proved",
   "theorems": [
    "Verif.Writer.C93_confined",
    "Verif.Writer.C93_writes",
    "Verif.Writer.C93_accepted",
    "Verif.Writer.C93_transaction",
    "Verif.Writer.C93_read_back",
    "Verif.Writer.C93_push",
    "Verif.Writer.C93_moves",
    "Verif.Writer.C93_seek"
   ],
   "note": "Over the library's own ostream/iostream; std and boost streams are not modelled. Sizes are those the code asserts (not above the stream's signed maximum)."
  },
  {
   "property": "C94",
   "status": "proved",
   "theorems": [
    "Verif.Unicode.C94_decompose",
    "Verif.Unicode.C94_order",
    "Verif.Unicode.C94_compose",
    "Verif.Unicode.C94_decomposed",
    "Verif.Unicode.C94_composed",
    "Verif.Unicode.C94_unique",
    "Verif.Unicode.C94_stable",
    "Verif.Unicode.C94_idempotent",
    "Verif.Unicode.C94_equal",
    "Verif.Unicode.C94_ascii",
    "Verif.Unicode.C94_case",
    "Verif.Unicode.C94_case_rows",
    "Verif.Unicode.C94_old_classes_counterexample"
   ],
   "note": "The conversions between UTF-8 and UTF-32 are boost's and are not modelled; the tables are transcribed whole by tools/gen_unicode.py. Against Unicode 15 the combining class table is older than the decomposition table (finding 78, counterexample theorem), so the statement is relative to the library's character data."
  },
  {
   "property": "C95",
   "status": "proved",
   "theorems": [
    "Verif.Containers.C95_slice",
    "Verif.Containers.C95_make",
    "Verif.Containers.C95_resize",
    "Verif.Containers.C95_equal",
    "Verif.Containers.C95_build",
    "Verif.Containers.C95_splice",
    "Verif.Containers.C95_xor",
    "Verif.Containers.C95_search",
    "Verif.Containers.C95_search_total",
    "Verif.Containers.C95_insert",
    "Verif.Containers.C95_sort",
    "Verif.Containers.C95_lists"
   ],
   "note": "std algorithms are taken as the C++ standard specifies them; a pointer is a position in a list of bytes."
  },
  {
   "property": "C96",
   "status": "proved",
   "theorems": [
    "Verif.Strings.C96_ends",
    "Verif.Strings.C96_split_join",
    "Verif.Strings.C96_split_first",
    "Verif.Strings.C96_join_split",
    "Verif.Strings.C96_replace",
    "Verif.Strings.C96_trim",
    "Verif.Strings.C96_split_fields",
    "Verif.Strings.C96_words",
    "Verif.Strings.C96_empty_counterexample",
    "Verif.Strings.C96_found_counterexample",
    "Verif.Strings.C96_delimiters_counterexample"
   ],
   "note": "With an empty trim token or delimiter the loops do not terminate (C96_empty_counterexample, finding 81); trim_left and trim_right always return false (C96_found_counterexample, finding 80); several delimiters longer than one character interfere (C96_delimiters_counterexample). The statement excludes these."
  },
  {
   "property": "C97",
   "status": "partial",
   "theorems": [
    "Verif.Utf.C97_utf8",
    "Verif.Utf.C97_remainder",
    "Verif.Utf.C97_write",
    "Verif.Utf.C97_flush",
    "Verif.Utf.C97_write_whole",
    "Verif.Utf.C97_safe",
    "Verif.Utf.C97_overrun_counterexample",
    "Verif.Utf.C97_invalid_counterexample",
    "Verif.Utf.C97_read",
    "Verif.Utf.C97_read_utf16_partial",
    "Verif.Utf.C97_read_counterexample"
   ],
   "note": "Partial because the code is wrong for one case: with 16 bit wide characters a read that ends inside a surrogate pair ends the input and loses the block (C97_read_counterexample); the theorem covers reads of whole characters. Also C97_overrun_counterexample (buffer of one wide character overrun by invalid bytes; C97_safe proves sizes of two or more safe for any bytes) and C97_invalid_counterexample. boost::locale's strict conversion is modelled by the standard's encoding forms."
  },
  {
   "property": "C98",
   "status": "proved",
   "theorems": [
    "Verif.Forms.C98_compressed",
    "Verif.Forms.C98_words",
    "Verif.Forms.C98_spacing",
    "Verif.Forms.C98_idempotent",
    "Verif.Forms.C98_non_combining",
    "Verif.Forms.C98_non_diacritic",
    "Verif.Forms.C98_has_whitespace",
    "Verif.Forms.C98_invalid_passphrase_counterexample",
    "Verif.Forms.C98_normal_text",
    "Verif.Forms.C98_lower_text",
    "Verif.Forms.C98_electrum_phrase",
    "Verif.Forms.C98_electrum_sentence",
    "Verif.Forms.C98_separator_counterexample"
   ],
   "note": "boost::locale's strict conversion is modelled by the standard's encoding forms (C97). C98_invalid_passphrase_counterexample: every passphrase that is not valid UTF-8 gives the seed of the empty passphrase. C98_separator_counterexample: only ASCII whitespace separates words."
  },
  {
   "property": "C99",
   "status": "proved",
   "theorems": [
    "Verif.Image.C99_pixels",
    "Verif.Image.C99_rejected",
    "Verif.Image.C99_accepted",
    "Verif.Image.C99_picture",
    "Verif.Image.C99_image",
    "Verif.Image.C99_no_image",
    "Verif.Image.C99_wrap_counterexample"
   ],
   "note": "The coding of text as modules is the embedded qrencode library and is an argument. Failure of the output stream is not modelled."
  },
  {
   "property": "C100",
   "status": "partial",
   "theorems": [
    "Verif.Serial.C100_fails",
    "Verif.Serial.C100_json_partial",
    "Verif.Serial.C100_distinct_partial",
    "Verif.Serial.C100_number_partial",
    "Verif.Serial.C100_number_counterexample",
    "Verif.Serial.C100_escape_counterexample",
    "Verif.Serial.C100_info_partial",
    "Verif.Serial.C100_info_counterexample",
    "Verif.Serial.C100_xml_partial",
    "Verif.Serial.C100_xml_counterexample"
   ],
   "note": "Partial: there are no escapes, so the JSON theorem needs strings and names without quotes, backslashes and control characters, and the XML theorem needs names that are names in XML and strings without markup; the number range is off by one at both ends. C100_info_partial: the indented info text has exactly the words (in quotes or not) the tree stands for, if strings without whitespace are not empty and do not begin with a quote and those with whitespace have no quote; info on one line is modelled, but only its failure is proved."
  },
  {
   "property": "C101",
   "status": "partial",
   "theorems": [
    "Verif.Wallet.C101_output",
    "Verif.Wallet.C101_input_script",
    "Verif.Wallet.C101_extract",
    "Verif.Wallet.C101_output_scripts",
    "Verif.Wallet.C101_input_key_counterexample",
    "Verif.Wallet.C101_signature_form",
    "Verif.Wallet.C101_extract_witness_counterexample"
   ],
   "note": "Proved for outputs, script hash inputs and scripts that are no inputs. Two counterexamples: extract_input reads the public key from the first push, which is the signature, so the address of a signed key hash input is invalid (C101_input_key_counterexample, finding 92); extract gives a script hash address for a witness key hash output (C101_extract_witness_counterexample, finding 93). Hashes beyond 100000 bytes of revealed script are out of reach of the hash theorem as used."
  },
  {
   "property": "C102",
   "status": "proved",
   "theorems": [
    "Verif.Dust.C102_unspendable",
    "Verif.Dust.C102_unspendable_fails",
    "Verif.Dust.C102_unspendable_iff",
    "Verif.Dust.C102_null_data",
    "Verif.Dust.C102_dusty",
    "Verif.Dust.C102_dusty_mono"
   ],
   "note": "Over the interpreter model of C22/C52 (connect). Not complete by design: scripts that fail later than the first operation are not found."
  },
  {
   "property": "C103",
   "status": "proved",
   "theorems": [
    "Verif.C103_bare",
    "Verif.C103_p2sh",
    "Verif.C103_p2wsh",
    "Verif.C103_tapscript",
    "Verif.C103_exact",
    "Verif.C103_transaction"
   ],
   "note": "The lock must be the second operation of the script, after a push of the number; the hash of the script stands for the script unless two scripts with one hash are at hand; tapscripts with an OP_SUCCESS are left out."
  },
  {
   "property": "C104",
   "status": "proved",
   "theorems": [
    "Verif.WalletStream.C104_payment",
    "Verif.WalletStream.C104_public",
    "Verif.WalletStream.C104_private",
    "Verif.WalletStream.C104_private_version_counterexample",
    "Verif.WalletStream.C104_encrypted",
    "Verif.WalletStream.C104_stealth",
    "Verif.WalletStream.C104_witness",
    "Verif.WalletStream.C104_refused",
    "Verif.WalletStream.C104_discarded_counterexample"
   ],
   "note": "Streams of libstdc++ in the C locale. Counterexamples: the address version of a private key; tokens and hierarchical deterministic keys. bitcoin_uri is left out."
  },
  {
   "property": "C105",
   "status": "proved",
   "theorems": [
    "Verif.BlockCommit.C105_block",
    "Verif.BlockCommit.C105_witness",
    "Verif.BlockCommit.C105_wire"
   ],
   "note": "C105_block (up to witnesses), C105_witness, C105_wire (bytes). The digest is a parameter; collisions exist for any digest of 32 bytes, so the theorems name the finite set of messages in which one would be found (Spec/BlockCommit). The example shows an accepted block whose messages contain neither a collision nor a near zero."
  },
  {
   "property": "C106",
   "status": "proved",
   "theorems": [
    "Verif.Lists.C106_words",
    "Verif.Lists.C106_list",
    "Verif.Lists.C106_array",
    "Verif.Lists.C106_numbers",
    "Verif.Lists.C106_data",
    "Verif.Lists.C106_empty_counterexample",
    "Verif.Lists.C106_array_counterexample"
   ],
   "note": "C106_words (any text, any decoder of elements), C106_list, C106_array, C106_numbers, C106_data; C106_empty_counterexample and C106_array_counterexample (findings 97, 98). The words of a text are Spec/Lists. What a failed deserialize leaves in its argument is not modelled."
  },
  {
   "property": "C107",
   "status": "proved",
   "theorems": [
    "Verif.Random.C107_duration",
    "Verif.Random.C107_reaches",
    "Verif.Random.C107_next",
    "Verif.Random.C107_fill",
    "Verif.Random.C107_negative_counterexample"
   ],
   "note": "C107_duration, C107_reaches, C107_next, C107_fill; C107_negative_counterexample (finding 99). The distribution of the standard library is a parameter with the contract Lawful; the engine, its seed and shuffle are not modelled."
  },
  {
   "property": "C108",
   "status": "proved",
   "theorems": [
    "Verif.ArrayCast.C108_part",
    "Verif.ArrayCast.C108_all",
    "Verif.ArrayCast.C108_assign",
    "Verif.ArrayCast.C108_bytes",
    "Verif.ArrayCast.C108_vector",
    "Verif.ArrayCast.C108_vector_counterexample"
   ],
   "note": "The C++ rules on aliasing and alignment are outside the model, sizes are taken not to overflow. Finding 100: unsafe_vector_cast of a pointer to integrals wider than a byte skips memory (C108_vector_counterexample)."
  }
 ]
}