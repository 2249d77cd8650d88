1. `read_line` falls back incompletely after a partial match of a terminator and misses terminators overlapping it (C47).
2. `bit_reader::do_peek_byte` is wrong when a rewind left it at a byte boundary (C30_peek_counterexample).
3. `operation::to_string` prints an underflow as "(hex)" but `from_string` expects "<hex>" (C42_underflow_counterexample).
4. Transaction parsing with and without witnesses applies different superfluous-witness rules (C48 counterexample).
5. A transaction with no inputs and one output is written as bytes that are read as another (C08_ambiguous_counterexample).
6. `read_string_buffer` clears earlier errors of the reader.
7. Skips and reads of 2^63 bytes or more become negative offsets (the `ub` flag of the stream model).
8. `chain_state::to_block` clears the hash of the promoted state (C21_block_counterexample).
9. The block storm and litecoin time warp patches give different states from scratch and by promotion (C21 counterexamples).
10. Function-local statics keep the first proof-of-work limit ever used in the process (C41 counterexamples: `is_invalid_proof_of_work`, `work_required_retarget`; likewise `two_hours`).
11. Value sums saturate; the supply bound shows that saturation is not reached (C18).
12. A failed `rewind_bytes` raises the remaining read limit (C46 counterexample).
13. An unprefixed script parsed under an external limit larger than the data can lose bytes.
14. `base256e::compress` of an exact power of 256 has mantissa zero (C12_power_counterexample).
15. Multisig lacks the reference client's early exit, so with BIP66 a failing multisig aborts on signatures never examined by the reference (C50_multisig_counterexample, C52_multisig_counterexample).
16. `ceilinged_log` for general bases is not a ceiling (C49_ceilinged_log_counterexample).
17. `ceilinged_modulo` of unsigned operands is wrong if the divisor exceeds the signed maximum (C40_ceilinged_modulo_counterexample).
18. `minimal_opcode_from_data([0x00])` is push_size_0.
19. `connect` reports unexpected_witness regardless of bip141; `is_pay_key_hash_pattern` accepts non-direct pushes.
20. `is_malleated32` misses malleations made by several duplications (C16_odd_counterexample).
21. `is_coinbase_pattern` refuses OP_1..OP_16 for heights 1 to 16 (C53_small_heights); `is_forward_reference` does not report self reference.
22. A regtest bip9 checkpoint at height 0 never activates in promoted states (C21_genesis_counterexample).
23. Checkpoint hashes are cached on promotion regardless of the configured forks (C21_unconfigured_counterexample).
24. The rules of a block are chosen by unsigned comparison of its own version, histories by signed (C55_signed_version_counterexample).
25. `golomb::match_stack` has false negatives (C29_stack_counterexample).
26. `decode_base32` indexes a 128 entry table by any byte (C33_base32_bounds_counterexample).
27. `base32_pack` accepts whole groups of zero padding (C34_overlong_counterexample); non-zero padding gives an empty result and success.
28. `decode_base64` accepts "QQ=!" (C33_base64_lax).
29. `decode_base85` accepts foreign characters and groups above 2^32 (C33_base85_lax).
30. `hashed_set_construct` returns an empty set on overflow where `match_single` wraps.
31. `witness_address` accepts parameters whose text is longer than BIP173 allows (C57_too_long_counterexample).
32. Witness addresses with 5 to 7 bits of padding are accepted (C57_overlong_counterexample).
33. Version 1 witness programs of sizes other than 32 are refused even if not strict.
34. HKDF expand does not terminate for outputs above 254 digests (`uint8_t` block counter; C59_hkdf_counterexample).
35. The overflow check of a checked accumulator does not guard every path.
36. The midstate constructor of an accumulator counts the initial blocks twice in its overflow check.
37. English and French BIP39 lists share 100 words at different indexes, so such mnemonics are refused if no language is named (C36_unspecified).
38. The Electrum v1 English and Portuguese lists share words.
39. `script.offset` keeps its place after evaluation, so BIP341 hashes, serialisations and sizes taken later are wrong (C39_offset_counterexample).
40. The original signature hash of an empty subscript does not commit to the input position (C39_empty_code_counterexample); the version 1 cache goes stale if previous outputs change.
41. The text "-9223372036854775808" reaches a negate overflow in `chunk::from_integer`.
42. `block_view::to_data(true)` and `serialized_size(true)` are those of the whole buffer, with trailing bytes (C60_whole_buffer_counterexample).
43. A block view takes the first transaction for the coinbase by position (C60_position_counterexample).
44. `block::set_hashes` on a block parsed without witnesses from segregated data caches wrong hashes (C61_mode_counterexample).
45. Views refuse scripts over the maximum size and witnesses of empty elements which blocks accept.
46. A BIP324 rekey interval of zero acts as 2^32.
47. `hd_public`/`hd_private` never verify the checksum of their texts (C62_checksum_counterexample), and `hd_public` does not validate the point.
48. `operator>>` of `hd_private` and `hd_public` discards what it reads.
49. `ec_private` from entropy or an `ec_scalar` writes WIF with version 0 (C63_entropy_counterexample); WIF secrets at or above the order are accepted (C63_order_counterexample).
50. `payment_address::extract_input` takes the signature of a key hash input for its public key.
51. `ring_signature` `verify` does not compare the sizes of the proofs with those of the rings (read out of bounds).
52. `verify_message` ignores the prefix of the address (a script hash address with the same hash is accepted).
53. `ec_scalar`: zero plus or minus anything is zero (C65_zero_counterexample); the invalid point is not neutral (C65_infinity_counterexample); `ec_public::encoded` of an undecompressable point encodes an uninitialised buffer.
54. Output and input patterns are not unambiguous (C64_unambiguous_counterexample).
55. `input_pattern` never returns sign_public_key or sign_multisig for whole scripts (C64_input, C64_input_counterexample).
56. `to_pay_null_data_pattern` of one byte with its own opcode builds a script that is not recognised (C64_null_data_counterexample).
57. `binary::operator[]` compares the byte position with the number of bits and reads out of bounds (C66_index_counterexample).
58. `stealth_address` with the scan key more than once among the spend keys encodes a wrong key count.
59. `scrypt::hash` gathers `success` of the blocks and returns true regardless: out of memory within the mixing gives an unmixed key reported as success (C70_memory_counterexample).
60. `create_token` with a lot and sequence ignores the result of the inner `create_token` and returns true with the output unset when the derived factor is not a valid secret (C72_token_lot_partial).
61. src/crypto/ring_signature.cpp: `digest` hashes the message and the keys without any delimiter, so it does not bind the division of the keys into rings nor the end of the message (C74_digest_counterexample): {A},{B} and {A,B} have one digest. In release builds `verify` ignores proofs beyond the number of keys of a ring (C74_extra_counterexample: a signature is malleable by appending proofs) and reads outside of the list if there are fewer. `sign` may succeed where `verify` rejects if the challenge at the known key is not below the order (the product is then silently zero) or the challenge after the last key is zero (C74_complete); both need a SHA-256 output of negligible probability.
62. src/data/string.cpp: `trim_left`/`trim_right` with an empty token among the tokens, and `splitter` with an empty delimiter, never end (every text starts with the empty text; the position does not advance).
63. src/config/authority.cpp: `operator==` treats a zero port or an absent subnet as equal to any, so it is not transitive.
64. `points_value::select` clears its output first, so passing one object as both loses all coins.
65. The registry of signature accumulators keeps pointers to thread_local objects of threads that have ended; `purge` then follows them (C79_dangling_counterexample; excluded by a comment, not by the code).
66. `electrum::to_prefix` normalizes the words, tests the normalized words against the dictionaries, and then classifies the words it was given instead: words in upper case are reported as having no prefix although `is_prefix` and the constructor find one (electrum.cpp:426-437).
67. `electrum::from_words(words, pt)` tries Electrum v1 in the given language first, but `is_conflict`, used when generating, only avoids English Electrum v1 words. A Portuguese instance generated by the library whose twelve words are all in the Portuguese Electrum v1 list as well restores to an Electrum v1 instance with other entropy and no seed (`C81_restore_counterexample`, "luneta rugoso rigoroso ..."). `from_entropy` with prefix `old` ignores the language asked for and makes English words (`C80_refused`). `is_prefix(words, none)` is true of every word list (`C81_none_counterexample`).
68. `bitcoin_uri`: an object built by the setters is not `==` to the one read from its own text (`scheme_` is compared but only the reader sets it), while neither is `<` the other (C45_equality_counterexample). Witness addresses (bc1...) are refused as the address of an URI although the library has `witness_address` (C45_witness_counterexample).
69. `config::output` is never read back from its text, and reads garbage: `decode_output` returns false when the value *is* a number (`if (!!deserialize(value, tokens[1])) return false;`, src/config/output.cpp:49) and goes on, with an uninitialized or zero value, when it is not. "checksig:7" is refused and "checksig:x" is accepted. `C85_output_counterexample`.
70. `config::input` is never read back from its text: `encode_input` writes the script, then the point, with nothing between them (src/config/input.cpp:59-65), while `decode_input` expects a colon there; and `operator>>` reads up to whitespace, so a script of more than one operation could not be read anyway (also for outputs). `C85_input_counterexample`.
71. `url(asio::address, port)`, `url(asio::endpoint)` and `url(authority)` use `to_host` (no brackets), unlike `endpoint`, which uses `to_literal`: the text of an IPv6 URL is refused by its own reader (src/config/url.cpp:61-64). `C86_url_counterexample`.
72. `authority` read from text is not denormalized: "[::ffff:102:304]" is accepted (the comment says mapped encodings are not supported) and gives a mapped IPv6 address, which does not match the authority constructed from the same asio address and is written as "1.2.3.4". Also, by the ranges of Boost, the last address of a network, 255.255.255.255/32 and everything in the last IPv6 network (e.g. ff00::/8) are members of no network. `C86_mapped_counterexample`, `C86_member4`, `C86_member6`.
73. `to_big_endian_size<Size>` and `to_little_endian_size<Size>` of a one byte integer write only the front of the data: a big endian array longer than one byte gets the value in the wrong byte (5 becomes 05 00 00 00), and a negative value is not sign extended as every wider type is (C88_fill_counterexample). `rotl(value, shift)`/`rotr(value, shift)` by a run time parameter is undefined for a shift of zero at 32 and 64 bits, on platforms without the intrinsic (C87_rotate_counterexample; a comment asks callers to guard).
74. JSON: an input without a witness object omits "witness" (src/chain/json/input.cpp:43-64), but reading uses `value.at("witness")` (input.cpp:32-41), which throws: no transaction or block read from a serialization without witnesses is read back from its own JSON (`C89_legacy_counterexample`, exact condition in `C89_input`/`C89_transaction`).
75. JSON: reading an output uses `as_uint64`, where every other reader uses `to_number`; boost::json parses an integer below 2^63 as int64, so no output with a real amount, and no transaction or block with one, is read back from JSON text (src/chain/json/output.cpp:31-38; `C89_output_text`, `C89_transaction_text_counterexample`).
76. Native SHA-256 of two 16 byte values injects the words as loaded, in little endian order, and then finalizes without a byte swap (algorithm_native.ipp:325-335, dispatched at algorithm_single.ipp:168-171): on SHA-NI and ARM crypto builds `sha256::hash(quart_t, quart_t)` differs from the same call in other builds and from FIPS 180-4 (C90_quarters_counterexample). The commented native path of `simple_hash` ("TODO: figure out what's wrong with this", algorithm_single.ipp:208-213) has the same cause: `native_finalize` takes big endian values, the block is bytes.
77. A failed peek raises the limit of a hex reader: `do_peek_byte` rewinds after a read that was refused (hex_reader.ipp:85-92), and rewinding adds to the remaining limit. After `set_limit(0)`, `peek_byte` and `set_position`, a hex reader reads past its limit where a byte reader fails (C92_limit_counterexample). The pair buffer also keeps stale characters when the text ends in mid pair (hex_reader.ipp:67-82), so the octets of such a (failed) read are arbitrary.
78. (C94) The canonical combining classes (src/unicode/code_points.cpp, `get_canonical`) are from an older Unicode than the decomposition and composition tables (15.0): 40 marks added since (U+0898, U+08CA, U+0C3C, U+1715, U+1AC1, ...) have class zero, so texts with them are not put in canonical order (`C94_old_classes_counterexample`). `compose` also forgets the class of the marks it kept when it composes (normalization.cpp, `last = 0`); with the actual composition table that is harmless (proved: a composite of a mark begins no pair with a starter).
79. (C94) `to_lower` is full case folding, not lower case: U+00DF becomes "ss" and U+03C2 becomes U+03C3. Electrum's own normalization of seeds and passphrases uses lower case, so a passphrase with such letters gives a different Electrum seed than Electrum derives.
80. `trim_left` and `trim_right` of token lists return false whatever they trimmed: the flag is cleared at the start of the pass that ends the loop and that pass finds nothing (src/data/string.cpp:187-213; `C96_found_counterexample`).
81. An empty trim token makes `trim`, `trim_left`, `trim_right` and `reduce` loop forever, and an empty delimiter makes `split` push empty tokens forever (string.cpp:104-123, 161-185; `C96_empty_counterexample`).
82. unicode_streambuf.cpp:76-83 (underflow): with 16 bit wide characters a read that ends between the two units of a surrogate pair fails to convert; the failure is returned as end of file, so the block read and everything after it is lost (theorem C97_read_counterexample).
83. environment.cpp:83-94 with unicode_streambuf.cpp:31-47, 143-150: for bytes that are not text the remainder can be 4, not the 0..3 stated; with the accepted buffer size of one wide character the write pointer is then past the end of the allocation and the next byte is stored out of bounds (theorem C97_overrun_counterexample; C97_safe shows sizes of two or more are safe).
84. unicode_streambuf.cpp:118-134 with conversion.cpp:38-41: one invalid byte makes the conversion of the whole buffered block empty, which is not distinguished from success: valid text before and after the byte is dropped silently (theorem C97_invalid_counterexample).
85. electrum.cpp:162-192 with conversion.cpp:38-41: a passphrase that is not valid UTF-8 is converted to the empty text without an error, so every such passphrase gives the seed of the empty passphrase (theorem C98_invalid_passphrase_counterexample).
86. normalization.cpp:551-554: the compressed form splits at ASCII whitespace only; Electrum's normalization (quoted in electrum.cpp:194-199) splits at all Unicode whitespace, so a passphrase with, for example, U+2028 gives another seed than in Electrum (theorem C98_separator_counterexample).
87. qr_code.cpp:149: the product of two 32 bit widths is of 32 bits (the comment says 64), so no data is accepted as 65536 by 65536 modules and drawn in white (theorem C99_wrap_counterexample); the coding library's largest width is 177, so this is reached through `to_pixels` only.
88. tiff.cpp:97-102, 241-245: the resolution unit is written as 1, named pixels per inch; in TIFF 6.0 the value 1 means that there is no absolute unit and 2 means inches.
89. tiff.cpp:271-275: `to_image` flushes and returns true whatever the state of the stream, so a failed write is reported as success.
90. props.cpp:66-71 (`from_number`): the documented range is -(2^53) + 1 to 2^53 - 1, the guard accepts -(2^53) to 2^53 - 2 (theorem C100_number_counterexample).
91. props.cpp:208-212, 106-107: strings and names are written to JSON without escapes (a TODO in props.hpp), so different trees have the same text (theorem C100_escape_counterexample).
92. `payment_address::extract_input` of a signature and public key input builds the public key from `script.ops().front()`, which is the signature (the key is `back()`): the address is invalid for every real input (C101_input_key_counterexample).
93. `payment_address::extract` tries the input patterns first, and a witness key hash output `0 <20 bytes>` is also a script hash input, so it yields a p2sh address of the hash of the witness program (C101_extract_witness_counterexample). The same goes for witness script hash and taproot outputs.
94. `props::write` to XML writes strings without escapes, so a string holding markup has the same text as a tree of elements (C100_xml_counterexample).
95. `operator>>` of `ek_token` discards what it reads, as do those of `hd_private` and `hd_public` (C104_discarded_counterexample); that of `ec_private` gives a testnet key the mainnet address version (C104_private_version_counterexample).
96. `props::write` to info quotes a string only if it holds whitespace: the strings "{" and "}" are written as an empty array is, and an empty string leaves nothing (C100_info_counterexample).
97. `serialize` of an empty list is an empty text, which `deserialize` refuses (numbers) or reads as one empty element (data); empty data is lost from a list (C106_empty_counterexample).
98. `deserialize` of an array writes past its end if the text has more words than the array has elements (C106_array_counterexample).
99. `pseudo_random::duration` of a negative duration draws the offset from nearly all of 64 bits: the result may exceed the duration or overflow (C107_negative_counterexample).
100. `unsafe_vector_cast` of a pointer to integrals wider than a byte advances by too many bytes: the arrays after the first do not follow it (C108_vector_counterexample).
