{
 "C46": {
  "status": "partial",
  "note": "Holds for every call sequence without a failed rewind/clearing call (partial theorem); false in general: a failed rewind_bytes still raises the remaining limit (counterexample theorem)."
 },
 "C47": {
  "status": "partial",
  "note": "Proved for terminators for which the single-step fallback search is exact; false in general (counterexample theorem: overlapping terminator prefix is missed)."
 },
 "C48": {
  "status": "partial",
  "note": "Proved except for transactions all of whose witness elements are empty, where the code gives different verdicts in the two modes (counterexample theorem)."
 },
 "C08": {
  "note": "Transactions with zero inputs and exactly one output are excluded (Tx.Writable.unambiguous); C08_ambiguous_counterexample shows why. Lengths are assumed below 2^63."
 },
 "C12": {
  "status": "partial",
  "note": "expand is characterised for every word; loss bound, monotonicity and stability of compress are proved for all numbers except exact powers of 256, where the code is wrong (compress(256^k) denotes zero: C12_power_counterexample, C12_stable_counterexample)."
 },
 "C40": {
  "note": "Everything proved, except that ceilinged division/modulo needs the divisor to fit the signed type of the same width (C40_ceilinged_partial); beyond it ceilinged_modulo is wrong (counterexample theorem)."
 },
 "C49": {
  "note": "ceilinged_log for a general base is not a ceiling (C49_ceilinged_log_counterexample: ceilinged_log(10,11)=1); what it does compute is C49_ceilinged_log_partial. The rest is proved in full."
 },
 "C50": {
  "note": "Soundness (success implies reference success with equal stacks) and the OP_SUCCESS rule hold for all scripts; completeness holds exactly for tapscripts and without BIP66 (C50_exact). With BIP66 a failing multisig may abort on a signature the reference never looks at (C50_multisig_counterexample), so the general completeness is _partial. Signature capture is C76; cryptography is an uninterpreted oracle."
 },
 "C25": {
  "note": "Assumes BIP141 implies BIP16 active (as in every deployed configuration) and scripts of fewer than 2^57 operations."
 },
 "C51": {
  "note": "Scripts shorter than 2^63 bytes."
 },
 "C52": {
  "status": "partial",
  "note": "Soundness and absence of undefined access for all inputs. Completeness holds for every spend in which CHECKMULTISIG occurs only as the last operation of the previous output, redeem or witness script (C52_exact_ordinary: every standard form), and without BIP66 for all (C52_exact). Elsewhere, with BIP66 a failing multisig may abort on a signature that the reference never examines (C52_multisig_counterexample); C52_valid_is_accepted_partial says this is the only exception. BIP341 and BIP342 are assumed active together; batch signature capture is C76; cryptography is an arbitrary oracle."
 },
 "C16": {
  "status": "partial",
  "note": "Soundness (reported lists are malleated: a shorter list has the same root) and single-step detection are proved for every list; detection of malleations made by several duplications, e.g. at odd sizes, is false in the code (C16_odd_counterexample)."
 },
 "C17": {
  "note": "subsidy_initial below 2^64; C17_total/C17_mainnet for every number of blocks."
 },
 "C18": {
  "note": "Unspent outputs handed to the block are those of the ledger; a transaction never spends its own output and no transaction hash is null (hash preimage infeasibility); BIP42 active at every height; arithmetic saturates in the code and the supply bound shows saturation is never reached."
 },
 "C26": {
  "note": "Metadata of the previous outputs is given by the node (View); heights below 2^64-100."
 },
 "C27": {
  "note": "For blocks shorter than 2^64 bytes. Codes: C27_codes and C27_transaction_codes give the reported code as the first broken rule."
 },
 "C53": {
  "note": "Conforms to the text of BIP34; other implementations expect OP_1..OP_16 for heights 1 to 16 (C53_small_heights shows these are refused)."
 },
 "C54": {
  "note": "Blocks shorter than 2^61 bytes, heights below 2^63; hash functions are arbitrary functions."
 },
 "C19": {
  "note": "For the header chain rule with block storm patch and litecoin overflow patch off (those variants are excluded by hypothesis) and, when retargeting, previous targets below 2^224 (all valid targets are). C19_chain gives the store-built and the promoted states the same required bits."
 },
 "C21": {
  "status": "partial",
  "note": "Proved for header promotion with every checkpoint group configured, positive checkpoint heights, block storm and litecoin time warp patches off (C21_promotion_partial), and for block promotion up to the checkpoint caches (C21_block_partial). False outside those: five counterexample theorems (storm patch, checkpoint at genesis, unconfigured forks, block path with null hash, litecoin time warp)."
 },
 "C41": {
  "status": "partial",
  "note": "Holds for every history of header::check and work_required calls that use the limits of one network (C41_history_partial, with C41_check for what a check says). Missing: histories with several limits, where the claim is false because three limits are cached in function-local statics (three counterexample theorems)."
 },
 "C55": {
  "note": "Time, version, work and time warp rules exact for every Good state (store-built or promoted). Separate finding: rules of a block are chosen by unsigned comparison of its own version (C55_signed_version_counterexample)."
 },
 "C28": {
  "status": "proved",
  "note": "ec_signature parsing (strict and lax) modelled byte for byte; the encoder is libsecp256k1's serializer, represented by its documented DER encoding Spec.encode. Strict acceptance = BIP66 grammar, lax parse is total and never reads out of bounds, encoding is accepted and unique."
 },
 "C30": {
  "status": "proved",
  "note": "Round trip, random access positions, exhaustion. peek: C30_peek_partial (when a bit was taken) with C30_peek_counterexample showing peek_byte is wrong after rewinding to a byte boundary (outside the property's statement)."
 },
 "C29": {
  "status": "partial",
  "note": "siphash is an arbitrary function below 2^64. Proved: decoded set = sorted hashed values, exact single match, no false negatives of single matches and of block filters (neutrino compute_filter/match_filter), soundness of the list match. The last clause (list match iff some single match) is false: C29_stack_counterexample (golomb::match_stack skips elements); C29_stack_partial gives the part that holds (least hashed target)."
 },
 "C31": {
  "status": "proved",
  "note": "Base16 (vector, array and hash forms) for every byte string/text."
 },
 "C32": {
  "status": "proved",
  "note": "Base58 for every byte string/text, plus the positional meaning (C32_meaning)."
 },
 "C33": {
  "status": "proved",
  "note": "Base64, base85 and base32 decode their own encodings for every input. Findings outside the claim: C33_base64_lax, C33_base85_lax (foreign texts accepted) and C33_base32_bounds_counterexample (characters >= 128 index outside the 128-entry table)."
 },
 "C34": {
  "status": "proved",
  "note": "Packing of 5-bit and 11-bit groups. C34_overlong_counterexample: padding of five or more zero bits is accepted."
 },
 "C35": {
  "status": "proved",
  "note": "Built checksums verify and return version and program; one wrong group is detected at any length, including a changed version (which changes the constant; shown by the period 1023 of the feedback); constants by version."
 },
 "C56": {
  "status": "proved",
  "note": "Stream formatting/parsing of uint64_t in the classic locale is taken as decimal digits."
 },
 "C57": {
  "status": "partial",
  "note": "Acceptance is characterised exactly (C57_accepts) and single errors are rejected. Two claims are false of the code and have counterexamples: parameters with prefix and program together too long yield an address whose text (over 90 characters) is rejected (C57_too_long_counterexample; C57_encoded_parses_partial covers the rest), and zero padding of 5-7 bits, which BIP173 forbids, is accepted (C57_overlong_counterexample; C57_reencodes_partial covers the rest). Also version 1 programs of sizes other than 32 are refused even if not strict (in Sized)."
 },
 "C38": {
  "note": "For total sizes below 2^61 - 512 bytes (the length counter of the code is a size_t of bits). Checked and unchecked accumulators, resets and midstates included."
 },
 "C58": {
  "note": "Portable code in every build configuration (compressed, vectorised schedule, cached padding); the native SHA-NI/NEON intrinsics are not modelled. Messages below 2^61 - 512 bytes."
 },
 "C59": {
  "status": "partial",
  "note": "HMAC and PBKDF2 proved for everything; HKDF proved for outputs up to 254 digests. For the permitted sizes above 254 digests the code does not terminate: C59_hkdf_counterexample proves this for every algorithm and input."
 },
 "C36": {
  "note": "All ten word lists are in the model (generated, tools/gen_words.py) and their facts are kernel-checked. Unicode normalisation of words is a parameter (identity on dictionary words). C36_seed is PBKDF2-HMAC-SHA512 of the standard, with the NFKD of the passphrase a parameter."
 },
 "C37": {
  "note": "Stated against a transcription of the Python code quoted in the source. Unicode normalisation of words is a parameter; the 100000 SHA-256 rounds (strecher) are modelled but nothing is proved about them."
 },
 "C39": {
  "note": "C39_signature_hash: every history of calls. C39_original_iff, C39_v0_iff, C39_v1_iff: messages agree exactly if the committed fields do; C39_lists: the hashed lists determine outpoints, sequences, outputs, amounts and scripts. Version 1 needs that no previous output script is left at a code separator by an earlier evaluation: C39_offset_counterexample shows that BIP341 is violated otherwise (script.offset is only cleared at construction of a program). C39_empty_code_counterexample: position not committed to with an empty code (as in the original client)."
 },
 "C42": {
  "status": "proved",
  "note": "Operations, scripts and witnesses, all fork sets, all opcodes (name table generated from opcode.cpp). C42_underflow_counterexample shows that the printed form of an underflow operation is not readable, for every data."
 },
 "C44": {
  "note": "All four files in full, scalar and vector (SSE4.1/AVX2/AVX512 widths) paths; sizes are size_t. Clearing of local secrets is not modelled. An interval of zero is excluded (the code then uses 2^32)."
 },
 "C43": {
  "status": "not_applicable",
  "note": "src/unicode/conversion.cpp delegates every conversion to boost::locale::conv::utf_to_utf, an external library that is not in the repository; nothing remains to model."
 },
 "C45": {
  "note": "Boost.URL is a parameter of which only Urls.Faithful is assumed (for the round trip alone); its size limit is ignored. Equality after the round trip fails if the scheme was not set (C45_equality_counterexample), and witness addresses are refused (C45_witness_counterexample)."
 },
 "C60": {
  "note": "Both view classes in full, over any hash function. to_data(true)/serialized_size(true) of a block view are those of the whole buffer (C60_whole_buffer_counterexample) and the first transaction is the coinbase by position (C60_position_counterexample), so identify(ctx) is stated for blocks whose first and only coinbase is the first transaction."
 },
 "C61": {
  "note": "set_hashes needs the bytes to be the serialisation of the block in the mode it was parsed (C61_mode_counterexample) and at most one coinbase. Serialisation after script evaluation is covered by C39_offset_counterexample."
 },
 "C62": {
  "note": "libsecp256k1 is a parameter with its documented contract (Spec/Secp.lean; Toy.curve shows an instance with an order just below 2^256). from_key/from_string never verify the checksum (C62_checksum_counterexample) and hd_public does not check that the point is on the curve. Seeds are limited to 100000 bytes in the theorems (the hash bound is 2^61)."
 },
 "C63": {
  "note": "libsecp256k1 is a parameter with its documented contract. ec_private from entropy or from an ec_scalar keeps only the address byte, so its WIF text has version 0 (C63_entropy_counterexample); WIF texts with secrets at or above the order are accepted (C63_order_counterexample); extract_input of a key hash input takes the signature for the key (not modelled here, see DESIGN)."
 },
 "C64": {
  "note": "Scripts shorter than 2^63 bytes. input_pattern never returns sign_public_key or sign_multisig for whole scripts, since the script hash test comes first; it returns them for scripts ending in an incomplete push (C64_input, C64_input_counterexample). Null data of one byte with its own opcode is built non minimally and is not recognised (C64_null_data_counterexample). A witness key hash output is also a script hash input, contrary to the comment (C64_unambiguous_counterexample)."
 },
 "C65": {
  "note": "libsecp256k1 is a parameter with its documented contract. The full statement fails: zero plus or minus anything is zero (C65_zero_counterexample) and an invalid point, the only value for infinity, is not neutral (C65_infinity_counterexample); the theorems hold for left operands that are not zero (partial)."
 },
 "C66": {
  "note": "The guard of operator[] compares the byte position with the number of bits, so an index past the padding and below eight times the size reads outside of the vector (C66_index_counterexample)."
 },
 "C67": {
  "note": "Over the assumed contract of libsecp256k1 (Spec/Secp). Address data up to 100000 bytes. C67_address_text_limit: an address that lists its scan key twice is valid but is not read back."
 },
 "C68": {
  "note": "Over the assumed contract of the recovery module of libsecp256k1 (Spec/Message: Recovery). The version of the address is ignored by verify_message, as C68_verify states."
 },
 "C69": {
  "note": "The partial last word relies on the zero filled short read of the stream, which is modelled."
 },
 "C70": {
  "note": "Memory exhaustion is modelled: C70_memory_counterexample shows that a failed allocation inside of the mixing is reported as success, with an unmixed result."
 },
 "C71": {
  "note": "The implementation with in-place updates and on-the-fly key expansion in both directions is modelled statement by statement; the specification is FIPS 197 with the S-box computed from the field inverse."
 },
 "C72": {
  "note": "C72_token_lot_partial: with a lot and sequence, create_token returns true and leaves the output untouched when the derived factor is not a valid secret (finding 60), so the full claim (fails) is false there; everything else is proved in full. Passphrase normalization (ICU) is an arbitrary function; the curve is the secp256k1 contract."
 },
 "C73": {
  "note": "The compile-time table is modelled as generated, in its flat layout."
 },
 "C74": {
  "note": "Over the contract of libsecp256k1 (Curve). Sizes of the proofs and salts, which the code only asserts, are hypotheses; C74_extra_counterexample and C74_digest_counterexample show what is not checked."
 },
 "C75": {
  "note": "The accelerated (HAVE_ULTRAFAST) evaluation and silent payment scanning are not modelled; the expansion of a group to rows is done by the store (another library) and is the specification Spec.Batch.expand, taken from the comments and tests."
 },
 "C76": {
  "note": "Telemetry of what was missed or batched is not modelled. Points that compress must verify alike, digests are 32 bytes and decoded signatures 64."
 },
 "C77": {
  "note": "The output object is taken not to be the input object, which select clears first. A minimum of zero takes one coin, the least."
 },
 "C78": {
  "note": "Replacement characters other than the separator '1' (with it the text has another prefix). The data part only: a wrong prefix character changes two groups."
 },
 "C79": {
  "note": "Sequentially consistent steps of the granularity stated in Model/Registry.lean; the promises are the documented ones (signatures.hpp:327-330, signatures.cpp:33-34)."
 },
 "C80": {
  "note": "Hash functions, HMAC and PBKDF2 are those proved standard in C58 and C59. Unicode normalization is a parameter (it does not lengthen the phrase). Non-vacuity: a 19 byte entropy whose third candidate is the first of the standard version, computed in the kernel."
 },
 "C81": {
  "note": "Partial: false as stated. C81_restore_counterexample: a generated Portuguese instance whose words restore to an Electrum v1 instance, as from_words tries Electrum v1 in the given language and generation only avoids English ones. C81_to_prefix_counterexample: to_prefix passes on the words as given instead of the normalized ones. C81_none_counterexample: is_prefix(words, none) is always true."
 },
 "C82": {
  "note": "The signature hash, signature decoding and signature check are the transaction's oracles (their models are C07, C08, C53). P2WPKH and P2WSH need BIP141 and BIP143, and the program must not be a script zero (truthy). The covered script is the script without pushes of the signatures themselves (legacy); C82_covered_p2pkh shows this is the whole script for P2PKH unless the signature equals the hash."
 },
 "C83": {
  "note": "The legacy cases exclude an endorsement that equals, byte for byte, a push of the script (find and delete), and the witness cases a program of zero bytes, as C82. The reader libsecp256k1 is a parameter."
 },
 "C84": {
  "note": "libsecp256k1 is a parameter with a contract (Spec/Taproot.lean `Schnorr`), met by an instance. The exclusion is for control blocks with the internal key of the output: another key with a tweak to the same output is not excluded by hash collisions. A zero output key (32 zero bytes, not an x coordinate) is refused by the code through the truth of the stack."
 },
 "C85": {
  "note": "C85_output_counterexample: no output written is read back, the test of the value is inverted (finding 69). C85_input_counterexample: no input written is read back, nothing separates the script from the point (finding 70). C85_version_counterexample, C85_point_counterexample: texts that are not values are accepted. C85_conflict_counterexample: of two checkpoints at one height only the first is compared. The stream library is modelled by its standard contract in the C locale."
 },
 "C86": {
  "note": "C86_url_counterexample: an URL made of an IPv6 authority or address is written without brackets and never read back (finding 71). C86_mapped_counterexample: a mapped address in hexadecimal is accepted by the reader but not brought to the form of the constructors, so it does not match itself (finding 72). C86_match_counterexample: == is not transitive. Address text functions are a parameter with the contract Lawful; networks are modelled by the ranges Boost documents; scope identifiers are left out; std::regex is modelled by functions whose languages are stated by the theorems."
 },
 "C87": {
  "note": "Values as bit vectors of any width. std::rotl/rotr by their definition in the standard."
 },
 "C88": {
  "note": "The byte order of the machine is a parameter. Casts of arrays and integers are the bytes in memory."
 },
 "C89": {
  "note": "The full round trip fails for transactions without witnesses and for text (findings 74, 75): the exact conditions are proved. boost::json itself is modelled as a value with int64/uint64/string/array/object, its text layer as the change of integer kind. The decoded asm, amounts as floating point, addresses and block difficulty of the bitcoind form are not modelled."
 },
 "C90": {
  "note": "Partial since the last sentence is false: pairs of 16 byte values are hashed with every four bytes reversed (C90_quarters_partial says exactly what is hashed, C90_quarters_counterexample; finding 76). The semantics of the instructions (sha256rnds2, sha256msg1/2, SHA256H/H2/SU0/SU1, pshufd, palignr, pblendw) is specified in Spec/ShaIsa.lean from the processor manuals. Not modelled: the native merkle and hash-vector functions."
 },
 "C91": {
  "note": "The register instructions are specified lane by lane (xor, and, or, add, shifts; byte swap of each lane); rotation is two shifts. SHA-256 only."
 },
 "C92": {
  "note": "Programs do not include clearing an error by set_position: C92_seek covers positioning from a valid state, C92_limit_counterexample shows that after an error the two readers differ (finding 77)."
 },
 "C93": {
  "note": "Over the library's own ostream/iostream; std and boost streams are not modelled. Sizes are those the code asserts (not above the stream's signed maximum)."
 },
 "C94": {
  "note": "The conversions between UTF-8 and UTF-32 are boost's and are not modelled; the tables are transcribed whole by tools/gen_unicode.py. Against Unicode 15 the combining class table is older than the decomposition table (finding 78, counterexample theorem), so the statement is relative to the library's character data."
 },
 "C95": {
  "note": "std algorithms are taken as the C++ standard specifies them; a pointer is a position in a list of bytes."
 },
 "C96": {
  "note": "With an empty trim token or delimiter the loops do not terminate (C96_empty_counterexample, finding 81); trim_left and trim_right always return false (C96_found_counterexample, finding 80); several delimiters longer than one character interfere (C96_delimiters_counterexample). The statement excludes these."
 },
 "C97": {
  "note": "Partial because the code is wrong for one case: with 16 bit wide characters a read that ends inside a surrogate pair ends the input and loses the block (C97_read_counterexample); the theorem covers reads of whole characters. Also C97_overrun_counterexample (buffer of one wide character overrun by invalid bytes; C97_safe proves sizes of two or more safe for any bytes) and C97_invalid_counterexample. boost::locale's strict conversion is modelled by the standard's encoding forms.",
  "status": "partial"
 },
 "C98": {
  "note": "boost::locale's strict conversion is modelled by the standard's encoding forms (C97). C98_invalid_passphrase_counterexample: every passphrase that is not valid UTF-8 gives the seed of the empty passphrase. C98_separator_counterexample: only ASCII whitespace separates words."
 },
 "C99": {
  "note": "The coding of text as modules is the embedded qrencode library and is an argument. Failure of the output stream is not modelled."
 },
 "C100": {
  "note": "Partial: there are no escapes, so the JSON theorem needs strings and names without quotes, backslashes and control characters, and the XML theorem needs names that are names in XML and strings without markup; the number range is off by one at both ends. C100_info_partial: the indented info text has exactly the words (in quotes or not) the tree stands for, if strings without whitespace are not empty and do not begin with a quote and those with whitespace have no quote; info on one line is modelled, but only its failure is proved."
 },
 "C101": {
  "note": "Proved for outputs, script hash inputs and scripts that are no inputs. Two counterexamples: extract_input reads the public key from the first push, which is the signature, so the address of a signed key hash input is invalid (C101_input_key_counterexample, finding 92); extract gives a script hash address for a witness key hash output (C101_extract_witness_counterexample, finding 93). Hashes beyond 100000 bytes of revealed script are out of reach of the hash theorem as used.",
  "status": "partial"
 },
 "C102": {
  "note": "Over the interpreter model of C22/C52 (connect). Not complete by design: scripts that fail later than the first operation are not found."
 },
 "C103": {
  "note": "The lock must be the second operation of the script, after a push of the number; the hash of the script stands for the script unless two scripts with one hash are at hand; tapscripts with an OP_SUCCESS are left out."
 },
 "C104": {
  "note": "Streams of libstdc++ in the C locale. Counterexamples: the address version of a private key; tokens and hierarchical deterministic keys. bitcoin_uri is left out."
 },
 "C105": {
  "note": "C105_block (up to witnesses), C105_witness, C105_wire (bytes). The digest is a parameter; collisions exist for any digest of 32 bytes, so the theorems name the finite set of messages in which one would be found (Spec/BlockCommit). The example shows an accepted block whose messages contain neither a collision nor a near zero."
 },
 "C106": {
  "note": "C106_words (any text, any decoder of elements), C106_list, C106_array, C106_numbers, C106_data; C106_empty_counterexample and C106_array_counterexample (findings 97, 98). The words of a text are Spec/Lists. What a failed deserialize leaves in its argument is not modelled."
 },
 "C107": {
  "note": "C107_duration, C107_reaches, C107_next, C107_fill; C107_negative_counterexample (finding 99). The distribution of the standard library is a parameter with the contract Lawful; the engine, its seed and shuffle are not modelled."
 },
 "C108": {
  "note": "The C++ rules on aliasing and alignment are outside the model, sizes are taken not to overflow. Finding 100: unsafe_vector_cast of a pointer to integrals wider than a byte skips memory (C108_vector_counterexample)."
 }
}