# Formal model of libbitcoin-system in Lean 4: design

(Generated by `tools/design.py` from MANIFEST.json, the citations in the model and the texts in tools/.)

## Method

* Every C++ function in scope is transcribed as a total Lean function over `List UInt8`, `Nat`, `Int`, `UInt32`/`UInt64`, `Option` and
  structures. Each definition carries a comment with the file and lines it models and the simplifications made.
* Fixed width arithmetic is modelled where it can wrap (`UInt32`, `UInt64`, explicit `% 2^k`); a natural number is used only where the comment says
  why no wrap can occur or where the wrap is written out.
* Stateful objects (byte and bit readers and writers, accumulators, chain state, script program, ciphers, caches) are state transitions; loops are
  structural recursion, folds, or recursion with fuel together with a theorem that the fuel does not run out. Reads outside of a container are
  not silently totalised: they give `none` or set a flag (`ub`), and theorems show that they are not reached, or a counterexample that they are.
* `lean/Verif/Model` holds the models, `Spec` the independent specifications (BIPs, RFCs, FIPS, reference client rules), `Lemmas` the proofs in
  between and `Props` the property theorems `Cnn_*` with a concrete case (`example`) meeting the hypotheses beside them.
* A theorem named `_partial` proves the property under a restriction that the full statement does not have; the missing part is stated beside it.
  In almost every such case the missing part is false of the code, and a theorem named `_counterexample` shows it.
* Wrong programs: `tools/mutate.py` applies realistic edits to the model in a scratch copy and rebuilds; `seeded/LOG.jsonl` has one line per edit.

## Trusted base

* Lean 4.33.0's kernel, and the axioms listed below: at most `propext`, `Classical.choice` and `Quot.sound`. Nothing of Mathlib beyond proved lemmas.
* The transcription from C++ to the model, by reading. No test against the compiled library was possible in the sandbox.
* The specifications in `Spec` say what the standards say.
* Parameters standing for code outside of the repository or outside of a property's reach, and the hypotheses on them:
  * libsecp256k1: `Spec/Secp.lean` is its documented contract over an arbitrary commutative group of prime order (`Curve`): serialisation and
    parsing of points are inverse, tweaks are group operations, invalid secrets are refused. `Lemmas/ToyCurve.lean` exhibits an instance, so the
    contract is consistent. Signature verification is an uninterpreted oracle in the script properties.
  * Hash functions are modelled and proved equal to their standards (C38, C58, C59); in the merkle, sighash and block properties they are arbitrary
    functions (the theorems hold for every function), with collision freedom a hypothesis only where a theorem names it.
  * Unicode normalisation (boost/ICU) of mnemonic words and passphrases, and stream formatting of integers.
* Not covered: memory allocation failure, exceptions, threads racing on one object, timing, compiler and hardware intrinsics.

## Axioms of the property theorems

Printed by `#print axioms` for every theorem named in MANIFEST.json. No axiom of our own, no compiled evaluation.

* **Classical.choice, Quot.sound, propext** (576 theorems)
* **Quot.sound, propext** (113 theorems)
* **propext** (32 theorems): C08_ambiguous_counterexample, C09_point_size, C09_header_size, C11_bip144_is_segregated_form, C12_power_counterexample, C12_stable_counterexample, C15_branch_outside, C17_without_bip42, C21_timewarp_counterexample, C33_base32_bounds_counterexample, C39_offset_counterexample, C39_empty_code_counterexample, C41_single_limit_partial, C41_proof_of_work_counterexample, C41_work_required_counterexample, C41_check, C41_history_partial, C41_timestamp_counterexample, C46_limit_counterexample, C47_read_line_counterexample, C48_mode_counterexample, C60_whole_buffer_counterexample, C60_position_counterexample, C61_history, C61_mode_counterexample, C64_null_data_counterexample, C65_infinity_counterexample, C85_conflict_counterexample, C86_match_counterexample, C88_fill_counterexample, C94_old_classes_counterexample, C101_signature_form
* **no axioms** (8 theorems): C08_constructed_is_writable, C40_ceilinged_modulo_counterexample, C61_header, C96_delimiters_counterexample, C97_read_counterexample, C100_number_counterexample, C106_array_counterexample, C108_vector_counterexample
* **(see vcheck)** (4 theorems): C89_bitcoind_fields, C89_operation_names, C93_moves, C93_seek

## Properties: what is modelled and how it is proved

| id | property | files | how | status |
|----|----------|-------|-----|--------|
| C01 | Variable-length integers are a canonical bijective prefix code | Props/Stream | Model/Stream writer as byte list and reader as state machine; variable integer codec by cases on the prefix | proved |
| C02 | Fixed-width integers round-trip in both byte orders | Props/Stream | as C01: forward and backward parser lemmas | proved |
| C03 | The byte reader never reads outside its buffer, and failures are sticky | Props/Reader | reader state machine with position, limit, error and `ub` flag; invariant over every operation sequence | proved |
| C04 | Every byte string is a script and survives parse/serialize unchanged | Props/Script | script codec on any bytes (incomplete pushes become one underflow operation); forward (`FwdU`) and backward (`BwdU`) parser combinators | proved |
| C05 | A size-prefixed script consumes exactly its prefix and nothing else | Props/Script | as C04 under a size prefix and reader limit | proved |
| C06 | Operations round-trip through bytes | Props/Script | operation codec, by cases on the push form | proved |
| C07 | Witness stacks round-trip | Props/Script | witness codec; induction over the stack | proved |
| C08 | Transactions round-trip and accepted bytes are canonical | Props/Chain | transaction codec in both serialisations; parser combinators; ambiguity excluded by an explicit predicate | proved |
| C09 | Reported sizes equal serialized lengths; weight and vsize follow BIP141 | Props/Chain | serialized_size functions with their saturating additions against the bytes written | proved |
| C10 | Headers and blocks round-trip and accepted bytes are canonical | Props/Chain | header and block codecs | proved |
| C11 | Superfluous witness serialization is rejected in both parse modes | Props/Chain | superfluous witness rule in both parse modes | proved |
| C12 | Compact difficulty encoding is a faithful lossy float | Props/Compact | Model/Compact on 256 bit numbers; arithmetic of base 256 floating forms | partial |
| C13 | Block work equals floor(2^256/(target+1)) with no overflow | Props/Compact | work as the exact quotient on 256 bit numbers | proved |
| C14 | Script numbers: minimal encoding is unique and round-trips | Props/Number | Model/Number: script number codecs; base 256 digits, both directions | proved |
| C15 | Merkle root computation and branches are sound | Props/Merkle | Model/Merkle over an arbitrary pair hash; strong induction on the length against the tree defined by recursion | proved |
| C16 | CVE-2012-2459 merkle malleation is detected | Props/Merkle | as C15; duplication at each level | partial |
| C17 | Block subsidy halves and is bounded | Props/Money, Props/Validate | subsidy as a finite geometric sum, saturating arithmetic | proved |
| C18 | Accepted blocks cannot inflate the currency | Props/Ledger | Model/Validate + Spec/Ledger: value accounting over every history of blocks by induction | proved |
| C19 | Retargeting is bounded and never exceeds the limit | Props/ChainState | Model/ChainState retarget against Spec/ChainState | proved |
| C20 | Median time past is the true median and never decreases along an accepted chain | Props/ChainState | median over sorted windows; induction along the chain | proved |
| C21 | Chain state promotion equals construction from the store | Props/ChainState | simulation invariant `Good` between store-built and promoted states over every header history | partial |
| C22 | Script evaluation respects the consensus limits and has no stack underflow | Props/Machine | Model/Machine: interpreter as a state machine; per opcode invariants and induction over the operations | proved |
| C23 | Conditionals balance | Props/Machine | condition stack invariant | proved |
| C24 | Stack implementations are interchangeable | Props/Machine | tagged and byte stacks related by a homomorphism through every opcode | proved |
| C25 | Signature operation counting | Props/Sigops | signature operation counts against a counting specification | proved |
| C26 | Absolute and relative locktime semantics | Props/Validate | locktime rules against Spec/Validate | proved |
| C27 | Block-level double spend and forward reference detection are exact | Props/Validate | block checks against set-based specification | proved |
| C28 | Strict DER signatures | Props/Der | Model/Der byte for byte against the BIP66 grammar | proved |
| C29 | Golomb-coded filters have no false negatives | Props/Golomb | Model/Golomb over bit lists; sorted sets and deltas | partial |
| C30 | Bit writer and bit reader are inverse | Props/Bits | bit streams refine lists of bits | proved |
| C31 | Base16 round-trips and rejects exactly the malformed strings | Props/Radix | digit tables by exhaustive kernel check over bytes, lists by induction | proved |
| C32 | Base58 round-trips and preserves leading zeros | Props/Radix | positional numerals, leading zeros counted | proved |
| C33 | Base64, base32 and base85 round-trip | Props/Pack, Props/Radix | group codecs over bit lists | proved |
| C34 | Merging and expanding bech32/base32 and base2048 groups is lossless | Props/Pack | as C33 | proved |
| C35 | Bech32(m) checksum: created addresses verify and single errors are caught | Props/Bech32 | GF(32) checksum as a linear recurrence of period 1023 | proved |
| C36 | Mnemonic words encode entropy bijectively | Props/Mnemonic | word lists generated into the model and checked by the kernel; entropy packing by bit lists | proved |
| C37 | Electrum v1 mnemonics round-trip | Props/ElectrumV1 | mod-1626 arithmetic against the transcribed Python reference | proved |
| C38 | Hash accumulation is chunking-independent | Props/Hash | buffer invariant of the accumulator over every write history | proved |
| C39 | Signature hashes are of what the sighash flags say | Props/Sighash | signature messages as parser-style injective encodings; caches as state | proved |
| C40 | Saturating and checked arithmetic is exact | Props/Arith | integer lemmas for an arbitrary width and sign | partial |
| C41 | Validation results do not depend on call history | Props/ChainState, Props/Statics | the static as process state | partial |
| C42 | Script and witness text round-trips | Props/ScriptText | tokeniser and printer inverse; opcode names generated | proved |
| C43 | UTF conversions round-trip |  | not in the repository (boost::locale) | not_applicable |
| C44 | The stream cipher, the one-time authenticator and the packet ciphers are those of RFC 8439 and BIP324 | Props/Aead | Model/Chacha, Poly1305, Aead against RFC 8439 and BIP324; chunk invariance by state invariants | proved |
| C45 | A bitcoin URI reads back as written, and only well formed ones are accepted | Props/BitcoinUri, Props/BitcoinUriValid | model of the setters over a sorted map, invariant over reachable objects, exact characterisation of the reader; Boost.URL is a parameter | proved |
| C46 | A reader limit bounds what is consumed | Props/Reader | reader limit invariant | partial |
| C47 | read_line splits at the first terminator | Props/Reader | search loop against list infix | partial |
| C48 | Transaction validity does not depend on the witness mode | Props/Chain | two parse modes related field by field | partial |
| C49 | Logarithms, powers and byte widths | Props/Arith | loops against Nat.log | partial |
| C50 | Script evaluation with tagged stack values equals evaluation over byte strings | Props/Machine | interpreter refines a big-step specification (Spec/Script) | partial |
| C51 | Output templates are the BIP byte templates | Props/Sigops | templates as byte grammars over the parse of any bytes | proved |
| C52 | Input connection equals BIP16/141/341 verification | Props/Verify | script_verify/connect against Spec/Connect (BIP16, 141, 341, 342); refinement from C50 plus a syntactic argument that a script whose only CHECKMULTISIG is last cannot differ in verdict | partial |
| C53 | Coinbase height commitment is BIP34's | Props/Commit | push form of the height | proved |
| C54 | Contextual block check is exact | Props/Commit | merkle and witness commitment rules over arbitrary hashes | proved |
| C55 | Header acceptance in context is exact | Props/ChainState | header accept rules against every Good state | proved |
| C56 | Decimal amounts are exact | Props/Base10 | decimal point moves on digit lists | proved |
| C57 | Witness addresses are exact and error detecting | Props/WitnessAddress | acceptance characterised exactly from C34 and C35 | partial |
| C58 | Hash functions are the published functions | Props/Hash | Model/Sha, Rmd, Accumulator in all build configurations against FIPS 180-4 and the RIPEMD definition | proved |
| C59 | Keyed hashes and key derivation are the RFC functions | Props/Mac | Model of HMAC/PBKDF2/HKDF over any accumulator against the RFCs | partial |
| C60 | A block view says the same as the parsed block | Props/View | views as offset parsers refining the block parser | proved |
| C61 | Identity hashes do not depend on what is cached | Props/Identity | cached hashes as state over histories of calls | proved |
| C62 | Hierarchical deterministic keys are those of BIP32 | Props/HdKeys | key derivation over the Curve contract against BIP32 | proved |
| C63 | Key and address texts are exact | Props/Wallet | Base58Check and key texts over the Curve contract | proved |
| C64 | Script patterns are the standard forms | Props/Patterns | operation patterns against byte grammars | proved |
| C65 | Scalar and point operators are field and group arithmetic | Props/EcOperators | operators over the Curve contract | partial |
| C66 | Bit vectors hold exactly their bits | Props/Binary | bit vector refines a list of bits | proved |
| C67 | Stealth payments reach their receiver, stealth addresses survive their text | Props/Stealth | algebra over the curve contract; search loops characterised by induction; layout specification of addresses | proved |
| C68 | Signed messages verify for their signer | Props/Message | characterisation of signing and verifying over the recovery contract; writer refinement from C58; header by case analysis over all bytes | proved |
| C69 | siphash is SipHash-2-4 | Props/Siphash | loop invariant over the reader; bit arithmetic of the last word | proved |
| C70 | scrypt is RFC 7914 scrypt | Props/Scrypt | in-place loops by array invariants; Salsa20/8 by symbolic evaluation; refinement to the RFC | proved |
| C71 | AES-256 block encryption is FIPS 197 and decryption is its two-sided inverse | Props/Aes | The tables are compared with the computed S-box over all 256 bytes in the kernel; linearity of doubling over xor gives mixing and its inverse; a key of eight words is related to the schedule by induction on expansions; rounds are paired by induction from both ends. | proved |
| C72 | BIP38 encrypted keys are the specified ones and decrypt to what was encrypted | Props/Bip38, Props/Bip38Text | Spec/Bip38 states the four formats from BIP38 over Spec scrypt, AES and hashing. The model's key derivation is rewritten by C70 (scrypt) and C71 (AES); offsets of the parsers are computed once (private_parts, public_parts, token_parts); decryption is by AES inverse and xor cancellation, and the multiplied keys by (k*f)G = k(fG) in a group of prime order. | partial |
| C73 | Screening filters have no false negatives | Props/Sieve | The flat table is refined to rows as functions (rows_entries, masks_eq); by induction each row is a partition of the screen bits that refines the row before (rowF_part), with sizes by counting moved bits. The filter invariant: every fingerprint of the history agrees with the value on some mask of the current row; a new row keeps that because its masks are subsets of the old and disjoint from the new one. | proved |
| C74 | Ring signatures: exact verification, signing closes the rings, and the signer is hidden | Props/Ring | Model/Ring.lean follows the loops over byte level ec_scalar and ec_point operators (Model/EcOperators) and the hashing writer; Spec/Ring.lean states the walk around a ring in the group. verifyLoop_iff gives the walk by induction over the ring; known_verify and signing_verify show that signing and verification agree before and behind the known key and close shows s = k - e x closes the ring; rings_salts inverts this, k = s + e x. The instance is a ring of two keys in the toy group, with hashes evaluated by the kernel. | proved |
| C75 | Batch verification of captured signatures reports exactly the bad blocks | Props/Batch | Model/Batch.lean models the log, its decoding, the greedy trial, the parallel evaluation with an arbitrary permutation of the rows and a latched stopper, and the correlation loop with its bit matrix; greedy matching is proved equivalent to the existence of an increasing assignment, by induction. | proved |
| C76 | Deferred signature verification accepts exactly what inline verification accepts | Props/Capture | Model/Capture.lean is the machine with a capture context (program_batch.ipp, the check-signature handlers, run, connect). Lemmas/Capture*.lean relate each handler to the inline one of Model/Machine: with BIP342 a captured bad row is an error that stops the inline program; without it only the last operation of a recognised pattern captures, and pushes true where the inline one pushes the verdict. Props/Capture.lean lifts this through connect and folds it over a block, using C75 for the log. | proved |
| C77 | Coin selection meets the minimum with the fewest coins | Props/Points | Model/Points.lean is points_value.cpp with std::partition and std::sort as parameters; Props/Points.lean proves the claim for every pair of functions that meet the standard's contract, by the prefix sums of a descending list. | proved |
| C78 | Up to four wrong characters of a witness address are detected | Props/Bech32Errors | The checksum step is linear over GF(32) (multiplication table and laws checked over the field), so an error pattern is a linear combination of powers of the step. Linear independence of any four of the first 89 powers, and of any three of the first 71 with the difference of the two constants, is a Gaussian elimination run by the kernel, whose soundness is proved. | proved |
| C79 | Captured signatures stay with their thread under any schedule | Props/Registry | A transition system of threads with non-atomic push_back and accumulator operations; an inductive invariant over all reachable states; the two counterexamples are concrete runs. | proved |
| C80 | Electrum v2 seed generation finds the first suitable entropy, and its seed is the standard one | Props/Electrum | Model/Electrum, Spec/Electrum (Marked, Spells, Trimmed, Candidate). The bits of the padding mask are checked for every byte and shift, grinding by induction on the limit with uniqueness of candidates; the hexadecimal prefix test is reduced to bits. | proved |
| C81 | Electrum v2 mnemonics are restored from their words | Props/Electrum | C81_restore_partial from C80_grind and C81_words; the four versions are exclusive, so the order in which they are tried does not matter (C81_prefix). | partial |
| C82 | What it takes to spend the standard outputs | Props/Spend | C52_exact_ordinary reduces connection to the reference; symbolic evaluation of the templates in the reference interpreter; the greedy multisig loop is shown complete (it finds an ordered assignment whenever one exists) | proved |
| C83 | What the library signs it accepts: ECDSA signing, endorsements and spending | Props/Sign | Model/Sign.lean over any Curve and Ecdsa (Spec/Ecdsa.lean states the scheme and the contract of libsecp256k1's ECDSA functions; Lemmas/ToyEcdsa.lean is an instance). Group algebra in Lemmas/Ecdsa.lean; the rest combines C28 (DER), C39 (signature hashes) and C82 (spending). | proved |
| C84 | Taproot outputs are spent by a signature of the output key or by a script of the tree | Props/Taproot | Spend.connect refines the reference verdict (C52); key path and script path are read off the reference; BIP341 hash of C39; commitments by induction over the tree. | proved |
| C85 | Configuration values are read back from their text | Props/Config, Props/Lists | Texts are lists of bytes; a value written is a list of tokens joined by a delimiter that no token contains, so splitting gives the tokens back; the decimal, base and chain theorems (C30-C33, C08, C10, C42) do the rest. | proved |
| C86 | Network addresses are read back from their text and match as documented | Props/Network, Props/NetworkHosts | Parsers take the word apart from the left; exactness both ways, with uniqueness of the decomposition where alternatives overlap; decimal texts without leading zeros are canonical; membership by division with remainder. | proved |
| C87 | Bit operations | Props/BitOps | Model/BitOps; bit by bit | proved |
| C88 | Byte order conversions | Props/Endian, Props/EndianWide | Model/Endian; loops, unrolled forms and swaps against leNat/beNat | proved |
| C89 | JSON of chain objects | Props/Json | Lookup lemmas for a document or its reparse; C42 text round trips; C31 base16; Tx.size_ok and the C08 reader. | proved |
| C90 | Native SHA-256 | Props/Native | The registers hold the working variables in the order of the instruction set and four quads of the schedule; each turn is four rounds; induction over blocks; the accumulator theorems of C18/C58 are instantiated with the native functions. | partial |
| C91 | Merkle roots are the same in every build | Props/Lanes | The templates are written over an abstract word type; taking a lane commutes with every step, so a lane is the scalar computation of C58; the in place invariant of C15; the native pair hash of C90. | proved |
| C92 | A hex reader of a text is a byte reader of the bytes it encodes | Props/HexReader | Model/HexReader over the byte reader state of Model/Stream; programs are an inductive type (Spec/HexReader) run against both; simulation relation (position doubled, limit doubled or not binding) preserved by each operation, induction on the program. | proved |
| C93 | A writer over a fixed buffer stays inside it and holds exactly what fits | Props/Writer | Model/Writer keeps the whole memory around the buffer; invariant by induction over adaptive programs (Spec/Writer.Plan); exact content by induction over the writes. | proved |
| C94 | Unicode normalization forms and case conversion | Props/Unicode | Model the loops over lists with the tables as numerals; state the standard's algorithms as relations (Spec/Unicode.lean); check table facts over every row in the kernel (Lemmas/UnicodeTables.lean); then induction: termination by an index depth measure, ordering as an insertion sort invariant under exchanges, the inner composition loop against the blocking rule with an invariant on the marks kept, and preservation of the decomposed form by composition steps. | proved |
| C95 | Byte slices, byte arrays and collection utilities | Props/Containers | Slices as positions over a memory with partial dereference, shown to refine list operations; binary search by induction on the interval with the invariant that equivalent elements are inside; insertion and sorting by Pairwise and Perm. | proved |
| C96 | Text utilities: joining, splitting, trimming, replacing | Props/Strings | Loops with fuel over byte lists; find by first occurrence; right trimming as the mirror image of left trimming; replacement with its running position shown equal to join of split; words by induction over the text. | proved |
| C97 | Text conversion and text streams: whole characters, whatever the split | Props/Utf | Encoding and strict decoding of one character are inverse by case analysis on its length; induction over the text. The leading byte states the length, so the backward search finds the cut. An invariant over histories: bytes put = bytes of the characters written ++ pending. | partial |
| C98 | Text forms and the normalized texts of an Electrum seed | Props/Forms, Props/FormsText | The words of the bytes are the bytes of the words of the characters (no byte of a longer character is a blank), then C96's theorem on split; the squeezing loop by induction over words. Closure of the decomposition, composition and case tables under scalar values is computed by the kernel over the whole tables. | proved |
| C99 | A QR code image is a readable picture of exactly its modules | Props/Image | Bit writer lemmas give each packed row; rows and modules are indexed by division; an independent reader of TIFF files (Spec/Image) is run on the file. | proved |
| C100 | Property trees are written as JSON for exactly their value | Props/Serial, Props/SerialInfo, Props/SerialXml | Mutual induction on the tree: what is written at each depth is a text that a fuel-bounded reader of RFC 8259 (Spec/Serial) reads back, whatever follows. | partial |
| C101 | Payment addresses of scripts | Props/Extract | Parse uniqueness of scripts (parse_is) gives the operations of each form; C64 gives the pattern; C63 gives the address. | partial |
| C102 | Unspendable outputs and dust | Props/Dust | The first operation runs unconditionally, and each of its handlers returns an error; lifted through runStep, runLoop, run and connect. The byte form uses the parse theorem of C64. | proved |
| C103 | Time-locked outputs cannot be spent early | Props/Locks | Steps of the reference interpreter, to which the machine and connect are refined by C52; bit masks are split into bit 22 and the low 16 bits. Exactness for the bare lock. | proved |
| C104 | Wallet values are read back from text streams | Props/WalletStream | Extraction of words from a stream by induction over the list of values; the texts and their readers by C57, C63, C67 and C72. | proved |
| C105 | The hash of an accepted block commits to every byte of it | Props/BlockCommit | From C27 (rules of an accepted block), C15 (root) and C54 (witness rule). Identifiers of an accepted block are distinct, because equal wire forms have equal inputs and no output is spent twice; two trees over distinct leaves with the same root have the same leaves or the first leaf of one is a node of the other (simultaneous induction on both trees), and a coinbase that is a joined pair starts with a near zero digest. For witnesses the trees have the same number of leaves. | proved |
| C106 | Lists of values are read back from their text | Props/Lists | split at whitespace is C96_words: the maximal parts without whitespace, shown to be the words of the specification. join puts spaces between words. Elements by the theorems of C85 (numbers) and C31 (data). | proved |
| C107 | Pseudo random values stay in their ranges | Props/Random | The conversions between int64_t and uint64_t are modelled as arithmetic modulo 2^64 and shown to do nothing in the range; the bound is that of the truncated quotients. | proved |
| C108 | Array casts are views of the same bytes | Props/ArrayCast | A memory is a list of bytes; loading words from a memory and storing them are shown to be inverse by induction on the number of words. | proved |

Restrictions and counterexamples per property are in the notes of MANIFEST.json; each restriction is a hypothesis in the theorem statement.

## Findings: where the code does not do what a user would rely on

Each was found by failing to prove a property. The theorem named is the machine-checked counterexample in the model.

1. `read_line` falls back incompletely after a partial match of a terminator and misses terminators overlapping it (C47).
2. `bit_reader::do_peek_byte` is wrong when a rewind left it at a byte boundary (C30_peek_counterexample).
3. `operation::to_string` prints an underflow as "(hex)" but `from_string` expects "<hex>" (C42_underflow_counterexample).
4. Transaction parsing with and without witnesses applies different superfluous-witness rules (C48 counterexample).
5. A transaction with no inputs and one output is written as bytes that are read as another (C08_ambiguous_counterexample).
6. `read_string_buffer` clears earlier errors of the reader.
7. Skips and reads of 2^63 bytes or more become negative offsets (the `ub` flag of the stream model).
8. `chain_state::to_block` clears the hash of the promoted state (C21_block_counterexample).
9. The block storm and litecoin time warp patches give different states from scratch and by promotion (C21 counterexamples).
10. Function-local statics keep the first proof-of-work limit ever used in the process (C41 counterexamples: `is_invalid_proof_of_work`, `work_required_retarget`; likewise `two_hours`).
11. Value sums saturate; the supply bound shows that saturation is not reached (C18).
12. A failed `rewind_bytes` raises the remaining read limit (C46 counterexample).
13. An unprefixed script parsed under an external limit larger than the data can lose bytes.
14. `base256e::compress` of an exact power of 256 has mantissa zero (C12_power_counterexample).
15. Multisig lacks the reference client's early exit, so with BIP66 a failing multisig aborts on signatures never examined by the reference (C50_multisig_counterexample, C52_multisig_counterexample).
16. `ceilinged_log` for general bases is not a ceiling (C49_ceilinged_log_counterexample).
17. `ceilinged_modulo` of unsigned operands is wrong if the divisor exceeds the signed maximum (C40_ceilinged_modulo_counterexample).
18. `minimal_opcode_from_data([0x00])` is push_size_0.
19. `connect` reports unexpected_witness regardless of bip141; `is_pay_key_hash_pattern` accepts non-direct pushes.
20. `is_malleated32` misses malleations made by several duplications (C16_odd_counterexample).
21. `is_coinbase_pattern` refuses OP_1..OP_16 for heights 1 to 16 (C53_small_heights); `is_forward_reference` does not report self reference.
22. A regtest bip9 checkpoint at height 0 never activates in promoted states (C21_genesis_counterexample).
23. Checkpoint hashes are cached on promotion regardless of the configured forks (C21_unconfigured_counterexample).
24. The rules of a block are chosen by unsigned comparison of its own version, histories by signed (C55_signed_version_counterexample).
25. `golomb::match_stack` has false negatives (C29_stack_counterexample).
26. `decode_base32` indexes a 128 entry table by any byte (C33_base32_bounds_counterexample).
27. `base32_pack` accepts whole groups of zero padding (C34_overlong_counterexample); non-zero padding gives an empty result and success.
28. `decode_base64` accepts "QQ=!" (C33_base64_lax).
29. `decode_base85` accepts foreign characters and groups above 2^32 (C33_base85_lax).
30. `hashed_set_construct` returns an empty set on overflow where `match_single` wraps.
31. `witness_address` accepts parameters whose text is longer than BIP173 allows (C57_too_long_counterexample).
32. Witness addresses with 5 to 7 bits of padding are accepted (C57_overlong_counterexample).
33. Version 1 witness programs of sizes other than 32 are refused even if not strict.
34. HKDF expand does not terminate for outputs above 254 digests (`uint8_t` block counter; C59_hkdf_counterexample).
35. The overflow check of a checked accumulator does not guard every path.
36. The midstate constructor of an accumulator counts the initial blocks twice in its overflow check.
37. English and French BIP39 lists share 100 words at different indexes, so such mnemonics are refused if no language is named (C36_unspecified).
38. The Electrum v1 English and Portuguese lists share words.
39. `script.offset` keeps its place after evaluation, so BIP341 hashes, serialisations and sizes taken later are wrong (C39_offset_counterexample).
40. The original signature hash of an empty subscript does not commit to the input position (C39_empty_code_counterexample); the version 1 cache goes stale if previous outputs change.
41. The text "-9223372036854775808" reaches a negate overflow in `chunk::from_integer`.
42. `block_view::to_data(true)` and `serialized_size(true)` are those of the whole buffer, with trailing bytes (C60_whole_buffer_counterexample).
43. A block view takes the first transaction for the coinbase by position (C60_position_counterexample).
44. `block::set_hashes` on a block parsed without witnesses from segregated data caches wrong hashes (C61_mode_counterexample).
45. Views refuse scripts over the maximum size and witnesses of empty elements which blocks accept.
46. A BIP324 rekey interval of zero acts as 2^32.
47. `hd_public`/`hd_private` never verify the checksum of their texts (C62_checksum_counterexample), and `hd_public` does not validate the point.
48. `operator>>` of `hd_private` and `hd_public` discards what it reads.
49. `ec_private` from entropy or an `ec_scalar` writes WIF with version 0 (C63_entropy_counterexample); WIF secrets at or above the order are accepted (C63_order_counterexample).
50. `payment_address::extract_input` takes the signature of a key hash input for its public key.
51. `ring_signature` `verify` does not compare the sizes of the proofs with those of the rings (read out of bounds).
52. `verify_message` ignores the prefix of the address (a script hash address with the same hash is accepted).
53. `ec_scalar`: zero plus or minus anything is zero (C65_zero_counterexample); the invalid point is not neutral (C65_infinity_counterexample); `ec_public::encoded` of an undecompressable point encodes an uninitialised buffer.
54. Output and input patterns are not unambiguous (C64_unambiguous_counterexample).
55. `input_pattern` never returns sign_public_key or sign_multisig for whole scripts (C64_input, C64_input_counterexample).
56. `to_pay_null_data_pattern` of one byte with its own opcode builds a script that is not recognised (C64_null_data_counterexample).
57. `binary::operator[]` compares the byte position with the number of bits and reads out of bounds (C66_index_counterexample).
58. `stealth_address` with the scan key more than once among the spend keys encodes a wrong key count.
59. `scrypt::hash` gathers `success` of the blocks and returns true regardless: out of memory within the mixing gives an unmixed key reported as success (C70_memory_counterexample).
60. `create_token` with a lot and sequence ignores the result of the inner `create_token` and returns true with the output unset when the derived factor is not a valid secret (C72_token_lot_partial).
61. src/crypto/ring_signature.cpp: `digest` hashes the message and the keys without any delimiter, so it does not bind the division of the keys into rings nor the end of the message (C74_digest_counterexample): {A},{B} and {A,B} have one digest. In release builds `verify` ignores proofs beyond the number of keys of a ring (C74_extra_counterexample: a signature is malleable by appending proofs) and reads outside of the list if there are fewer. `sign` may succeed where `verify` rejects if the challenge at the known key is not below the order (the product is then silently zero) or the challenge after the last key is zero (C74_complete); both need a SHA-256 output of negligible probability.
62. src/data/string.cpp: `trim_left`/`trim_right` with an empty token among the tokens, and `splitter` with an empty delimiter, never end (every text starts with the empty text; the position does not advance).
63. src/config/authority.cpp: `operator==` treats a zero port or an absent subnet as equal to any, so it is not transitive.
64. `points_value::select` clears its output first, so passing one object as both loses all coins.
65. The registry of signature accumulators keeps pointers to thread_local objects of threads that have ended; `purge` then follows them (C79_dangling_counterexample; excluded by a comment, not by the code).
66. `electrum::to_prefix` normalizes the words, tests the normalized words against the dictionaries, and then classifies the words it was given instead: words in upper case are reported as having no prefix although `is_prefix` and the constructor find one (electrum.cpp:426-437).
67. `electrum::from_words(words, pt)` tries Electrum v1 in the given language first, but `is_conflict`, used when generating, only avoids English Electrum v1 words. A Portuguese instance generated by the library whose twelve words are all in the Portuguese Electrum v1 list as well restores to an Electrum v1 instance with other entropy and no seed (`C81_restore_counterexample`, "luneta rugoso rigoroso ..."). `from_entropy` with prefix `old` ignores the language asked for and makes English words (`C80_refused`). `is_prefix(words, none)` is true of every word list (`C81_none_counterexample`).
68. `bitcoin_uri`: an object built by the setters is not `==` to the one read from its own text (`scheme_` is compared but only the reader sets it), while neither is `<` the other (C45_equality_counterexample). Witness addresses (bc1...) are refused as the address of an URI although the library has `witness_address` (C45_witness_counterexample).
69. `config::output` is never read back from its text, and reads garbage: `decode_output` returns false when the value *is* a number (`if (!!deserialize(value, tokens[1])) return false;`, src/config/output.cpp:49) and goes on, with an uninitialized or zero value, when it is not. "checksig:7" is refused and "checksig:x" is accepted. `C85_output_counterexample`.
70. `config::input` is never read back from its text: `encode_input` writes the script, then the point, with nothing between them (src/config/input.cpp:59-65), while `decode_input` expects a colon there; and `operator>>` reads up to whitespace, so a script of more than one operation could not be read anyway (also for outputs). `C85_input_counterexample`.
71. `url(asio::address, port)`, `url(asio::endpoint)` and `url(authority)` use `to_host` (no brackets), unlike `endpoint`, which uses `to_literal`: the text of an IPv6 URL is refused by its own reader (src/config/url.cpp:61-64). `C86_url_counterexample`.
72. `authority` read from text is not denormalized: "[::ffff:102:304]" is accepted (the comment says mapped encodings are not supported) and gives a mapped IPv6 address, which does not match the authority constructed from the same asio address and is written as "1.2.3.4". Also, by the ranges of Boost, the last address of a network, 255.255.255.255/32 and everything in the last IPv6 network (e.g. ff00::/8) are members of no network. `C86_mapped_counterexample`, `C86_member4`, `C86_member6`.
73. `to_big_endian_size<Size>` and `to_little_endian_size<Size>` of a one byte integer write only the front of the data: a big endian array longer than one byte gets the value in the wrong byte (5 becomes 05 00 00 00), and a negative value is not sign extended as every wider type is (C88_fill_counterexample). `rotl(value, shift)`/`rotr(value, shift)` by a run time parameter is undefined for a shift of zero at 32 and 64 bits, on platforms without the intrinsic (C87_rotate_counterexample; a comment asks callers to guard).
74. JSON: an input without a witness object omits "witness" (src/chain/json/input.cpp:43-64), but reading uses `value.at("witness")` (input.cpp:32-41), which throws: no transaction or block read from a serialization without witnesses is read back from its own JSON (`C89_legacy_counterexample`, exact condition in `C89_input`/`C89_transaction`).
75. JSON: reading an output uses `as_uint64`, where every other reader uses `to_number`; boost::json parses an integer below 2^63 as int64, so no output with a real amount, and no transaction or block with one, is read back from JSON text (src/chain/json/output.cpp:31-38; `C89_output_text`, `C89_transaction_text_counterexample`).
76. Native SHA-256 of two 16 byte values injects the words as loaded, in little endian order, and then finalizes without a byte swap (algorithm_native.ipp:325-335, dispatched at algorithm_single.ipp:168-171): on SHA-NI and ARM crypto builds `sha256::hash(quart_t, quart_t)` differs from the same call in other builds and from FIPS 180-4 (C90_quarters_counterexample). The commented native path of `simple_hash` ("TODO: figure out what's wrong with this", algorithm_single.ipp:208-213) has the same cause: `native_finalize` takes big endian values, the block is bytes.
77. A failed peek raises the limit of a hex reader: `do_peek_byte` rewinds after a read that was refused (hex_reader.ipp:85-92), and rewinding adds to the remaining limit. After `set_limit(0)`, `peek_byte` and `set_position`, a hex reader reads past its limit where a byte reader fails (C92_limit_counterexample). The pair buffer also keeps stale characters when the text ends in mid pair (hex_reader.ipp:67-82), so the octets of such a (failed) read are arbitrary.
78. (C94) The canonical combining classes (src/unicode/code_points.cpp, `get_canonical`) are from an older Unicode than the decomposition and composition tables (15.0): 40 marks added since (U+0898, U+08CA, U+0C3C, U+1715, U+1AC1, ...) have class zero, so texts with them are not put in canonical order (`C94_old_classes_counterexample`). `compose` also forgets the class of the marks it kept when it composes (normalization.cpp, `last = 0`); with the actual composition table that is harmless (proved: a composite of a mark begins no pair with a starter).
79. (C94) `to_lower` is full case folding, not lower case: U+00DF becomes "ss" and U+03C2 becomes U+03C3. Electrum's own normalization of seeds and passphrases uses lower case, so a passphrase with such letters gives a different Electrum seed than Electrum derives.
80. `trim_left` and `trim_right` of token lists return false whatever they trimmed: the flag is cleared at the start of the pass that ends the loop and that pass finds nothing (src/data/string.cpp:187-213; `C96_found_counterexample`).
81. An empty trim token makes `trim`, `trim_left`, `trim_right` and `reduce` loop forever, and an empty delimiter makes `split` push empty tokens forever (string.cpp:104-123, 161-185; `C96_empty_counterexample`).
82. unicode_streambuf.cpp:76-83 (underflow): with 16 bit wide characters a read that ends between the two units of a surrogate pair fails to convert; the failure is returned as end of file, so the block read and everything after it is lost (theorem C97_read_counterexample).
83. environment.cpp:83-94 with unicode_streambuf.cpp:31-47, 143-150: for bytes that are not text the remainder can be 4, not the 0..3 stated; with the accepted buffer size of one wide character the write pointer is then past the end of the allocation and the next byte is stored out of bounds (theorem C97_overrun_counterexample; C97_safe shows sizes of two or more are safe).
84. unicode_streambuf.cpp:118-134 with conversion.cpp:38-41: one invalid byte makes the conversion of the whole buffered block empty, which is not distinguished from success: valid text before and after the byte is dropped silently (theorem C97_invalid_counterexample).
85. electrum.cpp:162-192 with conversion.cpp:38-41: a passphrase that is not valid UTF-8 is converted to the empty text without an error, so every such passphrase gives the seed of the empty passphrase (theorem C98_invalid_passphrase_counterexample).
86. normalization.cpp:551-554: the compressed form splits at ASCII whitespace only; Electrum's normalization (quoted in electrum.cpp:194-199) splits at all Unicode whitespace, so a passphrase with, for example, U+2028 gives another seed than in Electrum (theorem C98_separator_counterexample).
87. qr_code.cpp:149: the product of two 32 bit widths is of 32 bits (the comment says 64), so no data is accepted as 65536 by 65536 modules and drawn in white (theorem C99_wrap_counterexample); the coding library's largest width is 177, so this is reached through `to_pixels` only.
88. tiff.cpp:97-102, 241-245: the resolution unit is written as 1, named pixels per inch; in TIFF 6.0 the value 1 means that there is no absolute unit and 2 means inches.
89. tiff.cpp:271-275: `to_image` flushes and returns true whatever the state of the stream, so a failed write is reported as success.
90. props.cpp:66-71 (`from_number`): the documented range is -(2^53) + 1 to 2^53 - 1, the guard accepts -(2^53) to 2^53 - 2 (theorem C100_number_counterexample).
91. props.cpp:208-212, 106-107: strings and names are written to JSON without escapes (a TODO in props.hpp), so different trees have the same text (theorem C100_escape_counterexample).
92. `payment_address::extract_input` of a signature and public key input builds the public key from `script.ops().front()`, which is the signature (the key is `back()`): the address is invalid for every real input (C101_input_key_counterexample).
93. `payment_address::extract` tries the input patterns first, and a witness key hash output `0 <20 bytes>` is also a script hash input, so it yields a p2sh address of the hash of the witness program (C101_extract_witness_counterexample). The same goes for witness script hash and taproot outputs.
94. `props::write` to XML writes strings without escapes, so a string holding markup has the same text as a tree of elements (C100_xml_counterexample).
95. `operator>>` of `ek_token` discards what it reads, as do those of `hd_private` and `hd_public` (C104_discarded_counterexample); that of `ec_private` gives a testnet key the mainnet address version (C104_private_version_counterexample).
96. `props::write` to info quotes a string only if it holds whitespace: the strings "{" and "}" are written as an empty array is, and an empty string leaves nothing (C100_info_counterexample).
97. `serialize` of an empty list is an empty text, which `deserialize` refuses (numbers) or reads as one empty element (data); empty data is lost from a list (C106_empty_counterexample).
98. `deserialize` of an array writes past its end if the text has more words than the array has elements (C106_array_counterexample).
99. `pseudo_random::duration` of a negative duration draws the offset from nearly all of 64 bits: the result may exceed the duration or overflow (C107_negative_counterexample).
100. `unsafe_vector_cast` of a pointer to integrals wider than a byte advances by too many bytes: the arrays after the first do not follow it (C108_vector_counterexample).

## Modelled code

Lines of each source file cited by a definition of the model (`tools/coverage.py`); lines not listed are not modelled.

* `include/bitcoin/system/hash/accumulator.hpp`: 162-165
* `include/bitcoin/system/impl/hash/accumulator.ipp`: 35-78, 92-214, 241-267, 294-327, 332-412, 417-484, 489-577
* `include/bitcoin/system/impl/math/addition.ipp`: 35-41, 80-86, 124-137, 173-187, 241-261
* `src/crypto/aes256.cpp`: 58-170, 185-327, 332-395
* `include/bitcoin/system/hash/algorithm.hpp`: 43-160, 177-180, 463
* `include/bitcoin/system/impl/hash/rmd/algorithm.ipp`: 37-70, 75-133, 161-288, 294-417, 422-460, 536-596, 601-630
* `include/bitcoin/system/impl/hash/sha/algorithm_compress.ipp`: 43-247
* `include/bitcoin/system/impl/hash/sha/algorithm_double.ipp`: 35-199
* `include/bitcoin/system/impl/hash/sha/algorithm_functions.ipp`: 36-105, 111-149
* `include/bitcoin/system/impl/hash/sha/algorithm_iterate.ipp`: 35-115, 131-169, 203-237, 244-334
* `include/bitcoin/system/impl/hash/sha/algorithm_konstant.ipp`: 34-41, 149-267
* `include/bitcoin/system/impl/hash/sha/algorithm_merkle.ipp`: 36-248, 255-289, 333-421, 431-473
* `include/bitcoin/system/impl/hash/sha/algorithm_midstate.ipp`: 33-113
* `include/bitcoin/system/impl/hash/sha/algorithm_native.ipp`: 36-45, 75-155, 163-198, 221-284, 289-351, 356-406
* `include/bitcoin/system/impl/hash/sha/algorithm_padding.ipp`: 38-111, 116-143, 152-175, 209
* `include/bitcoin/system/impl/hash/sha/algorithm_parsing.ipp`: 33-403
* `include/bitcoin/system/impl/hash/sha/algorithm_schedule.ipp`: 33-149
* `include/bitcoin/system/impl/hash/sha/algorithm_sigma.ipp`: 41-83, 94-119
* `include/bitcoin/system/impl/hash/sha/algorithm_single.ipp`: 32-218
* `include/bitcoin/system/impl/hash/sha/algorithm_stream.ipp`: 32-180
* `include/bitcoin/system/hash/algorithms.hpp`: 27-40
* `include/bitcoin/system/impl/chain/annex.ipp`: 49-52, 76-101
* `include/bitcoin/system/impl/data/array_cast.ipp`: 54-68, 73-95, 100-130, 177-214
* `src/unicode/ascii.cpp`: 31-34, 44-64, 88-101
* `include/bitcoin/system/impl/unicode/ascii.ipp`: 32-35, 70-77
* `src/config/authority.cpp`: 46-52, 95-102, 107-127, 134-158
* `src/config/base16.cpp`: 59-77
* `src/config/base2.cpp`: 53-69
* `src/config/base32.cpp`: 54-69
* `src/config/base58.cpp`: 52-67
* `src/config/base64.cpp`: 54-69
* `src/config/base85.cpp`: 65-88
* `src/radix/base_10.cpp`: 51-54, 62-114
* `include/bitcoin/system/impl/radix/base_16.ipp`: 40-75, 80-94, 106-135, 140-204
* `src/radix/base_2048.cpp`: 36-52, 56-84, 97-112, 122-161
* `include/bitcoin/system/impl/radix/base_2n.ipp`: 36-57, 64-83
* `src/radix/base_32.cpp`: 35-54, 58-73, 77-107, 111-152
* `src/radix/base_58.cpp`: 31-190
* `include/bitcoin/system/impl/radix/base_58.ipp`: 32-50
* `src/radix/base_64.cpp`: 39-156
* `src/radix/base_85.cpp`: 62-91, 96-166
* `src/crypto/secp256k1/batch.cpp`: 96-140, 144-172, 178-183, 189-209, 214-269, 280-297, 318-339, 345-355
* `include/bitcoin/system/impl/endian/batch.ipp`: 34-80, 85-199
* `src/stream/binary.cpp`: 32-40, 69-95, 100-113, 138-152, 159-171
* `include/bitcoin/system/impl/stream/streamers/bit_reader.ipp`: 46-52, 57-91, 100-108, 120-136, 152-160, 165-181
* `include/bitcoin/system/impl/stream/streamers/bit_writer.ipp`: 46-52, 64-85, 90-104, 109-123
* `src/wallet/addresses/bitcoin_uri.cpp`: 40-47, 52-56, 61-69, 74-79, 106-110, 120-179, 184-193, 202-233, 243-247
* `include/bitcoin/system/wallet/addresses/bitcoin_uri.hpp`: 88-91
* `include/bitcoin/system/math/bits.hpp`: 84-87, 171-182, 187-198
* `include/bitcoin/system/impl/math/bits.ipp`: 40-51, 57-61, 75-79, 89-93, 129-153, 158-168, 173-200, 211-245, 250-284, 298-357, 364-428, 441-447, 457-463, 468-493
* `src/chain/block.cpp`: 36-52, 59-74, 119-123, 134-156, 175-182, 289-325, 338-360, 378-381, 385-396, 402-418, 423-464, 474-486, 493-500, 506-529, 537-597, 606-615, 620-629, 652-673, 679-697, 706-713, 717-742, 751-808, 845-865, 870-876, 894-915, 922-940, 945-960, 964-969
* `src/chain/views/block_view.cpp`: 40-59, 64-93, 98-115, 127-158, 173-187, 193-240, 246-269
* `include/bitcoin/system/filter/bloom.hpp`: 39, 52-56
* `include/bitcoin/system/impl/filter/bloom.ipp`: 25-70, 87-103
* `src/config/byte.cpp`: 51-68
* `include/bitcoin/system/impl/data/byte_cast.ipp`: 30-113
* `include/bitcoin/system/impl/stream/streamers/byte_reader.ipp`: 62-82, 88-101, 146-160, 202-241, 256-262, 266-276, 318-322, 379-392, 424-437, 506-547, 564-593, 607-632, 636-652, 658-671, 693-785, 790-802, 831-855, 863-875, 905-957
* `include/bitcoin/system/intrinsics/byte_swap.hpp`: 33-60
* `include/bitcoin/system/impl/stream/streamers/byte_writer.ipp`: 72-82, 128-138, 184-206, 250-276, 287-291, 317-330, 374-398
* `include/bitcoin/system/impl/math/bytes.ipp`: 36-42, 70-79, 88-93, 101-107
* `include/bitcoin/system/impl/math/byteswap.ipp`: 34-78
* `include/bitcoin/system/impl/math/cast.ipp`: 29-58
* `src/crypto/chacha20.cpp`: 40-43, 49-118, 126-372, 377-461
* `include/bitcoin/system/crypto/chacha20.hpp`: 79-80, 136-141
* `src/crypto/chacha20_poly1305.cpp`: 40-43, 58-82, 91-148
* `src/chain/chain_state.cpp`: 44-52, 74-103, 108-338, 350-360, 365-649, 654-889
* `include/bitcoin/system/chain/chain_state.hpp`: 60-152
* `include/bitcoin/system/impl/wallet/addresses/checked.ipp`: 35-48, 64-74, 79-84
* `src/chain/checkpoint.cpp`: 33-63, 129-156, 172-175
* `src/hash/checksum.cpp`: 47-67, 74-127, 136-184
* `include/bitcoin/system/impl/hash/checksum.ipp`: 30-82
* `src/unicode/code_points.cpp`: 41-83, 112-146, 179-210, 214-413, 417-435, 440-3043
* `include/bitcoin/system/impl/data/collection.ipp`: 42-80, 120-178, 186-264, 279-305
* `include/bitcoin/system/impl/chain/compact.ipp`: 83-122
* `include/bitcoin/system/wallet/context.hpp`: 31-77
* `src/unicode/conversion.cpp`: 36-41, 69-82, 89-92
* `include/bitcoin/system/chain/enums/coverage.hpp`: 32-93
* `include/bitcoin/system/chain/batch/cursor.hpp`: 36-64
* `include/bitcoin/system/impl/data/data_array.ipp`: 68-85, 108-173
* `src/data/data_chunk.cpp`: 37-59
* `include/bitcoin/system/impl/data/data_slab.ipp`: 138-146, 151-166
* `include/bitcoin/system/impl/data/data_slice.ipp`: 36-45, 93-143, 156-192, 215-225, 254-278
* `src/crypto/der_parser.cpp`: 36-88, 95-266
* `include/bitcoin/system/impl/serial/deserialize.ipp`: 48-56, 65-127
* `include/bitcoin/system/impl/stream/device.ipp`: 68-81
* `include/bitcoin/system/impl/words/dictionaries.ipp`: 44-48, 77-100, 123-142, 147-157
* `include/bitcoin/system/words/dictionary.hpp`: 34-89
* `include/bitcoin/system/impl/words/dictionary.ipp`: 62-66, 84-96, 114-129
* `include/bitcoin/system/impl/math/division.ipp`: 31-36, 45-57, 62-114
* `src/wallet/keys/ec_point.cpp`: 35-39, 44-47, 77-102, 107-117, 122-157
* `src/wallet/keys/ec_private.cpp`: 44-52, 83-94, 99-153, 158-177, 205-217, 244-254
* `include/bitcoin/system/wallet/keys/ec_private.hpp`: 41-137
* `src/wallet/keys/ec_public.cpp`: 36-44, 91-120, 138-147, 160-190, 215-225
* `src/wallet/keys/ec_scalar.cpp`: 34-37, 69-88, 114-121, 126-147, 188-192
* `src/crypto/secp256k1/ecdsa.cpp`: 48-71, 77-118, 122-140, 161-179
* `src/wallet/keys/ek_private.cpp`: 48-55, 73-76, 104-114
* `src/wallet/keys/ek_public.cpp`: 104-114
* `src/wallet/keys/ek_token.cpp`: 104-114
* `src/wallet/mnemonics/electrum.cpp`: 45-51, 60-74, 79-208, 213-217, 225-229, 237-264, 269-283, 296-355, 371-418, 426-436, 443-463, 468-476, 494-499, 504-573, 583-592
* `include/bitcoin/system/wallet/mnemonics/electrum.hpp`: 51-60
* `src/wallet/mnemonics/electrum_v1.cpp and src/words/catalogs/electrum_v1.cpp`: 27-3292
* `src/wallet/keys/encrypted_keys.cpp`: 50-95, 100-118, 123-142, 147-172, 177-278, 290-342, 347-374, 379-460, 465-506
* `src/config/endpoint.cpp`: 57-65, 83-98, 114-132
* `src/unicode/utf8_everywhere/environment.cpp`: 45-98, 102-117, 121-141
* `include/bitcoin/system/forks.hpp`: 29-83
* `src/crypto/fschacha20.cpp`: 32-52
* `include/bitcoin/system/crypto/fschacha20.hpp`: 42-45
* `src/crypto/fschacha20_poly1305.cpp`: 33-53, 61-75
* `include/bitcoin/system/crypto/fschacha20_poly1305.hpp`: 61-64
* `include/bitcoin/system/funclets.hpp`: 176-206
* `include/bitcoin/system/math/functional.hpp`: 34-109
* `include/bitcoin/system/hash/functions.hpp`: 77
* `include/bitcoin/system/impl/hash/functions.ipp`: 52-113, 121-132, 137-178, 186-209, 224-257
* `src/filter/golomb.cpp`: 38-64, 76-109, 122-161, 174-219
* `src/config/hash160.cpp`: 55-70
* `src/config/hash256.cpp`: 67-82
* `src/wallet/keys/hd_private.cpp`: 39-42, 93-99, 104-186, 199-202, 218-275, 300-310
* `include/bitcoin/system/wallet/keys/hd_private.hpp`: 36-130
* `src/wallet/keys/hd_public.cpp`: 48-52, 87-144, 162-165, 191-229, 234-237, 258-268
* `include/bitcoin/system/wallet/keys/hd_public.hpp`: 44-53, 58-141
* `src/chain/header.cpp`: 29-69, 126-134, 145-157, 177-185, 226-247, 257-273, 304-310, 325-344, 349-357, 362-371, 379-393
* `include/bitcoin/system/impl/stream/streamers/hex_reader.ipp`: 53-136
* `include/bitcoin/system/impl/stream/streamers/hex_writer.ipp`: 51-68
* `include/bitcoin/system/impl/hash/hkdf.ipp`: 31-69
* `include/bitcoin/system/hash/hmac.hpp`: 64-65
* `include/bitcoin/system/impl/hash/hmac.ipp`: 32-75, 82-97, 104-147, 152-161
* `src/chain/input.cpp`: 32-65, 79-103, 190-196, 228-240, 260-304, 326-333, 381-384, 391-394, 403-428, 438-447, 456-495
* `include/bitcoin/system/impl/endian/integers.ipp`: 48-94, 121-165, 192-236
* `include/bitcoin/system/impl/endian/integrals.ipp`: 39-115, 120-204
* `include/bitcoin/system/intrinsics/intel/intel_128.hpp`: 32-145, 161-167, 185-199, 260-265, 305-315, 319-339
* `include/bitcoin/system/intrinsics/intel/intel_256.hpp`: 329-339, 343-365
* `include/bitcoin/system/intrinsics/intel/intel_512.hpp`: 154-160, 345-355, 359-381
* `include/bitcoin/system/intrinsics/intel/intel_sha.hpp`: 32-67
* `include/bitcoin/system/impl/machine/interpreter.ipp`: 38-1348
* `include/bitcoin/system/impl/machine/interpreter_connect.ipp`: 48-222
* `include/bitcoin/system/impl/machine/interpreter_run.ipp`: 37-68, 74-380
* `include/bitcoin/system/impl/stream/iostream/iostream.ipp`: 33-50, 81-188, 208-213
* `include/bitcoin/system/impl/stream/iostream/istream.ipp`: 34-50, 73-170
* `include/bitcoin/system/data/iterable.hpp`: 66-200
* `src/crypto/secp256k1/keys.cpp`: 35-42, 47-73, 78-89, 94-117, 129-138
* `include/bitcoin/system/words/language.hpp`: 27-40
* `src/words/languages.cpp`: 97-114, 120-123, 166-169
* `include/bitcoin/system/words/languages.hpp`: 68-73
* `include/bitcoin/system/math/limits.hpp`: 98-114
* `include/bitcoin/system/impl/math/limits.ipp`: 46-51, 69-76
* `include/bitcoin/system/impl/math/logarithm.ipp`: 38-82, 118-140, 147-195, 224-235, 241-285
* `include/bitcoin/system/chain/enums/magic_numbers.hpp`: 30-78, 107-110
* `src/math/math.cpp`: 63-91, 96-100, 108-114, 127-142, 147-151, 159-164, 169-179
* `src/wallet/message.cpp`: 36-156
* `src/wallet/keys/mini_keys.cpp`: 28-45
* `include/bitcoin/system/impl/endian/minimal.ipp`: 36-48, 66-78, 83-91
* `src/wallet/mnemonics/mnemonic.cpp and src/words/catalogs/mnemonic.cpp`: 29-20577
* `include/bitcoin/system/impl/math/multiplication.ipp`: 29-48
* `include/bitcoin/system/chain/batch/multisig.hpp`: 33-53
* `include/bitcoin/system/intrinsics/neon/neon_128.hpp`: 156-162, 266-270, 306-329
* `include/bitcoin/system/intrinsics/neon/neon_sha.hpp`: 32-57
* `src/wallet/neutrino.cpp`: 35-82, 97-147
* `include/bitcoin/system/impl/endian/nominal.ipp`: 35-97, 103-129
* `src/unicode/normalization.cpp`: 38-52, 57-316, 324-386, 413-442, 446-523, 528-581
* `include/bitcoin/system/machine/number.hpp`: 30-31
* `include/bitcoin/system/impl/machine/number_boolean.ipp`: 33-93
* `include/bitcoin/system/impl/machine/number_chunk.ipp`: 34-70
* `include/bitcoin/system/impl/machine/number_integer.ipp`: 46-75
* `src/chain/enums/opcode.cpp`: 39-700
* `src/chain/operation.cpp`: 30-38, 59, 91-106, 160-186, 195-238, 271-302, 307-477, 482-487, 501-517, 552-571, 579-607
* `include/bitcoin/system/impl/chain/operation_patterns.ipp`: 38-88, 100-131, 150-184, 194-218, 227-332, 405-423, 498-511
* `include/bitcoin/system/impl/stream/iostream/ostream.ipp`: 33-50, 76-97, 102-107
* `src/chain/outpoint.cpp`: 28-44
* `src/chain/output.cpp`: 31-96, 115-119, 130-138, 158-174, 222-253
* `include/bitcoin/system/impl/math/overflow.ipp`: 29-33, 53-89, 94-98, 152-197
* `src/wallet/keys/parse_encrypted_keys/parse_encrypted_private.cpp`: 38-85
* `src/wallet/keys/parse_encrypted_keys/parse_encrypted_public.cpp`: 40-78
* `src/wallet/keys/parse_encrypted_keys/parse_encrypted_token.cpp`: 38-84
* `src/wallet/addresses/payment_address.cpp`: 34-37, 71-75, 80-125, 130-133, 138-141, 146-168, 198-208, 219-311
* `include/bitcoin/system/wallet/addresses/payment_address.hpp`: 37-118
* `include/bitcoin/system/impl/hash/pbkd.ipp`: 36-46, 55-141
* `src/chain/point.cpp`: 29-63, 86-95, 99-120, 140-148, 168-172, 195-198
* `include/bitcoin/system/wallet/point_value.hpp`: 30-63
* `src/wallet/points_value.cpp`: 31-133, 140-148
* `src/crypto/poly1305.cpp`: 46-51, 65-86, 91-179, 187-358, 363-513
* `include/bitcoin/system/crypto/poly1305.hpp`: 54-57, 111-116
* `include/bitcoin/system/impl/math/power.ipp`: 37-51
* `include/bitcoin/system/chain/prevout.hpp`: 29-45
* `include/bitcoin/system/machine/program.hpp`: 223-228, 264-288
* `include/bitcoin/system/impl/machine/program.ipp`: 35-41, 55-93, 141-146, 221-309, 319-335, 353-372, 425-451, 456-461, 470-484, 497-523, 528-585, 610-654
* `include/bitcoin/system/impl/machine/program_batch.ipp`: 39-181, 187-267, 281-316
* `include/bitcoin/system/impl/machine/program_construct.ipp`: 36-140
* `include/bitcoin/system/impl/machine/program_verify.ipp`: 36-211, 218-230, 235-279
* `src/serial/props.cpp`: 64-80, 89-388, 395-413
* `include/bitcoin/system/serial/props.hpp`: 59-64, 97-107
* `src/crypto/pseudo_random.cpp`: 40-57, 74-100
* `include/bitcoin/system/crypto/pseudo_random.hpp`: 50-58, 78-88
* `include/bitcoin/system/stream/devices/push_sink.hpp`: 45-50, 55-59
* `src/wallet/addresses/qr_code.cpp`: 87-130, 137-249
* `src/crypto/secp256k1/recover.cpp`: 37-50, 56-91
* `src/crypto/ring_signature.cpp`: 34-208, 218-233, 238-276, 285-302, 310-391
* `include/bitcoin/system/crypto/ring_signature.hpp`: 41-47
* `include/bitcoin/system/hash/rmd/rmd.hpp`: 31-62
* `include/bitcoin/system/hash/rmd/rmd128.hpp`: 33-78, 90-96
* `include/bitcoin/system/hash/rmd/rmd160.hpp`: 33-84, 96-103
* `include/bitcoin/system/math/rotate.hpp`: 29-73
* `include/bitcoin/system/impl/math/rotate.ipp`: 97-127
* `src/crypto/secp256k1/schnorr.cpp`: 38-92
* `src/chain/script.cpp`: 29-38, 49-77, 178-182, 193-324, 344-371, 393-409, 416-430, 438-465
* `include/bitcoin/system/config/script.hpp`: 212
* `src/chain/script_extract.cpp`: 37-57, 61-122, 136-207
* `include/bitcoin/system/impl/chain/script_patterns.ipp`: 49-77, 82-106, 117-162, 171-493
* `include/bitcoin/system/hash/scrypt.hpp`: 34
* `include/bitcoin/system/impl/hash/scrypt.ipp`: 83-468, 473-522
* `include/bitcoin/system/crypto/secp256k1.hpp`: 60-68
* `include/bitcoin/system/crypto/secp256k1_batch.hpp`: 34, 62-77, 100-113
* `include/bitcoin/system/serial/serialize.hpp`: 34-40
* `include/bitcoin/system/impl/serial/serialize.ipp`: 44-48, 54-103
* `src/settings.cpp`: 485-514, 538-559
* `include/bitcoin/system/settings.hpp`: 33-120
* `include/bitcoin/system/hash/sha/sha.hpp`: 35-66
* `include/bitcoin/system/hash/sha/sha160.hpp`: 33-62, 71-78
* `include/bitcoin/system/hash/sha/sha256.hpp`: 33-58, 76-86, 96-106
* `include/bitcoin/system/impl/stream/streamers/sha256_writer.ipp`: 32-86
* `include/bitcoin/system/impl/stream/streamers/sha256t_writer.ipp`: 32-104
* `include/bitcoin/system/impl/stream/streamers/sha256x2_writer.ipp`: 32-94
* `include/bitcoin/system/hash/sha/sha512.hpp`: 33-84, 103-113, 123-133, 143-153, 163-173
* `include/bitcoin/system/filter/sieve.hpp`: 40, 58-65
* `include/bitcoin/system/impl/filter/sieve.ipp`: 43-147, 164-182, 186-228
* `include/bitcoin/system/impl/math/sign.ipp`: 45-51, 60-64, 74-82, 100-154
* `src/chain/signatures.cpp`: 33-34, 38-47, 52-61, 67-76, 80-89, 95-137
* `include/bitcoin/system/chain/batch/signatures.hpp`: 56-121, 131-154, 160-190, 223-244, 254-274, 282-303, 327-330, 350-351
* `src/hash/siphash.cpp`: 43-110
* `include/bitcoin/system/hash/siphash.hpp`: 41-47
* `include/bitcoin/system/machine/stack.hpp`: 33-35
* `include/bitcoin/system/impl/machine/stack.ipp`: 49-187
* `include/bitcoin/system/impl/machine/stack_variant.ipp`: 32-66, 73-337
* `src/wallet/keys/stealth.cpp`: 34-209
* `src/wallet/addresses/stealth_address.cpp`: 58-62, 93-202, 220-223, 256-289, 295-300, 328-338
* `include/bitcoin/system/wallet/addresses/stealth_address.hpp`: 53-56, 103-109
* `src/wallet/addresses/stealth_receiver.cpp`: 31-44, 57-74
* `src/wallet/addresses/stealth_sender.cpp`: 31-46, 53-74
* `include/bitcoin/system/impl/endian/stream.ipp`: 35-63, 68-92
* `src/data/string.cpp`: 32-68, 78-94, 103-219, 245-254
* `include/bitcoin/system/chain/stripper.hpp`: 72-76
* `include/bitcoin/system/impl/endian/swaps.ipp`: 32-61
* `src/chain/taproot.cpp`: 35-117
* `include/bitcoin/system/impl/chain/tapscript.ipp`: 51-60, 73-121
* `include/bitcoin/system/chain/batch/threshold.hpp`: 41-77
* `src/wallet/addresses/tiff.cpp`: 105-119, 136-275
* `src/chain/transaction.cpp`: 51-80, 88-113, 121-137, 146-218, 243-311, 357-362, 367-396, 425-442, 446-470, 475-529, 533-536, 554-573, 581-593, 615-640, 645-701, 722-743, 756-815, 865-878, 885-910, 916-936, 972-986
* `include/bitcoin/system/config/transaction.hpp`: 244-256
* `src/chain/transaction_cache.cpp`: 38-87, 104-117, 122-182, 186-216, 223-251, 256-272
* `include/bitcoin/system/impl/chain/transaction_patterns.ipp`: 35-51
* `src/chain/transaction_sighash.cpp`: 39-55, 62-223
* `src/chain/transaction_sighash_v0.cpp`: 36-52, 59-93
* `src/chain/transaction_sighash_v1.cpp`: 42-154
* `src/chain/views/transaction_view.cpp`: 45-134, 140-143, 150-158, 175-233, 239-248, 254-293, 299-349, 355-371, 381-405, 415-432, 438-446, 458-462
* `include/bitcoin/system/chain/views/transaction_view.hpp`: 98-138
* `include/bitcoin/system/types.hpp`: 82-88, 112-128
* `include/bitcoin/system/impl/endian/uintx_t.ipp`: 33-45, 50-62
* `src/unicode/utf8_everywhere/unicode_streambuf.cpp`: 31-47, 60-86, 90-171
* `src/unicode/unicode_tables.cpp`: 33-2099, 2103-5293, 5298-5865, 5870-7402, 7407-8832
* `include/bitcoin/system/unicode/unicode_tables.hpp`: 35-37
* `include/bitcoin/system/impl/endian/unsafe.ipp`: 33-47, 52-84, 89-103
* `src/wallet/addresses/uri.cpp`: 31-228
* `include/bitcoin/system/wallet/addresses/uri_reader.hpp`: 41-71
* `src/config/url.cpp`: 61-69, 92-99, 128-150
* `src/config/utilities.cpp`: 32-43, 52-66, 73-78, 84-150, 158-200, 205-262, 267-298
* `src/config/version.cpp`: 64-77, 92-150
* `src/chain/witness.cpp`: 29-70, 132-135, 145-219, 236-248, 253-305, 337-343
* `src/wallet/addresses/witness_address.cpp`: 125-276, 297-315, 387-394, 452-462
* `include/bitcoin/system/wallet/addresses/witness_address.hpp`: 41-76, 114
* `src/chain/witness_extract.cpp`: 45-51, 62-107, 113-254
* `include/bitcoin/system/impl/chain/witness_patterns.ipp`: 43-46

## Code that is not modelled

* `src/chain/json/*`, `serial/*`, property tree and JSON conversions: Boost.JSON values.
* `src/config/*` (option parsing, printing, endpoint/authority/url parsing with Boost and regular expressions), `src/wallet/addresses/uri.cpp`,
  `bitcoin_uri.cpp` (Boost.URL), `qr_code.cpp`, `tiff.cpp` (libqrencode).
* `src/unicode/conversion.cpp`, `utf8_everywhere/*` (boost::locale, Win32); `src/unicode/normalization.cpp` except as a parameter.
* SHA-NI/NEON/AVX intrinsics of the hash functions (`algorithm_native.ipp`); the portable and the vector-schedule paths are modelled.
* Error code tables (`src/error/*`): enumerations with messages; the codes appear in the models by name.
* Settings (`src/settings.cpp`) except the constants that properties use.
