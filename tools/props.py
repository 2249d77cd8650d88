#!/usr/bin/env python3
"""Regenerates /verif/properties.jsonl from the table below (kept as source so the list can grow)."""
import json
P=[]
def p(id,title,statement,quantifier,why,anchors):
    P.append(dict(id=id,title=title,statement=statement,quantifier=quantifier,why_tests_cant=why,anchors=anchors))
I="include/bitcoin/system/"
p("C01","Variable-length integers are a canonical bijective prefix code",
  "write_variable followed by read_variable returns the same number and consumes exactly the written bytes; read_variable accepts a byte string only if it is the (unique) encoding write_variable produces; variable_size equals the number of bytes written.",
  "every uint64 value, every byte stream and every reader position",
  "2^64 values and all byte strings; canonicality is a negative statement about every alternative encoding",
  [I+"impl/stream/streamers/byte_reader.ipp: read_variable",I+"impl/stream/streamers/byte_writer.ipp: write_variable",I+"impl/serial/serialize.ipp / variable_size"])
p("C02","Fixed-width integers round-trip in both byte orders",
  "For each width 1..8 bytes, writing an integer little (big) endian and reading it back with the same width and order returns the value modulo 256^width, and the written length is the width.",
  "every value and every width","value domain is 2^64 per width",
  [I+"impl/stream/streamers/byte_reader.ipp: read_little_endian, read_big_endian",I+"impl/stream/streamers/byte_writer.ipp"])
p("C03","The byte reader never reads outside its buffer, and failures are sticky",
  "For any sequence of reader calls the position stays inside the buffer, a successful read returns exactly the buffer bytes at the position, and once the reader reports failure it keeps reporting failure until a call documented to clear it (set_position, read_string_buffer).",
  "every buffer, every limit, every finite sequence of reader operations with any arguments",
  "unbounded operation histories",[I+"impl/stream/streamers/byte_reader.ipp",I+"impl/stream/iostream/istream.ipp"])
p("C04","Every byte string is a script and survives parse/serialize unchanged",
  "Constructing a script from any byte string without prefix succeeds, to_data(false) returns exactly the original bytes and serialized_size(false) is their number, including malformed push data (underflow operations).",
  "every byte string of any length","infinitely many byte strings, including arbitrary truncation points",
  ["src/chain/script.cpp: from_data, to_data, op_count","src/chain/operation.cpp: from_data, to_data"])
p("C05","A size-prefixed script consumes exactly its prefix and nothing else",
  "Reading a prefixed script from a longer stream succeeds exactly when the prefix is a canonical size not exceeding the bytes that follow; it then consumes prefix plus that many bytes, yields the same script as parsing those bytes alone, and leaves the reader unlimited.",
  "every stream, every prefix value","all streams and all prefix/length mismatches",
  ["src/chain/script.cpp: from_data"])
p("C06","Operations round-trip through bytes",
  "Serializing a list of operations whose data sizes agree with their opcodes and parsing the result returns the same list of operations.",
  "every list of well-formed operations","unbounded lists",
  ["src/chain/operation.cpp","src/chain/script.cpp"])
p("C07","Witness stacks round-trip",
  "Serializing a witness (with or without count prefix) and parsing it returns the same stack; serialized_size equals the byte count.",
  "every witness stack within the deserialization limits","unbounded stacks of unbounded elements",
  ["src/chain/witness.cpp: from_data, to_data, serialized_size"])
p("C08","Transactions round-trip and accepted bytes are canonical",
  "Any transaction that has an input serializes to bytes that parse back to an equal transaction, consuming exactly those bytes; conversely any bytes accepted by the parser re-serialize to the identical bytes (so hashing the object equals hashing the wire bytes).",
  "every transaction, every byte stream","all transactions/all byte streams; malleability of the encoding is a negative claim",
  ["src/chain/transaction.cpp: from_data, to_data","src/chain/input.cpp","src/chain/output.cpp","src/chain/point.cpp"])
p("C09","Reported sizes equal serialized lengths; weight and vsize follow BIP141",
  "serialized_size(w) of point, script, witness, input, output, transaction, header and block equals the length of to_data(w); weight = 3*nominal+witnessed and virtual_size = ceil(weight/4).",
  "every object (whose size fits size_t)","sizes are cached/computed separately from serialization for all objects",
  ["src/chain/*.cpp: serialized_size","src/chain/transaction.cpp: weight, virtual_size"])
p("C10","Headers and blocks round-trip and accepted bytes are canonical",
  "A header is exactly 80 bytes and round-trips; a block of well-formed transactions round-trips; bytes accepted as a block re-serialize identically.",
  "every header, every block, every byte stream","all blocks/streams",["src/chain/header.cpp","src/chain/block.cpp: from_data,to_data"])
p("C11","Superfluous witness serialization is rejected in both parse modes",
  "A BIP144-encoded transaction in which every input's witness stack is empty is rejected whether or not the caller asked for witnesses to be kept, and whatever parses with witnesses skipped parses with witnesses kept to the same transaction apart from its witnesses.",
  "every byte stream","all streams; needs agreement of two code paths on every input",
  ["src/chain/transaction.cpp: from_data","src/chain/witness.cpp: skip"])
p("C12","Compact difficulty encoding is a faithful lossy float",
  "expand(compress(n)) never exceeds n and loses less than one part in 2^15; compress is monotone; compress(expand(b)) = b for every b that compress can produce; expand returns zero exactly on the documented invalid encodings.",
  "every 256-bit number, every 32-bit compact value","2^256 numbers",
  [I+"impl/chain/compact.ipp",I+"impl/radix/base_2n.ipp"])
p("C13","Block work equals floor(2^256/(target+1)) with no overflow",
  "header::proof(bits) is floor(2^256/(target+1)) for every valid bits and zero for invalid bits; larger valid targets never have larger work, and the work of a valid target is positive.",
  "every 32-bit bits value","division in 256-bit arithmetic with complement trick, all 2^32 values",
  ["src/chain/header.cpp: proof"])
p("C14","Script numbers: minimal encoding is unique and round-trips",
  "chunk::from_integer produces the unique minimal encoding; integer<4>/integer<5> decode it back to the same integer whenever within the size limit; decoding never yields a value outside the documented range; boolean decoding is false exactly for zero and negative-zero byte strings.",
  "every int64 and every byte string","2^64 integers / all byte strings",
  [I+"impl/machine/number_integer.ipp",I+"impl/machine/number_chunk.ipp",I+"impl/machine/number_boolean.ipp"])
p("C15","Merkle root computation and branches are sound",
  "sha256::merkle_root computes the Bitcoin merkle root (last node duplicated at odd levels); merkle_branch(position) folded with the leaf yields that root for every position.",
  "every list of hashes, every position","unbounded list lengths with odd/even at every level",
  [I+"impl/hash/sha/algorithm_merkle.ipp","src/chain/block.cpp: merkle_branch"])
p("C16","CVE-2012-2459 merkle malleation is detected",
  "If two different transaction-hash lists of which one is an extension of the other by duplicating its tail give the same root, the extended one is reported malleated by is_malleated32, and a block without repeated transaction hashes is never reported malleated.",
  "every block size and every malleation width","all sizes",["src/chain/block.cpp: is_malleable32, malleated32_size, is_malleated32"])
p("C17","Block subsidy halves and is bounded",
  "subsidy(height) = initial >> (height/interval), zero once 64 halvings passed (with bip42); total issuance over all heights is finite and below the 21M bound with mainnet settings.",
  "every height","infinitely many heights; UB-adjacent shift",["src/chain/block.cpp: subsidy"])
p("C18","Accepted blocks cannot inflate the currency",
  "If block::accept succeeds (with all prevouts populated) then the coinbase claims at most subsidy plus the true sum of fees, and each other transaction's outputs total at most its inputs, computed in unbounded arithmetic, whenever no input/reward sum saturates 64 bits.",
  "every block and prevout assignment","64-bit saturation corner cases on unbounded lists",
  ["src/chain/block.cpp: accept,is_overspent,reward","src/chain/transaction.cpp: accept,is_overspent,fee"])
p("C19","Retargeting is bounded and never exceeds the limit",
  "At a retarget height the required target is old*clamp(timespan)/interval, clamped to [1/4,4] and to the proof-of-work limit, with no 256-bit overflow for mainnet limits.",
  "every chain state and header history","all timestamps and bits",["src/chain/chain_state.cpp: work_required_retarget,retarget_timespan"])
p("C20","Median time past is the true median and never decreases along an accepted chain",
  "median_time_past is the upper median of the last up to 11 timestamps; if each header passes accept, MTP is non-decreasing from block to block.",
  "every sequence of accepted headers","unbounded histories",["src/chain/chain_state.cpp: median_time_past",I+"chain/context.hpp"])
p("C21","Chain state promotion equals construction from the store",
  "Promoting a chain state header by header yields the same observable context (median time past, required work, version floor, fork flags, retarget timestamp) as building it from scratch from stored headers with get_map.",
  "every header sequence of any length, every settings","unbounded histories, incremental-vs-batch agreement",
  ["src/chain/chain_state.cpp: to_pool,to_header,to_block,get_map"])
p("C22","Script evaluation respects the consensus limits and has no stack underflow",
  "For every script and initial stack, at every step the primary+alternate stack size never exceeds 1000 on success, executed counted operations never exceed the limit, no pushed element exceeds 520 bytes, and no operation accesses a missing stack element (it fails instead).",
  "every script, every initial stack, every flag set","unbounded scripts, all op interleavings",
  [I+"impl/machine/interpreter.ipp",I+"impl/machine/program.ipp",I+"impl/machine/stack.ipp"])
p("C23","Conditionals balance",
  "Script evaluation succeeds only if IF/ELSE/ENDIF are balanced at the end, and operations inside a not-taken branch have no effect on the stacks.",
  "every script","unbounded nesting",[I+"impl/machine/interpreter.ipp",I+"impl/machine/program.ipp"])
p("C24","Stack implementations are interchangeable",
  "Evaluating with the list-based stack and the vector-based stack gives the same result for every script, so the roller heuristic cannot affect consensus.",
  "every operation sequence","all histories",[I+"impl/machine/stack.ipp","src/chain/transaction.cpp: connect_input"])
p("C25","Signature operation counting",
  "signature_operations(accurate) equals the specification count: 1 per checksig, and per multisig 20 or (accurate) the preceding small positive number opcode.",
  "every script","all scripts",["src/chain/script.cpp",I+"impl/chain/script_patterns.ipp"])
p("C26","Absolute and relative locktime semantics",
  "is_absolute_locked and is_relative_locked implement BIP113/BIP68: final if locktime zero, below height/time, or all sequences final; relative locks honour disable bit, type bit and 16-bit value in 512s units, and once satisfied remain satisfied as height/MTP grow.",
  "every sequence/locktime/height/time","2^32 x 2^32 combinations",["src/chain/transaction.cpp","src/chain/input.cpp"])
p("C27","Block-level double spend and forward reference detection are exact",
  "check() rejects a block iff one of: empty, oversized, first not coinbase, another coinbase, some input references a later (or same) transaction in the block, two non-coinbase inputs share an outpoint, merkle root mismatch (if asked), or a transaction fails check.",
  "every block","unbounded blocks; hash-set traversal in reverse order",["src/chain/block.cpp: check"])
p("C28","Strict DER signatures",
  "The DER parser accepts a byte string iff it satisfies BIP66 strict DER; the encoder's output is always accepted and decodes to the same signature.",
  "every byte string, every signature","all byte strings",["src/crypto/der_parser.cpp"])
p("C29","Golomb-coded filters have no false negatives",
  "Every element inserted in a Golomb filter matches; the encoded set decodes to the sorted hashed values; match against a set is true iff some single match is.",
  "every set of items, any key and any hash function","unbounded sets and bit streams",["src/filter/golomb.cpp"])
p("C30","Bit writer and bit reader are inverse",
  "Any sequence of write_bit/write_bits/write_bytes, flushed, read back by the mirrored sequence of reads, returns the same values; flush pads with zero bits.",
  "every sequence of writes","unbounded mixed-width histories",[I+"impl/stream/streamers/bit_writer.ipp",I+"impl/stream/streamers/bit_reader.ipp"])
p("C31","Base16 round-trips and rejects exactly the malformed strings",
  "decode(encode(d)) = d; decode fails iff odd length or a non-hex character; encode(decode(s)) is s lower-cased.",
  "every byte string / character string","all strings",[I+"impl/radix/base_16.ipp"])
p("C32","Base58 round-trips and preserves leading zeros",
  "decode(encode(d)) = d for all data; every accepted string re-encodes to itself.","every byte string / character string","bignum arithmetic on unbounded strings",["src/radix/base_58.cpp"])
p("C33","Base64, base32 and base85 round-trip",
  "decode(encode(d)) = d (for base85: when the size is a multiple of four), and encode output uses only the documented alphabet.","every byte string","unbounded",["src/radix/base_64.cpp","src/radix/base_32.cpp","src/radix/base_85.cpp"])
p("C34","Merging and expanding bech32/base32 and base2048 groups is lossless",
  "expansion of bytes into 5-bit (11-bit) groups and back is the identity and rejects non-zero padding.","every byte string","unbounded",["src/radix/base_32.cpp","src/radix/base_2048.cpp"])
p("C35","Bech32(m) checksum: created addresses verify and single errors are caught",
  "A built checksum always verifies; changing any one character of the data part always breaks it; version 0 needs bech32 and versions 1..16 bech32m.","every address payload, every position, every replacement","all payloads x positions",["src/hash/checksum.cpp"])
p("C36","Mnemonic words encode entropy bijectively",
  "BIP39: encoding entropy of any valid size and decoding the words returns the entropy; words whose checksum is wrong are rejected.","every entropy of every valid size, any hash","2^256 entropies",["src/wallet/mnemonics/mnemonic.cpp"])
p("C37","Electrum v1 mnemonics round-trip","encoding 16 or 32 bytes into 12/24 words yields the words of the reference Python code, and decoding yields the same bytes; any 12/24 words of a list decode to the text of the reference code, including overflowing values, which are flagged and are the encoding of no entropy.","every entropy","2^256 entropies, modular wraparound of 1626",["src/wallet/mnemonics/electrum_v1.cpp"])
p("C38","Hash accumulation is chunking-independent",
  "Writing data to an accumulator in any sequence of chunks then flushing equals hashing the concatenation in one call; padding follows the standard (0x80, zeros, bit length) and the padded size is a block multiple.","every byte string, every way to split it","unbounded splits",[I+"impl/hash/accumulator.ipp"])
p("C39","Signature hashes are of what the sighash flags say",
  "signature_hash gives the hash of the original client's message (a modified copy of the transaction), of the BIP143 message, or of the BIP341/BIP342 message, as version and active rules say, whatever signature hashes of the transaction were computed before (caches). Two messages are equal exactly if the flags are equal and the signings agree in every field the flags commit to; other fields do not matter.","every transaction, input, script, flags and history of calls; every pair of signings","pairs of unbounded objects, and histories",["src/chain/transaction_sighash.cpp","src/chain/transaction_sighash_v0.cpp","src/chain/transaction_sighash_v1.cpp","src/chain/transaction_cache.cpp","src/chain/transaction.cpp: signature_hash"])
p("C40","Saturating and checked arithmetic is exact",
  "ceilinged_add/multiply, floored_subtract, limit, is_add_overflow etc. equal the mathematical clamp of the unbounded result; ceilinged/floored/truncated divide and modulo satisfy the division laws for all signs.","every operand pair and width","2^128 operand pairs",[I+"impl/math/addition.ipp",I+"impl/math/division.ipp",I+"impl/math/overflow.ipp",I+"impl/math/limits.ipp"])
p("C41","Validation results do not depend on call history",
  "header::check and work_required depend only on their arguments and the object, not on which limits earlier calls in the process used.","every history of calls","needs call histories",["src/chain/header.cpp: is_invalid_proof_of_work","src/chain/chain_state.cpp: work_required_retarget"])
p("C42","Script and witness text round-trips","Reading the text of any operation that has no data or a consistent push (for any active forks) gives that operation; likewise the text of any script of such operations and of any witness stack. Reading any text gives a valid operation whose own text reads as the same operation, unless it is an underflow, which prints as (hex) but is only read as <hex>.","every operation, script, witness stack, fork set and text","unbounded data, all texts; false for underflows (see MANIFEST)",["src/chain/operation.cpp: to_string, from_string","src/chain/script.cpp: to_string, from_string","src/chain/witness.cpp: to_string, from_string","src/machine opcode names: src/chain/enums/opcode.cpp"])
p("C43","UTF conversions round-trip","utf8/utf16/utf32 conversions are inverse on valid text and reject ill-formed sequences.","every string","unbounded",["src/unicode/conversion.cpp"])
p("C44","The stream cipher, the one-time authenticator and the packet ciphers are those of RFC 8439 and BIP324","After a key and a seek, whatever division of the text into calls and on every build (any set of vector instructions), chacha20 writes the text exclusive or the RFC 8439 keystream; poly1305 over any division of a message is the RFC 8439 tag; authenticated encryption and decryption are the standard's, decryption succeeding exactly when the tag is the calculated one and clearing the output otherwise; and through any history of packets, opened or refused, the forward secure ciphers use the keys and nonces of BIP324, so that two peers stay in step.","every key, nonce, associated data, message, division into calls, history of packets and build","unbounded messages and histories; all products of 26 bit limbs; a counter that wraps",["src/crypto/chacha20.cpp","src/crypto/poly1305.cpp","src/crypto/chacha20_poly1305.cpp","src/crypto/fschacha20.cpp","src/crypto/fschacha20_poly1305.cpp"])
p("C46","A reader limit bounds what is consumed","After set_limit(n), until another limit is set, no sequence of reader calls consumes more than n bytes past the position at which the limit was set.","every buffer, limit and finite call sequence","unbounded histories; false for a failed rewind (see MANIFEST)",[I+"impl/stream/streamers/byte_reader.ipp: set_limit, rewind_bytes"])
p("C47","read_line splits at the first terminator","read_line(terminator) returns the bytes up to the first occurrence of the terminator and consumes them with it; write_line then read_line returns the line.","every buffer, line and terminator","substring search over all strings; false for terminators with self-overlap (see MANIFEST)",[I+"impl/stream/streamers/byte_reader.ipp: read_line"])
p("C48","Transaction validity does not depend on the witness mode","transaction(data, true) is valid exactly if transaction(data, false) is.","every byte string","all byte strings; false when every witness element is empty (see MANIFEST)",["src/chain/transaction.cpp: from_data","src/chain/witness.cpp: skip"])
p("C49","Logarithms, powers and byte widths","power(base,e) is base^e wrapped to the type; floored_log is the integer logarithm for every base and value, ceilinged_log its round-up, and log2/log256/byte_width/bit_width agree with them.","every base, value and width","loops over all values; ceilinged_log is false for values just above a power (see MANIFEST)",[I+"impl/math/logarithm.ipp",I+"impl/math/power.ipp",I+"impl/math/bytes.ipp"])
p("C50","Script evaluation with tagged stack values equals evaluation over byte strings","The interpreter keeps stack elements as booleans, integers or chunks; for every script, flags and starting stack it returns the same success/failure and the same stacks (as byte strings) as the reference interpreter in which every element is a byte string.","every script, initial stack, flag combination and signature oracle","all programs; product of element representations and operations; false for failing multisig with BIP66 (see MANIFEST)",[I+"impl/machine/interpreter.ipp",I+"impl/machine/program.ipp",I+"impl/machine/stack.ipp"])
p("C51","Output templates are the BIP byte templates","The P2SH, witness program, P2WPKH, P2WSH and P2TR recognisers accept a parsed script exactly if its bytes match the byte template of BIP16/BIP141/BIP341, and report the version and program in it.","every script byte string","all byte strings; patterns are evaluated on parsed operations, not bytes",["include/bitcoin/system/impl/chain/script_patterns.ipp","src/chain/script.cpp"])
p("C52","Input connection equals BIP16/141/341 verification","Connecting an input to its previous output succeeds exactly if the reference verification procedure (legacy, P2SH, nested and native segwit v0, taproot key and script path, annex) over the reference interpreter succeeds, for every flag combination and any cryptographic oracle; and no undefined access occurs.","every input script, previous output script, witness stack, flag set and oracle","all pairs of programs; false for a failing multisig with BIP66 (see MANIFEST)",["src/chain/transaction.cpp: connect","include/bitcoin/system/impl/machine/interpreter_connect.ipp","src/chain/witness.cpp: extract_script"])
p("C53","Coinbase height commitment is BIP34's",
"Where BIP34 is active a coinbase script is accepted for a height exactly if its bytes start with a size byte and the minimal little-endian script number of that height; no script is accepted for two heights, and single byte number opcodes are refused.",
"all coinbase scripts (any bytes) and all heights below 2^63",
"Bytes of the script and heights are unbounded; tests check a handful of heights.",
["src/chain/script.cpp: script::is_coinbase_pattern","src/chain/block.cpp: block::is_invalid_coinbase_script"])
p("C54","Contextual block check is exact",
"A block passes the contextual check exactly if, for the active forks: its weight is at most four million, its coinbase starts with the height, it refers to at most 4500 distinct hashes (BIP50), its witness commitment is BIP141's (last matching coinbase output, 32 byte reserved value, hash of the witness root and the reserved value; or no witness at all), and every transaction is final.",
"all blocks, contexts and activations",
"Any number of transactions, outputs and scripts; which of several commitment-like outputs counts and what follows the commitment bytes cannot be enumerated.",
["src/chain/block.cpp: block::check(ctx), is_invalid_witness_commitment, get_witness_commitment, get_witness_reservation, is_hash_limit_exceeded","include/bitcoin/system/impl/chain/script_patterns.ipp: is_commitment_pattern","src/chain/output.cpp: output::committed_hash"])
p("C55","Header acceptance in context is exact",
"header::accept over a chain state (built from the store or by promotion) accepts a header exactly if its signed version is at least every enforced minimum (BIP34/66/65 by supermajority of the last blocks, or by height with BIP90), its time is above the median of the last eleven, its bits are the required ones, and (BIP94) a retarget block is at most 600 seconds before its predecessor.",
"all header chains, heights, settings and fork configurations",
"Depends on the whole header history and on incrementally updated caches.",
["src/chain/header.cpp: header::accept","src/chain/chain_state.cpp: activation, work_required, median_time_past","include/bitcoin/system/chain/context.hpp"])
p("C56","Decimal amounts are exact",
"encode_base10(n, places) is the canonical decimal text of n / 10^places, decode_base10 of it returns n (also strictly), and decode_base10 accepts exactly decimal texts with at most one point whose scaled value, rounded up, fits 64 bits (strict: without rounding), and returns that.",
"every 64-bit amount, number of places and text","unbounded texts and 2^64 amounts",["src/radix/base_10.cpp"])
p("C57","Witness addresses are exact and error detecting",
"witness_address accepts exactly the texts of BIP173/BIP350 (unmixed case, at most 90 characters, last separator, prefix characters, checksum constant by version, program sizes); an address made from parameters encodes to a text that is read back as it; an accepted text is the encoding of what was read; changing one payload character to another is always rejected.",
"every text, prefix, version, program, position and replacement","unbounded product; false for over-long encodings and for over-long zero padding (see MANIFEST)",["src/wallet/addresses/witness_address.cpp","src/hash/checksum.cpp"])
p("C58","Hash functions are the published functions",
"sha1, sha224, sha256, sha384, sha512 (and 512/224, 512/256), rmd128 and rmd160, their double, pair, tagged and composed forms (bitcoin_hash, bitcoin_short_hash, tagged BIP340 hashes, streaming hash writers) return for every message of any length exactly the digest of FIPS 180-4 / the RIPEMD paper, in every build configuration of the portable code (compressed, vectorised or cached schedules).",
"every message, chunking and build option","the messages are unbounded and every internal shortcut (half blocks, cached padding, midstates) applies to only some lengths; tests use published vectors",[I+"impl/hash/sha/",I+"impl/hash/rmd/",I+"impl/hash/accumulator.ipp",I+"impl/hash/functions.ipp","src/hash/functions.cpp",I+"hash/hash.hpp"])
p("C59","Keyed hashes and key derivation are the RFC functions",
"hmac<A>::code and streamed hmac equal RFC 2104 for every key and message (long keys hashed, chunking irrelevant); pbkd<A>::key equals RFC 8018 PBKDF2 for every size, count, password and salt; hkdf extract and expand equal RFC 5869 for every permitted output size.",
"every accumulator based hash, key, message, salt, iteration count and output size","unbounded keys, messages, counts and sizes; false for hkdf outputs above 254 digests, where the loop does not end (see MANIFEST)",[I+"impl/hash/hmac.ipp",I+"impl/hash/pbkd.ipp",I+"impl/hash/hkdf.ipp"])
p("C60","A block view says the same as the parsed block",
"block_view over a wire buffer is valid exactly if the buffer starts with the serialisation of a block with transactions, inputs and outputs that the parser would read; then every accessor of every transaction view (version, locktime, counts, sizes, serialisations, hashes, table sizes, input/output/witness streams) and of the block view agrees with the parsed objects, and identify() and identify(ctx) return what the checks of the parsed block return.",
"every byte string, witness mode and hash function","all byte strings; two independent parsers must agree everywhere; false for trailing bytes and for a first transaction that is not a coinbase (see MANIFEST)",
["src/chain/views/block_view.cpp","src/chain/views/transaction_view.cpp","src/chain/transaction_cache.cpp: desegregated_hash"])
p("C61","Identity hashes do not depend on what is cached",
"Whatever hash()/get_hash() calls were made before and whether or not set_hashes() was called with the bytes the block was parsed from, a transaction's hash(false) is the hash of its serialisation without witnesses and hash(true) that of its serialisation with witnesses (zero for a coinbase with witnesses), and a header's hash that of its 80 bytes.",
"every transaction, block, hash function and history of calls","histories are unbounded and the cached path takes hashes from wire bytes by offsets, not from the objects; false if the block was parsed in another mode (see MANIFEST)",
["src/chain/transaction_cache.cpp","src/chain/block.cpp: set_hashes","src/chain/header.cpp: hash, get_hash"])
p("C62","Hierarchical deterministic keys are those of BIP32",
"hd_private from entropy is the BIP32 master key; derive_private(i) is CKDpriv for every index and derive_public(i) of an hd_public CKDpub (refusing hardened indices); children record depth, parent fingerprint and index and stop at depth 255; along any path of non-hardened indices publishing then deriving equals deriving then publishing; every constructor gives a key with its matching point or the null key; text of a key is read back to the same key.",
"every seed, key, chain code, index, path, prefix and text, over any group meeting the documented contract of libsecp256k1","keys, indices and paths are unbounded products; failure cases (scalar at or above the order, zero sum) have probability 2^-127 and are never met by a test; the checksum of the text is not verified (see MANIFEST)",
["src/wallet/keys/hd_private.cpp","src/wallet/keys/hd_public.cpp","src/crypto/secp256k1/keys.cpp","src/crypto/secp256k1/math.cpp"])
p("C63","Key and address texts are exact",
"payment_address accepts exactly the Base58Check texts of one version byte and 20 bytes, reads them as that address and re-encodes them to the same text; the address of a public or private key is the text of the hash160 of its serialised point; ec_public text is the base16 of the serialised point and is read back; ec_private accepts exactly WIF texts with a non-zero secret and its encoding is read back; output_script of an address is the standard script, from which extract gives the address back; minikeys are accepted exactly if well formed and give the sha256 secret.",
"every text, version, hash, point, secret and compression flag, over any group meeting the contract of libsecp256k1","unbounded texts and 2^256 keys; keys from entropy and secrets at or above the order are counterexamples (see MANIFEST)",
["src/wallet/addresses/payment_address.cpp","src/wallet/addresses/checked.cpp","src/wallet/keys/ec_public.cpp","src/wallet/keys/ec_private.cpp","src/wallet/mini_keys.cpp"])
p("C64","Script patterns are the standard forms",
"output_pattern of a script parsed from bytes is a pattern exactly if the bytes have that standard form (pay key hash, script hash, public key, multisig m of n, null data, the three witness programs); at most one form fits, so the order of tests is irrelevant; null, key hash, script hash, public key and multisig outputs are no input forms; input_pattern recognises exactly key hash and script hash inputs; the script builders produce the bytes of their form and are recognised; the tapscript multisig and threshold patterns never read outside the operations and hold exactly of their grammar.",
"every script byte string and operation list","scripts are unbounded and patterns overlap only on rare shapes; signature and multisig inputs are never recognised (see MANIFEST)",
[I+"impl/chain/script_patterns.ipp","src/chain/script_extract.cpp: pattern, output_pattern, input_pattern",I+"impl/chain/operation_patterns.ipp"])
p("C65","Scalar and point operators are field and group arithmetic",
"ec_scalar negation, sum, difference and product are arithmetic modulo the group order, and construction from an integer (including negatives) is the integer modulo the order; ec_point negation, sum, difference and product with a scalar are the operations of the curve group; sum of many points is their group sum; multiplying by scalars is an action compatible with the scalar product.",
"every scalar below the order and every point, over any group meeting the contract of libsecp256k1","2^256 scalars and points; zero and the point at infinity as left operands are counterexamples (see MANIFEST)",
["src/wallet/keys/ec_scalar.cpp","src/wallet/keys/ec_point.cpp","src/crypto/secp256k1/math.cpp"])
p("C66","Bit vectors hold exactly their bits",
"binary built from a text of zeros and ones, or from data and a bit count, holds exactly those bits (zero padded, last byte masked); any other text gives the empty vector; encoded() is the text of the bits and is read back as the same value; equality is equality of bits, order is lexicographic, and indexing below the number of bits gives that bit.",
"every text, data, bit count and index","unbounded; index positions past the padding read out of bounds (see MANIFEST)",
["src/stream/binary.cpp",I+"impl/math/bits.ipp: mask_right_into, get_left"])
p("C67","Stealth payments reach their receiver, stealth addresses survive their text",
"If a stealth sender makes a payment to the address of a stealth receiver, its script is null data that matches the filter and yields the ephemeral key, and from that key the receiver derives the same payment address and a secret whose public key hashes to it. Mining a script fails only if no nonce other than the starting one matches. Reading a stealth address never reads outside of its data, accepts exactly the documented layouts with their checksum, and reads back what is written for an address whose scan key appears at most once (first) among its spend keys.",
"every scan, spend and ephemeral secret, seed, filter, stealth address, data and text","secrets, filters and addresses are unbounded; a lost derivation is a lost payment",
["src/wallet/keys/stealth.cpp","src/wallet/addresses/stealth_address.cpp","src/wallet/addresses/stealth_sender.cpp","src/wallet/addresses/stealth_receiver.cpp"])
p("C68","Signed messages verify for their signer",
"A valid secret (or private key, or WIF text of one) signs every message; the signature is 65 bytes and verify_message accepts it for the address of the key in the form that was signed for. verify_message accepts exactly the signatures whose first byte is a header (27 + recovery id + 4 if compressed) and from which the key of the address hash is recovered for the digest of the message; the digest is the double SHA-256 of the documented preimage, which distinct messages do not share.",
"every message up to 2^60 bytes, secret, key, WIF text, address and signature","messages and keys are unbounded",
["src/wallet/message.cpp", "src/crypto/secp256k1/recover.cpp"])
p("C69","siphash is SipHash-2-4",
"siphash of a key and a message is SipHash-2-4 of the paper, for every key and every message length (whole and partial last words), and the key form of sixteen bytes reads its halves little-endian.",
"every key and every message below 2^63 bytes","message lengths are unbounded and the last word depends on the length modulo 8 and 256",
["src/hash/siphash.cpp", "include/bitcoin/system/hash/siphash.hpp"])
p("C70","scrypt is RFC 7914 scrypt",
"With the memory it asks for, scrypt<W, R, P>::hash of a password and a salt is scrypt(P, S, N, r, p, dkLen) of RFC 7914, for every accepted template argument, every output size and every order in which a concurrent build processes the blocks; Litecoin's scrypt_hash is scrypt with N = 1024, r = p = 1.",
"every password, salt, output size, work factor (power of two), block size, parallelism, processing order and both round forms","the in-place block mixing with R - 1 temporaries must hold for every R and every content; schedules are not controlled by tests",
["include/bitcoin/system/impl/hash/scrypt.ipp", "include/bitcoin/system/impl/hash/functions.ipp: scrypt_hash"])
p("C71","AES-256 block encryption is FIPS 197 and decryption is its two-sided inverse",
"For every 32 byte key and 16 byte block aes256::encrypt_ecb yields the FIPS 197 AES-256 ciphertext (S-box from the field inverse and affine map, key schedule, ShiftRows, MixColumns over GF(2^8), fourteen rounds); decrypt_ecb with the same key of any encryption returns the block, and encrypt_ecb of any decryption returns the block, so that each key is a permutation of blocks.",
"every key and every block","2^384 pairs of key and block; vectors fix a handful, and a wrong table entry or round constant is reached by few of them",
["src/crypto/aes256.cpp: aes256::encrypt_ecb, aes256::decrypt_ecb, aes256::initialize, expand_key, expand_key_inverse, mix_columns, shift_rows", "include/bitcoin/system/crypto/aes256.hpp: aes256"])
p("C72","BIP38 encrypted keys are the specified ones and decrypt to what was encrypted",
"encrypt produces, for a valid secret, the BIP38 non-multiplied key of that secret, passphrase, version and compression, with its checksum, and fails for an invalid secret; decrypt of that key with the same passphrase gives back the secret, version and compression. create_token produces the BIP38 intermediate code (with or without lot and sequence); create_key_pair produces from it and a seed the BIP38 multiplied private key and confirmation code, and the public point of the pair; decrypting the private key with the passphrase gives a secret of that point, and decrypting the confirmation code gives that point. Whatever key and passphrase are given, a secret that decrypt returns is valid, the key has its checksum and the hash in the key is that of the address of the secret. The text forms are read back exactly and nothing else is accepted.",
"all secrets, passphrases (after an arbitrary normalization), salts, lots and sequences in range, seeds, versions, compression flags, schedules of the scrypt lanes, and all curves with the contract of secp256k1","the space of secrets, passphrases and salts cannot be enumerated and a single vector costs seconds of scrypt",
["src/wallet/keys/encrypted_keys.cpp: encrypt, decrypt, create_token, create_key_pair", "src/wallet/keys/parse_encrypted_keys/parse_encrypted_key.ipp", "src/wallet/keys/parse_encrypted_keys/parse_encrypted_private.cpp", "src/wallet/keys/parse_encrypted_keys/parse_encrypted_public.cpp", "src/wallet/keys/parse_encrypted_keys/parse_encrypted_token.cpp", "src/wallet/keys/ek_private.cpp", "src/wallet/keys/ek_public.cpp", "src/wallet/keys/ek_token.cpp"])
p("C73","Screening filters have no false negatives",
"For every sequence of fingerprints added with screen to an empty sieve or bloom, is_screened holds afterwards for every one of them. A bloom screens exactly the fingerprints all of whose selected bits were selected by some added fingerprint; an empty filter screens nothing; adding a fingerprint changes the filter just when it was not screened, so is_collision of the values before and after tells that (or, for the sieve, saturation). One fingerprint in a sieve screens just those with the same screen bits, and the screens of every row split the screen bits evenly without overlap.",
"all filter parameters up to 64 bits (for the sieve: whose table offsets fit the value type), all histories of fingerprints, all fingerprints","the claim ranges over unbounded histories and 2^64 fingerprints; false negatives would show only for particular sequences",
["include/bitcoin/system/impl/filter/sieve.ipp: screen, is_screened, is_collision, masks, generate_masks, generate_offsets", "include/bitcoin/system/impl/filter/bloom.ipp: screen, is_screened, is_collision, get_bit"])
p("C74","Ring signatures: exact verification, signing closes the rings, and the signer is hidden",
"For every set of key rings, digest and signature with one proof for each key: verify accepts exactly if, walking around every ring from the challenge with the points s G + e Q and the hashes of the header's scheme, the last points hash with the digest to the challenge. A signature that sign makes is accepted, except exactly if some challenge hash met on the walk is zero or (but for the last) not below the group order. sign succeeds only if every secret is valid and there is a secret for a key of each ring, and it replaces at most one proof in each ring. Every accepted signature could, for some salts, have been made by any holder of secrets for all the rings, and digest is the SHA-256 of the message and all the keys.",
"all key rings of 33 byte keys, digests, secrets, salts, proofs and signatures of matching sizes, all build configurations of the hash, every group with the contract of libsecp256k1","Signer indistinguishability and exactness are statements over all keys, salts and hash values; tests sign and verify a few fixed rings.",
["src/crypto/ring_signature.cpp: digest, sign, verify", "include/bitcoin/system/crypto/ring_signature.hpp: ring_signature"])
p("C75","Batch verification of captured signatures reports exactly the bad blocks",
"The accumulator of captured ECDSA groups takes the first 65536 groups and declines any further one, visits what it took in order and unchanged, counts the rows that a store makes of it, and its own check succeeds exactly if every group is good in the sense of OP_CHECKMULTISIG (each signature has its own key, in order). For rows stored from such groups, batch verification returns ascending links without duplicates; each is the link of a block with a group that is not good, whatever order the threads take and whenever the work is cancelled; without cancellation every such block is reported. The same holds for Schnorr rows. Rows of the terminal link do not count.",
"all sequences of captures, all blocks of groups up to 16 keys, all orders of evaluation of the rows, all times of cancellation, all verdicts of the signature check","thread schedules, cancellation points and the combinatorics of m of n matrices are unbounded",
["src/crypto/secp256k1/batch.cpp", "include/bitcoin/system/crypto/secp256k1_batch.hpp", "include/bitcoin/system/chain/batch/signatures.hpp", "include/bitcoin/system/chain/batch/multisig.hpp"])
p("C76","Deferred signature verification accepts exactly what inline verification accepts",
"Connecting the inputs of a block with a capture context, so that signatures of batchable scripts are logged instead of checked, and then verifying the logs, accepts exactly if every input connects when each signature is checked in place. No capture, log overflow, fallback to inline, compression of keys or mix of captured and uncaptured inputs changes the verdict, and the log always decodes to whole groups that fit the 16-bit group number.",
"all lists of spends (all scripts, witnesses, flags), with capture enabled or not for each, all signature checks and digests of the standard sizes","the equivalence ranges over every script program and stack, over every pattern that opens a capture and over any number of inputs sharing one log; a test samples a few spends",
["include/bitcoin/system/impl/machine/program_batch.ipp", "include/bitcoin/system/impl/machine/interpreter_connect.ipp", "include/bitcoin/system/impl/machine/interpreter.ipp", "include/bitcoin/system/chain/batch/signatures.hpp", "src/chain/script_extract.cpp"])
p("C77","Coin selection meets the minimum with the fewest coins",
"points_value::select takes only coins of the list, none more often than it is there. Greedy selection takes none if the list is worth less than the minimum, and otherwise takes coins worth at least the minimum; no choice of fewer coins reaches a minimum that is not zero; if one coin suffices it takes exactly one, of the least value of those that do. Individual selection returns every coin that suffices alone, in ascending order. All of this whatever the order in which the standard library leaves what it may reorder, and although the sum of the values may pass 64 bits.",
"all lists of valued points, all minimums, all results that std::partition and std::sort may give","optimality ranges over all subsets of all lists and the order of ties is left to the standard library",
["src/wallet/points_value.cpp", "points_value::select", "points_value::greedy", "points_value::individual", "points_value::value"])
p("C78","Up to four wrong characters of a witness address are detected",
"If a witness address text is accepted, no text obtained from it by changing one to three characters of the data part (other than by letter case) is accepted; nor by changing four, unless the version character is exchanged between version 0 and another version. Equivalently two different accepted addresses with one prefix and length differ in at least four characters, and in at least five if both or neither are version 0; four is attained by a version 0 and a version 1 address.",
"every accepted address, every set of up to four positions, every replacement","some 10^13 pairs of error patterns for each of infinitely many payloads",
["src/hash/checksum.cpp:bech32_checksum", "src/hash/checksum.cpp:bech32_verify_checked", "src/wallet/addresses/witness_address.cpp:parse_address"])
p("C79","Captured signatures stay with their thread under any schedule",
"For any number of threads capturing signatures, reading and clearing their accumulators and calling signatures::purge, under every interleaving: what a thread reads is exactly what it appended since its last clear (or purge), in order; every thread with an accumulator is registered exactly once; no two threads are at the registry at once; no schedule deadlocks. If callers exclude capture during purge, as the header demands, every accumulator of every thread is empty when purge has run, and if threads with accumulators live on, purge never touches one in use or destroyed. Without either promise it can.",
"every number of threads, every interleaving of their steps, every history of calls","schedules cannot be enumerated by tests",
["src/chain/signatures.cpp:ecdsa_rows", "src/chain/signatures.cpp:schnorr_rows", "src/chain/signatures.cpp:purge", "include/bitcoin/system/chain/batch/signatures.hpp"])
p("C80","Electrum v2 seed generation finds the first suitable entropy, and its seed is the standard one",
"Constructing an electrum mnemonic from 17 to 64 bytes of entropy for one of the four wallet versions gives the first entropy in the chain (the given bytes, then repeatedly SHA-512 of the last, each cut to whole 11-bit words with zero padding) whose words have an HMAC-SHA512 under \"Seed version\" that begins with the version number and are accepted neither as English Electrum v1 words nor as a BIP39 mnemonic, provided it comes within the grind limit; otherwise the instance is invalid. The words spell the entropy bits exactly, the entropy so found reproduces the same instance with any limit, no phrase is of two versions, other sizes, languages and prefixes are refused, and the seed is PBKDF2-HMAC-SHA512 of the phrase with 2048 rounds and the salt \"electrum\" plus passphrase.",
"all entropies of 17 to 64 bytes, the four versions, all ten languages, all grind limits, all passphrases, all normalizations that do not lengthen a phrase","a test grinds a handful of entropies; that no earlier entropy in the chain was skipped or wrongly accepted, that every size between 17 and 64 bytes keeps its bits, and that no phrase falls under two versions are statements about all of them",
["src/wallet/mnemonics/electrum.cpp: electrum::grinder, electrum::validator, electrum::from_entropy, electrum::usable_size, electrum::unused_bits, electrum::is_ambiguous, electrum::is_conflict, electrum::to_seed, electrum::seeder", "include/bitcoin/system/wallet/mnemonics/electrum.hpp"])
p("C81","Electrum v2 mnemonics are restored from their words",
"Writing down the words of a generated electrum instance and constructing from them in the same language gives the same entropy, words, language and prefix; from 12 to 46 words of one list the constructor gives the entropy they spell and the version of the phrase (Electrum v1 words and BIP39 mnemonics being reported as such), and to_prefix and is_prefix agree with it.",
"all instances generated from any entropy with any grind limit in any of the ten languages, and all lists of 12 to 46 words","the exceptions (words of a phrase that all lie in another list too) are too rare for tests to hit",
["src/wallet/mnemonics/electrum.cpp: electrum::from_words, electrum::normalized_to_prefix, electrum::to_prefix, electrum::is_prefix, electrum::decoder"])
p("C45","A bitcoin URI reads back as written, and only well formed ones are accepted",
"The text of any bitcoin_uri a program can hold (constructed, read from text, changed by setters given well formed addresses) is accepted and reads back with the same address, amount, label, message, request and parameters, whatever characters they hold. A text is accepted exactly if its scheme is bitcoin in any case, it has no fragment, at most one of authority and path, which is a valid payment or stealth address, an exact decimal amount below 2^64 satoshi if any, and no parameter beginning with req-; the last of repeated parameters counts and unknown ones are ignored. Each setter changes only what it sets, and the amount is always defined.",
"every text, every history of setters, every library of URLs that reads back what it built","texts and histories of setters are unbounded",
["src/wallet/addresses/bitcoin_uri.cpp: bitcoin_uri", "src/wallet/addresses/uri.cpp: decode, decode_query, encode_query", "include/bitcoin/system/wallet/addresses/uri_reader.hpp: parse"])
p("C82","What it takes to spend the standard outputs",
"Connecting an input to a P2PK, P2PKH, P2WPKH (native or nested), or m-of-n multisig output (bare, in P2SH, in P2WSH, or in P2WSH in P2SH), with the usual input script and witness, succeeds exactly if the key or script has the committed hash and each signature is a valid signature of one of the keys, m of them in the order of the keys, on the transaction's hash for the script code (and, with BIP147, the dummy is empty). Whatever the input script: a P2PKH output is spent only with a key of that hash and a signature of it, a P2SH output only with a redeem script of that hash, a P2WSH output only with a witness script of that hash, an m-of-n output only with m matching signatures.",
"every transaction, hash, key, signature, m, n up to 16, flags, and any signature and hash oracle","all scripts and witnesses; the only-if direction ranges over every possible input script",
["src/chain/transaction.cpp: connect", "include/bitcoin/system/impl/machine/interpreter_connect.ipp", "include/bitcoin/system/impl/machine/interpreter.ipp: op_check_sig, op_check_multisig_verify", "include/bitcoin/system/impl/chain/script_patterns.ipp"])
p("C83","What the library signs it accepts: ECDSA signing, endorsements and spending",
"ecdsa::sign with a valid secret produces, for every digest, a signature that ecdsa::verify_signature accepts with the public key of that secret (compressed or not) and whose s is the smaller one; an invalid secret signs nothing. verify_signature accepts exactly the textbook ECDSA signatures, with either value of s, so that with (r, s) also (r, n - s) is accepted. transaction::create_endorsement produces for every valid secret, input and hash type the strict DER encoding of such a signature followed by the hash type, at most 73 bytes, which decodes (strictly or not) to it and which check_signature accepts. The hash that is signed does not depend on input scripts, witnesses or cached hashes, so that endorsements created on an unsigned transaction, put into its inputs, make interpreter::connect succeed for P2PKH, P2PK, P2WPKH, P2WPKH in P2SH, bare multisig and P2WSH multisig outputs.",
"all secrets, digests, transactions, input indexes, hash types, subscripts, m-of-n combinations and cache states, over every group and encoding that meets the contract of libsecp256k1","Tests sign a few fixed transactions; that every signature by every key over every hash type is accepted by the script interpreter needs the algebra of the scheme and the independence of the hash from the signatures.",
["src/crypto/secp256k1/ecdsa.cpp: sign, verify_signature, normalize_signature, encode_signature", "src/chain/transaction.cpp: create_endorsement, check_signature", "include/bitcoin/system/impl/machine/interpreter_connect.ipp"])
p("C84","Taproot outputs are spent by a signature of the output key or by a script of the tree",
"A Schnorr signature is accepted exactly if it is a BIP340 signature of the key; every valid secret signs every digest and what it makes is accepted. With one witness element (besides an annex), and BIP341 active, a version 1 output of 32 bytes is spent exactly if the input script is empty and the element is a signature of the output key (64 bytes, or 64 and one of the six hash types); in particular the signature the library makes of the hash it computes for the unsigned transaction spends it. A script of a tree, with its control block, spends an output whose key is the internal key tweaked by the root of the tree exactly if it evaluates to true (for unknown leaf versions, always); a leaf `<key> CHECKSIG` exactly if the argument is a signature of the key for that leaf. With the internal key and the parity of the output nothing else is accepted: the script is a leaf of the tree, at its place, or a collision of the tagged hashes is at hand.",
"all keys, secrets, digests, transactions, script trees of any shape, leaf versions, control blocks, arguments and witnesses; for every group that meets the contract of libsecp256k1","trees, control blocks, witnesses and signatures are unbounded; exclusion (nothing else spends) cannot be tested",
["src/crypto/secp256k1/schnorr.cpp:sign,verify_signature,verify_commitment", "src/chain/taproot.cpp:leaf_hash,branch_hash,tweak_hash,verify_commit,merkle_root", "src/chain/witness_extract.cpp:extract_taproot", "include/bitcoin/system/impl/machine/interpreter_connect.ipp:connect", "src/chain/transaction_sighash_v1.cpp"])
p("C85","Configuration values are read back from their text",
"A version, a byte, a hash, data in base 16, 32, 58, 64 or 85, bits, an output point, a checkpoint, a script, a transaction, a header or a block written to a stream is read back from that text as the same value, whatever whitespace precedes it and whatever follows it after whitespace; numbers that do not fit are refused. Versions are ordered segment by segment. A height is at a checkpoint, or under the checkpoints, exactly when one of the checkpoints has that height, or that height or a greater one; a block conflicts only if a checkpoint of its height has another hash. (Inputs and outputs are never read back: see the counterexamples.)",
"all values of each type, all streams that contain the text of one, all lists of checkpoints, heights and hashes","The values are unbounded and the text may be embedded in any stream; tests read a few literals, and the two types whose text is never read back have tests only of the reading.",
["src/config/version.cpp: operator>>, operator<<, operator<", "src/config/byte.cpp", "src/config/hash160.cpp", "src/config/hash256.cpp", "src/config/base2.cpp", "src/config/base16.cpp", "src/config/base32.cpp", "src/config/base58.cpp", "src/config/base64.cpp", "src/config/base85.cpp", "src/config/point.cpp: decode_point, encode_point", "src/config/input.cpp: decode_input, encode_input", "src/config/output.cpp: decode_output, encode_output", "src/config/script.cpp", "src/config/transaction.cpp", "src/config/header.cpp", "src/config/block.cpp", "src/chain/checkpoint.cpp: is_at, is_under, is_conflict, operator>>, to_string", "include/bitcoin/system/impl/serial/deserialize.ipp: deserialize"])
p("C86","Network addresses are read back from their text and match as documented",
"A word is read as an endpoint, URL or authority exactly if it has the documented form (host name, dotted or bracketed address; port 1-65535 without leading zeros; prefix not longer than the address; one of five schemes), with the parts it shows. Endpoints, URLs and authorities made by the constructors are read back from their text, authorities whenever the text of the IPv6 address has no points. Two authorities match exactly if their ports are equal or one has none and they are the same address and prefix or one is a host in the network of the other; matching is reflexive and symmetric.",
"all streams, hosts, addresses, ports, prefixes and schemes; every implementation of the address text functions that reads back what it writes","Texts and addresses are unbounded in number; the grammar has overlapping alternatives (a bracketed text is also a name), so that every text is read in one way only needs an argument over all texts.",
["src/config/utilities.cpp: parse_host, parse_authority, parse_url, parse_endpoint, denormalize, to_host, to_literal, is_member", "src/config/authority.cpp: operator==, operator>>, operator<<", "src/config/endpoint.cpp: to_string, operator>>", "src/config/url.cpp: operator>>, operator<<"])
p("C87","Bit operations",
"For values of every width: shift_left is multiplication by a power of two with the high bits dropped and shift_right is unsigned division, giving zero at the width and beyond (or taking the distance modulo the width if overflow is false); get_left/get_right read the bit at an offset and false outside; set_left/set_right change that bit and no other; mask clears and unmask keeps the given number of bits at an end and the two split the value; rotate_left/rotate_right move every bit by the distance modulo the width, for signed and unsigned values and any size_t distance, and undo each other; the constant rotations of the hash functions are these rotations; pack_word/unpack_word/hi_word/lo_word split a value in its two halves and back, also for negative words. Rotation by a run time parameter is undefined for a zero distance at 32 and 64 bits (counterexample).",
"every value, every width (a divisor of 2^32 for rotation), every distance or offset, signed and unsigned","the tests use some literals at some widths; wrap-around of the distance, offsets outside of the value and sign extension are for all values",
["include/bitcoin/system/impl/math/bits.ipp: shift_left shift_right bit_left bit_right get_left get_right set_left set_right mask_left mask_right unmask_left unmask_right rotate_left rotate_right hi_word lo_word pack_word unpack_word", "include/bitcoin/system/impl/math/rotate.ipp: rotl rotr", "include/bitcoin/system/intrinsics/rotate.hpp: rotl_nominal rotr_nominal"])
p("C88","Byte order conversions",
"to_big_endian/to_little_endian of an integral give the bytes of its value in that order, the same at compile time (unrolled shifts), at run time (byte swap and cast) and in the streams and pointers, on little and big endian machines; from_big_endian/from_little_endian read the value of the first sizeof bytes, and they undo each other across machines; reads at an offset and writes at an offset touch those bytes only; an integer of two or more bytes (any width, as uint256_t) fills data of any size with its value modulo that size (sign extended), and reads data of any size; byteswap reverses the bytes; a short stream reads as followed by zeros; unsafe_from_variable reads back every variable integer written; arrays of words convert word by word; a hash read by to_uintx is the integer of its little endian bytes, ordered as that, and from_uintx gives the hash back. One byte integers do not fill longer data (counterexample).",
"every integer, width, byte order of the machine, data of any size, offset, stream","the tests run on one machine with a few literals",
["include/bitcoin/system/impl/endian/integers.ipp: to_big_data to_little_data from_big_array from_big_chunk from_little_array from_little_chunk", "include/bitcoin/system/impl/endian/integrals.ipp: to_big to_little from_big from_little", "include/bitcoin/system/impl/endian/nominal.ipp", "include/bitcoin/system/impl/endian/minimal.ipp", "include/bitcoin/system/impl/endian/uintx_t.ipp", "include/bitcoin/system/impl/endian/swaps.ipp", "include/bitcoin/system/impl/endian/stream.ipp", "include/bitcoin/system/impl/endian/unsafe.ipp: unsafe_from_variable", "include/bitcoin/system/impl/endian/batch.ipp", "include/bitcoin/system/impl/math/byteswap.ipp", "include/bitcoin/system/impl/math/bytes.ipp: byte"])
p("C89","JSON of chain objects",
"Points, checkpoints, outpoints, headers, operations, scripts and witnesses are read back from their JSON, both from the JSON value in memory and from the value parsed from its text. An input is read back exactly if it has a witness object; an output in memory always, from text exactly if its value is at least 2^63 (so never for money); a transaction or a block in memory exactly if all inputs have a witness object. In the bitcoind form the hex of a transaction is the base16 of its serialization, of exactly the size beside it, and reads back as the transaction; inputs name txid, vout, script, sequence and witness elements; a coinbase has only its script; outputs are numbered by position.",
"every chain object with faithful script text (operations consistent, no underflow), every digest function, every transaction that is writable and below 2^63 bytes for the hex form","Tests convert a few default objects; that every object survives, and precisely which do not, ranges over all scripts, witnesses, amounts and lists.",
["src/chain/json/*.cpp"])
p("C90","Native SHA-256",
"A build that uses the SHA-256 instructions of the processor (x86 SHA-NI or ARMv8 crypto) computes the same as FIPS 180-4: one block and any number of blocks transform any state as the standard's compression, any message hashed in one call or in chunks, once or twice, has the standard's digest, also for SHA-224, for pairs of 32 byte hashes and for one byte. A pair of 16 byte values has the standard digest of their concatenation.",
"both instruction sets, every state, every list of blocks, every message and partition below 2^61-512 bytes, every pair, every byte","Tests run on one processor with sample messages; that the register shuffles, message schedule and four-round instructions agree with the standard must hold for every state and block on each instruction set.",
["include/bitcoin/system/impl/hash/sha/algorithm_native.ipp", "include/bitcoin/system/impl/intrinsics/intel/intel_sha.hpp", "include/bitcoin/system/impl/intrinsics/neon/neon_sha.hpp"])
p("C91","Merkle roots are the same in every build",
"Whatever is compiled in - native SHA-256 instructions, registers of 128, 256 and 512 bits in any combination, vectorized message schedules - the Merkle root of any list of digests is the Merkle root by double SHA-256 of FIPS 180-4 of the concatenated pairs (the null hash for no digests), and one level replaces the pairs by their double hashes although the same memory is read as blocks and overwritten with digests. The lanes of a register hash their own blocks, independent of each other and of earlier content.",
"every build, every list of 32 byte digests, every number of lanes, every buffer content","Tests run one build with some numbers of leaves; that the lanes do not mix, that in place overwriting never destroys an unread digest and that leftovers of each width are completed must hold for every list length and every combination of widths.",
["include/bitcoin/system/impl/hash/sha/algorithm_merkle.ipp", "include/bitcoin/system/impl/hash/sha/algorithm_iterate.ipp", "include/bitcoin/system/hash/sha/algorithm.hpp"])
p("C92","A hex reader of a text is a byte reader of the bytes it encodes",
"For every base16 text that decodes, in upper or lower case, any sequence of reader operations (read, peek, skip, rewind, position, exhaustion, validity, limits, invalidate), each depending on the earlier results, ends valid over the text exactly when it ends valid over the decoded bytes, and then with the same result at the same logical position. On an arbitrary text a read of n bytes succeeds exactly when the reader is valid, the limit allows and the next 2n characters exist and are hexadecimal, and gives their decoding. A hex writer writes, in however many pieces, the encoding of the concatenation, and what it wrote reads back as written.",
"all texts and data below 2^62 bytes, all adaptive operation sequences, all limits and sizes below 2^62, all write partitions","unit tests run a few operations on short literals; the agreement of two readers under arbitrary interleavings of limits, rewinds and failures is a simulation over all programs",
["include/bitcoin/system/impl/stream/streamers/hex_reader.ipp: do_read_bytes, do_peek_byte, do_skip_bytes, do_rewind_bytes, set_limit, get_read_position", "include/bitcoin/system/impl/stream/streamers/hex_writer.ipp: do_write_bytes"])
p("C93","A writer over a fixed buffer stays inside it and holds exactly what fits",
"Whatever sequence of writes, reads, peeks, skips, rewinds, absolute positionings, limits and invalidations is made on a writer or flipper over a buffer in memory, no byte outside the buffer changes and the position stays within the buffer. A sequence of writes ends valid exactly when everything fits; the buffer then holds the concatenation followed by its former content, and otherwise exactly the writes before the first that did not fit. In particular a transaction written in any pieces fills a buffer of its serialized size with its serialization. What was written to a flipper is read back after rewinding. A skip or rewind of a valid flipper and an absolute position are valid exactly if they stay inside the buffer (and a skip inside the limit) and go where they should; a peek is the next byte and moves nothing. A growing sink appends everything up to its capacity.",
"all memories, buffers, adaptive operation sequences, data and write partitions","unit tests write a few values to small buffers; confinement to the buffer is an invariant of every operation sequence, including failing and resumed ones",
["include/bitcoin/system/impl/stream/iostream/ostream.ipp: write, is_overflow", "include/bitcoin/system/impl/stream/iostream/iostream.ipp: write, read, peek, seekg", "include/bitcoin/system/impl/stream/streamers/byte_writer.ipp: do_write_bytes, get_write_position", "include/bitcoin/system/stream/devices/push_sink.hpp: do_write", "include/bitcoin/system/impl/stream/device.ipp: write"])
p("C94","Unicode normalization forms and case conversion",
"For every text, to_canonical_decomposition and to_compatibility_decomposition produce exactly the standard's full decomposition in canonical order, and to_canonical_composition and to_compatibility_composition exactly the standard's canonical composition of it (each the only result the standard's algorithms allow with the library's character data): decomposition terminates and leaves nothing to decompose, ordering exchanges only reorderable pairs and leaves none, and the composition loop agrees with the standard's blocking rule. Normalizing again changes nothing; composing a decomposed text and decomposing a composed one agree with doing so directly; two texts have equal composed forms exactly if they have equal decomposed forms; the ASCII shortcut gives what the algorithms give. to_lower and to_upper work character by character from their tables, and applying them again changes nothing.",
"every sequence of code points (any length, any 32 bit values and beyond), both kinds of decomposition, both forms","Texts are unbounded and the interactions (blocking, chains of compositions, order of marks, Hangul arithmetic, recursion over a table) cannot be enumerated: idempotence is a statement on all of them, and depends on relations between four independent tables.",
["src/unicode/normalization.cpp: to_canonical_composition, to_canonical_decomposition, to_compatibility_composition, to_compatibility_decomposition, to_lower, to_upper, decompose_one, canonical_order, composition_lookup, compose, normal_form", "src/unicode/unicode_tables.cpp: decomposition_index1, decomposition_index2, decomposition_pool, composition_pairs, case_fold_pairs, upper_pairs", "src/unicode/code_points.cpp: combining classes"])
p("C95","Byte slices, byte arrays and collection utilities",
"A data_slice or data_slab made of memory (of a size, a literal or iterators in any order) is inside it; indexing, front, back, to_array, to_chunk, to_string and comparison never read outside the slice and give its bytes, with zeros past its end; resize only shortens, keeping the first bytes; slices are equal exactly if their bytes are. build_array is the concatenation cut or zero padded to the size, build_chunk the concatenation; slice, splice and split are inverse; xor_data and xor_offset work byte by byte and undo themselves. binary_search of a sorted list reads only its elements and finds an equivalent element exactly if there is one; insert_sorted keeps the list sorted with the new element after its equals; sort, distinct, is_distinct, difference, is_intersecting, part, starts_with, find_position and pop do what their names say.",
"every memory, slice, size and index; all lists of byte strings; all lists over any type with any strict weak (or total) order","Out of range reads and off by one errors depend on sizes and positions; searching and sorting must be right for every list and every order.",
["include/bitcoin/system/impl/data/data_slice.ipp: from_size, from_literal, from_iterators, to_array, resize, operator[], operator==", "include/bitcoin/system/impl/data/data_array.ipp: build_array, slice, splice, split, xor_data, xor_offset", "include/bitcoin/system/impl/data/collection.ipp: binary_search, insert_sorted, is_distinct, distinct, difference, is_intersecting, part, starts_with, find_position, pop", "src/data/data_chunk.cpp: build_chunk, splice"])
p("C96","Text utilities: joining, splitting, trimming, replacing",
"starts_with and ends_with say exactly that. split at a delimiter without trimming cuts at each first occurrence: the tokens joined give the text back and none contains the delimiter; tokens without a one character delimiter are recovered from their join. replace is splitting at the one text and joining with the other, and its count is of the occurrences. trim, trim_left and trim_right remove sequences of the trim tokens from the ends and leave a text that neither starts nor ends with one. split at several one character delimiters gives exactly the parts between them, and with the same characters trimmed and compression (the default split(text) of whitespace) exactly the maximal parts without them, or one empty token.",
"every text, every delimiter and trim token of any length that is not empty, every list of tokens","Texts and delimiters are unbounded and overlap in arbitrary ways (partial matches, delimiters inside replacements, trimming that uncovers more to trim).",
["src/data/string.cpp: join, reduce, replace, split, splitter, trim_left, trim_right, trim, ends_with, starts_with"])
p("C97","Text conversion and text streams: whole characters, whatever the split",
"Converting a byte text to code points succeeds exactly if the bytes are the UTF-8 encoding of Unicode scalar values, and then yields those, so a text has one set of bytes and bytes at most one text. The remainder of a text cut at any byte is exactly the bytes of its last, incomplete character. A text stream buffer of any size, given the bytes of a text by any history of writes and flushes, never stores a byte outside its buffer, passes on the wide characters of the text in order and unbroken, keeps the bytes it has not passed on, and after a flush keeps nothing but the beginning of one character; a whole text is wholly passed on. Reading through the buffer yields the bytes of the whole text, however many characters each read of the underlying stream returns.",
"all byte strings and code point sequences; all buffer sizes; all histories of byte writes and flushes; all sequences of read sizes; both widths of wide character","the split of a text over buffers, flushes and reads is chosen by the caller and the operating system; a bug shows only when a boundary falls inside a character",
["src/unicode/conversion.cpp", "src/unicode/utf8_everywhere/environment.cpp:utf8_remainder_size", "src/unicode/utf8_everywhere/environment.cpp:to_utf16", "src/unicode/utf8_everywhere/unicode_streambuf.cpp:overflow", "src/unicode/utf8_everywhere/unicode_streambuf.cpp:underflow"])
p("C98","Text forms and the normalized texts of an Electrum seed",
"The compressed form of any text is its words (maximal parts without ASCII whitespace) with one space between them, and none between two characters of Chinese, Japanese or Korean script; it does not depend on the blanks before, after and between words, and the compressed form of a compressed form is itself. The forms without combining characters and without diacritics keep exactly the other characters, in order. The normalization forms and case folding of a byte text are the bytes of the forms of its characters: no valid text is lost in conversion. So the passphrase of an Electrum seed is, for every text, its compatibility decomposition, case folded, without combining characters and compressed, and the sentence is its words without combining characters, compressed.",
"all texts, as sequences of Unicode scalar values of any length; all word lists","the forms decide whether a wallet's passphrase yields its keys; texts of all scripts and spacings cannot be enumerated",
["src/unicode/normalization.cpp:to_compressed_form", "src/unicode/normalization.cpp:to_non_combining_form", "src/unicode/normalization.cpp:to_non_diacritic_form", "src/unicode/normalization.cpp:has_whitespace", "src/wallet/mnemonics/electrum.cpp:seeder", "src/wallet/mnemonics/electrum.cpp:validator"])
p("C99","A QR code image is a readable picture of exactly its modules",
"The image written for a coded text is a valid bilevel TIFF file: a reader that follows the TIFF specification finds a square picture whose width is the width of the code times the scale plus twice the margin, in which a pixel is black exactly when it lies in a black module, with a white margin, and with rows padded to bytes. An image is written exactly for a positive width and whole rows of data; no image is written without a code, above version 40, or when the width does not fit 16 bits.",
"all square codes (any modules, any width whose area fits 32 bits), all scales and margins, all data and widths given to the image writer","tests compare a few fixed images byte by byte; the geometry must be right for every width, scale, margin and alignment of rows to bytes",
["src/wallet/addresses/qr_code.cpp:encode", "src/wallet/addresses/qr_code.cpp:to_pixels", "src/wallet/addresses/tiff.cpp:to_image"])
p("C100","Property trees are written as JSON for exactly their value",
"A property tree (null, booleans, numbers, strings, arrays, objects, nested to any depth) written as JSON, on one line or indented, is read by a reader of the JSON grammar as exactly the value the tree stands for, with the order and names of members kept; so different values have different texts. Written as XML it is the elements, and written indented as info the words, that the tree stands for. In every format the stream is set to failed exactly when some number in the tree was out of the accepted range, and a number is accepted exactly if it is exactly representable by every JSON reader.",
"all property trees of any depth and size, both layouts, all integers of 64 bits","tests write a few small trees; separators, brackets, indentation and failure must be right for every shape and depth",
["src/serial/props.cpp:props::write", "src/serial/props.cpp:props::from_number", "include/bitcoin/system/serial/props.hpp"])
p("C101","Payment addresses of scripts",
"payment_address::extract_output gives, for every script of the pay-key-hash or pay-script-hash form, the address of the hash it pays with the given prefix, and an invalid address for every other script. extract_input gives, for every input script that reveals a redeem script (and is not a signature and a public key), exactly the address of the script hash output it spends; extract gives the output address for every script that cannot be an input. For a signature-and-key input the address ought to be that of the key.",
"for every script (any bytes below 2^63), every redeem script up to 100000 bytes, every prefix pair","Unit tests try a few scripts; the property ranges over all byte strings, all push encodings and all positions of the last push.",
["src/wallet/addresses/payment_address.cpp: payment_address::extract, extract_input, extract_output", "src/chain/script_extract.cpp: input_pattern, output_pattern"])
p("C102","Unspendable outputs and dust",
"If script::is_unspendable() is true of an output's script, then no input script, witness, transaction and set of active forks makes the connection of an input to that output succeed. is_unspendable is true exactly of the scripts whose first byte is a reserved or invalid operation code or which begin with a push that is cut short, hence of every standard data (OP_RETURN) output. transaction::is_dusty(minimum) is true exactly if some output pays less than the minimum to a script whose first operation does not fail; it is monotone in the minimum.",
"for every output script, every spending input, witness, flags and cryptographic functions; every transaction and minimum value","The claim 'cannot be spent under any circumstance' quantifies over all possible spenders, which no test can try.",
["src/chain/script.cpp: script::is_unspendable", "src/chain/output.cpp: output::is_dust", "src/chain/transaction.cpp: transaction::is_dusty", "include/bitcoin/system/impl/chain/operation_patterns.ipp: is_reserved, is_invalid"])
p("C103","Time-locked outputs cannot be spent early",
"With the lock's rule active, connecting an input to an output whose script, redeem script, witness script or tapscript leaf starts with a number and CHECKLOCKTIMEVERIFY succeeds only if that number has at most five bytes, is not negative, is of the kind of the transaction's lock time (height below 500000000, else time) and not above it, and the input's sequence is not final; with CHECKSEQUENCEVERIFY only if it has at most five bytes, is not negative, and unless its bit 31 is set the transaction has version 2 or more, the input's sequence has bit 31 clear, the same bit 22 and low 16 bits not below those of the number. An output that is only the lock is spent by an empty input exactly under those conditions. Through the transaction API the compared values are the lock time and version of the spending transaction and the sequence of its input.",
"all locks of both kinds, all pushed numbers, all rests of the script, all inputs, witnesses, lock times, sequences and versions, all four kinds of output","a test tries a few heights; an off-by-one, a swapped field or a forgotten kind check lets some lock be skipped for some values only",
["include/bitcoin/system/impl/machine/interpreter.ipp:op_check_locktime_verify", "include/bitcoin/system/impl/machine/interpreter.ipp:op_check_sequence_verify", "include/bitcoin/system/impl/machine/interpreter_connect.ipp"])
p("C104","Wallet values are read back from text streams",
"Payment addresses, public keys, private keys, encrypted private and public keys, stealth addresses and witness addresses (of at most 90 characters) that were written to a stream one after another with any whitespace between are read back by as many extractions in the same order; a private key comes back with its secret, form and version but with the mainnet address version. An extraction of a payment address, private key or encrypted key throws exactly if the next word of the stream is not the text of one. Extraction of an encrypted token or a hierarchical deterministic key ignores what it reads and leaves its target unchanged (a defect that is proved).",
"all lists of values, all amounts and kinds of whitespace before, between and after them, all words, all targets","the result depends on where each extraction leaves the stream and on every text; a test reads one value from one string",
["src/wallet/addresses/payment_address.cpp:operator>>", "src/wallet/keys/ec_public.cpp:operator>>", "src/wallet/keys/ec_private.cpp:operator>>", "src/wallet/keys/ek_private.cpp:operator>>", "src/wallet/keys/ek_token.cpp:operator>>", "src/wallet/keys/hd_private.cpp:operator>>", "src/wallet/keys/hd_public.cpp:operator>>", "src/wallet/addresses/stealth_address.cpp:operator>>", "src/wallet/addresses/witness_address.cpp:operator>>"])
p("C105","The hash of an accepted block commits to every byte of it",
"If two blocks pass block.check(identity) and their headers have the same hash, then the headers are the same and the transactions are, in order, the same up to their witnesses; if both also pass the witness commitment rule, the blocks have the same complete wire form, so two byte strings that are read completely as such blocks and whose first 80 bytes have the same hash are the same bytes. The only way out is explicit: among the messages hashed while the two blocks are checked (headers, transactions, joined tree nodes, the witness root joined with the reserved value) there are two different ones with the same digest, or one whose digest is zero from the sixth byte on (the 216 bits that the comments in block.cpp call infeasible: a tree node in the place of the coinbase). In particular neither the repetition of trailing transactions (CVE-2012-2459) nor the reading of inner nodes as transactions of 64 bytes gives a second accepted block.",
"all pairs of blocks or byte strings below 2^63 bytes, any number of transactions, any digest function, any validation context","The attack space is all pairs of blocks of any size and shape, with trees of different depth; tests hold a few published mutations.",
["src/chain/block.cpp: block::check, block::identify, is_invalid_merkle_root, is_first_non_coinbase, is_malleated64, is_internal_double_spend, is_invalid_witness_commitment", "src/chain/transaction_cache.cpp: transaction::hash", "include/bitcoin/system/impl/hash/sha/algorithm_merkle.ipp: merkle_root"])
p("C106","Lists of values are read back from their text",
"deserialize of a vector reads exactly the words of the text, however they are separated by whitespace, and succeeds when each of them is read; so serialize followed by deserialize gives the list back when it is not empty and each element has a text that is a word: numbers below the limit of their type (a list with a greater number is refused) and data that is not empty. Read into an array, the list replaces as many elements as it has, if the array has room for them. (An empty list, empty data in a list, and lists longer than the array are not read back: see the counterexamples.)",
"all lists of any length, all elements, all texts, all arrays","Lists and texts are unbounded and the separators arbitrary; tests read a few literals and none with a wrong number of words.",
["include/bitcoin/system/impl/serial/serialize.ipp: serialize", "include/bitcoin/system/impl/serial/deserialize.ipp: deserialize", "src/data/string.cpp: join, split"])
p("C107","Pseudo random values stay in their ranges",
"pseudo_random::next(begin, end) is between begin and end, both included, and zero if begin is above end; a byte likewise, if begin is not above end; fill defines every byte and keeps the size. duration(expiration, ratio) of a duration that is not negative is at most the given one and less than it by at most its part expiration / ratio, up to one millisecond, does not overflow, and every millisecond of that range can be drawn; with a ratio of zero it is the duration given.",
"all ranges, all durations of 64 bits, all ratios, all behaviors of the random engine within its contract","The engine is seeded by the clock and cannot be injected (the code says so), so a test sees one draw of about 2^64.",
["src/crypto/pseudo_random.cpp: next, fill, duration", "include/bitcoin/system/crypto/pseudo_random.hpp: next"])
p("C108","Array casts are views of the same bytes",
"array_cast of a whole array to another integral has exactly the same bytes in memory and the cast back is the array; a cast of a part, from an offset, compiles exactly when it stays inside the array and has the bytes there. A value assigned to a cast is read back from it and changes no other byte of the array. byte_cast of an integral and back is the integral, and of bytes and back the bytes. unsafe_vector_cast of bytes gives arrays that follow each other without gaps or overlap.",
"all arrays of all lengths, offsets and counts, integrals of 8 to 64 bits, both byte orders","The contents, lengths and widths multiply; tests cast a few arrays on a machine of one byte order.",
["include/bitcoin/system/impl/data/array_cast.ipp: is_portional, is_proportional, array_cast, unsafe_array_cast, unsafe_vector_cast", "include/bitcoin/system/impl/data/byte_cast.ipp: byte_cast, unsafe_byte_cast"])
with open('/verif/properties.jsonl','w') as f:
    for x in sorted(P,key=lambda x:int(x["id"][1:])): f.write(json.dumps(x)+"\n")
print(len(P))
