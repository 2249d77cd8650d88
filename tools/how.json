{
 "C01": "Model/Stream writer as byte list and reader as state machine; variable integer codec by cases on the prefix",
 "C02": "as C01: forward and backward parser lemmas",
 "C03": "reader state machine with position, limit, error and `ub` flag; invariant over every operation sequence",
 "C04": "script codec on any bytes (incomplete pushes become one underflow operation); forward (`FwdU`) and backward (`BwdU`) parser combinators",
 "C05": "as C04 under a size prefix and reader limit",
 "C06": "operation codec, by cases on the push form",
 "C07": "witness codec; induction over the stack",
 "C08": "transaction codec in both serialisations; parser combinators; ambiguity excluded by an explicit predicate",
 "C09": "serialized_size functions with their saturating additions against the bytes written",
 "C10": "header and block codecs",
 "C11": "superfluous witness rule in both parse modes",
 "C12": "Model/Compact on 256 bit numbers; arithmetic of base 256 floating forms",
 "C13": "work as the exact quotient on 256 bit numbers",
 "C14": "Model/Number: script number codecs; base 256 digits, both directions",
 "C15": "Model/Merkle over an arbitrary pair hash; strong induction on the length against the tree defined by recursion",
 "C16": "as C15; duplication at each level",
 "C17": "subsidy as a finite geometric sum, saturating arithmetic",
 "C18": "Model/Validate + Spec/Ledger: value accounting over every history of blocks by induction",
 "C19": "Model/ChainState retarget against Spec/ChainState",
 "C20": "median over sorted windows; induction along the chain",
 "C21": "simulation invariant `Good` between store-built and promoted states over every header history",
 "C22": "Model/Machine: interpreter as a state machine; per opcode invariants and induction over the operations",
 "C23": "condition stack invariant",
 "C24": "tagged and byte stacks related by a homomorphism through every opcode",
 "C25": "signature operation counts against a counting specification",
 "C26": "locktime rules against Spec/Validate",
 "C27": "block checks against set-based specification",
 "C28": "Model/Der byte for byte against the BIP66 grammar",
 "C29": "Model/Golomb over bit lists; sorted sets and deltas",
 "C30": "bit streams refine lists of bits",
 "C31": "digit tables by exhaustive kernel check over bytes, lists by induction",
 "C32": "positional numerals, leading zeros counted",
 "C33": "group codecs over bit lists",
 "C34": "as C33",
 "C35": "GF(32) checksum as a linear recurrence of period 1023",
 "C36": "word lists generated into the model and checked by the kernel; entropy packing by bit lists",
 "C37": "mod-1626 arithmetic against the transcribed Python reference",
 "C38": "buffer invariant of the accumulator over every write history",
 "C39": "signature messages as parser-style injective encodings; caches as state",
 "C40": "integer lemmas for an arbitrary width and sign",
 "C41": "the static as process state",
 "C42": "tokeniser and printer inverse; opcode names generated",
 "C44": "Model/Chacha, Poly1305, Aead against RFC 8439 and BIP324; chunk invariance by state invariants",
 "C46": "reader limit invariant",
 "C47": "search loop against list infix",
 "C48": "two parse modes related field by field",
 "C49": "loops against Nat.log",
 "C50": "interpreter refines a big-step specification (Spec/Script)",
 "C51": "templates as byte grammars over the parse of any bytes",
 "C52": "script_verify/connect against Spec/Connect (BIP16, 141, 341, 342); refinement from C50 plus a syntactic argument that a script whose only CHECKMULTISIG is last cannot differ in verdict",
 "C53": "push form of the height",
 "C54": "merkle and witness commitment rules over arbitrary hashes",
 "C55": "header accept rules against every Good state",
 "C56": "decimal point moves on digit lists",
 "C57": "acceptance characterised exactly from C34 and C35",
 "C58": "Model/Sha, Rmd, Accumulator in all build configurations against FIPS 180-4 and the RIPEMD definition",
 "C59": "Model of HMAC/PBKDF2/HKDF over any accumulator against the RFCs",
 "C60": "views as offset parsers refining the block parser",
 "C61": "cached hashes as state over histories of calls",
 "C62": "key derivation over the Curve contract against BIP32",
 "C63": "Base58Check and key texts over the Curve contract",
 "C64": "operation patterns against byte grammars",
 "C65": "operators over the Curve contract",
 "C66": "bit vector refines a list of bits",
 "C43": "not in the repository (boost::locale)",
 "C45": "model of the setters over a sorted map, invariant over reachable objects, exact characterisation of the reader; Boost.URL is a parameter",
 "C67": "algebra over the curve contract; search loops characterised by induction; layout specification of addresses",
 "C68": "characterisation of signing and verifying over the recovery contract; writer refinement from C58; header by case analysis over all bytes",
 "C69": "loop invariant over the reader; bit arithmetic of the last word",
 "C70": "in-place loops by array invariants; Salsa20/8 by symbolic evaluation; refinement to the RFC",
 "C71": "The tables are compared with the computed S-box over all 256 bytes in the kernel; linearity of doubling over xor gives mixing and its inverse; a key of eight words is related to the schedule by induction on expansions; rounds are paired by induction from both ends.",
 "C72": "Spec/Bip38 states the four formats from BIP38 over Spec scrypt, AES and hashing. The model's key derivation is rewritten by C70 (scrypt) and C71 (AES); offsets of the parsers are computed once (private_parts, public_parts, token_parts); decryption is by AES inverse and xor cancellation, and the multiplied keys by (k*f)G = k(fG) in a group of prime order.",
 "C73": "The flat table is refined to rows as functions (rows_entries, masks_eq); by induction each row is a partition of the screen bits that refines the row before (rowF_part), with sizes by counting moved bits. The filter invariant: every fingerprint of the history agrees with the value on some mask of the current row; a new row keeps that because its masks are subsets of the old and disjoint from the new one.",
 "C74": "Model/Ring.lean follows the loops over byte level ec_scalar and ec_point operators (Model/EcOperators) and the hashing writer; Spec/Ring.lean states the walk around a ring in the group. verifyLoop_iff gives the walk by induction over the ring; known_verify and signing_verify show that signing and verification agree before and behind the known key and close shows s = k - e x closes the ring; rings_salts inverts this, k = s + e x. The instance is a ring of two keys in the toy group, with hashes evaluated by the kernel.",
 "C75": "Model/Batch.lean models the log, its decoding, the greedy trial, the parallel evaluation with an arbitrary permutation of the rows and a latched stopper, and the correlation loop with its bit matrix; greedy matching is proved equivalent to the existence of an increasing assignment, by induction.",
 "C76": "Model/Capture.lean is the machine with a capture context (program_batch.ipp, the check-signature handlers, run, connect). Lemmas/Capture*.lean relate each handler to the inline one of Model/Machine: with BIP342 a captured bad row is an error that stops the inline program; without it only the last operation of a recognised pattern captures, and pushes true where the inline one pushes the verdict. Props/Capture.lean lifts this through connect and folds it over a block, using C75 for the log.",
 "C77": "Model/Points.lean is points_value.cpp with std::partition and std::sort as parameters; Props/Points.lean proves the claim for every pair of functions that meet the standard's contract, by the prefix sums of a descending list.",
 "C78": "The checksum step is linear over GF(32) (multiplication table and laws checked over the field), so an error pattern is a linear combination of powers of the step. Linear independence of any four of the first 89 powers, and of any three of the first 71 with the difference of the two constants, is a Gaussian elimination run by the kernel, whose soundness is proved.",
 "C79": "A transition system of threads with non-atomic push_back and accumulator operations; an inductive invariant over all reachable states; the two counterexamples are concrete runs.",
 "C80": "Model/Electrum, Spec/Electrum (Marked, Spells, Trimmed, Candidate). The bits of the padding mask are checked for every byte and shift, grinding by induction on the limit with uniqueness of candidates; the hexadecimal prefix test is reduced to bits.",
 "C81": "C81_restore_partial from C80_grind and C81_words; the four versions are exclusive, so the order in which they are tried does not matter (C81_prefix).",
 "C82": "C52_exact_ordinary reduces connection to the reference; symbolic evaluation of the templates in the reference interpreter; the greedy multisig loop is shown complete (it finds an ordered assignment whenever one exists)",
 "C83": "Model/Sign.lean over any Curve and Ecdsa (Spec/Ecdsa.lean states the scheme and the contract of libsecp256k1's ECDSA functions; Lemmas/ToyEcdsa.lean is an instance). Group algebra in Lemmas/Ecdsa.lean; the rest combines C28 (DER), C39 (signature hashes) and C82 (spending).",
 "C84": "Spend.connect refines the reference verdict (C52); key path and script path are read off the reference; BIP341 hash of C39; commitments by induction over the tree.",
 "C85": "Texts are lists of bytes; a value written is a list of tokens joined by a delimiter that no token contains, so splitting gives the tokens back; the decimal, base and chain theorems (C30-C33, C08, C10, C42) do the rest.",
 "C86": "Parsers take the word apart from the left; exactness both ways, with uniqueness of the decomposition where alternatives overlap; decimal texts without leading zeros are canonical; membership by division with remainder.",
 "C87": "Model/BitOps; bit by bit",
 "C88": "Model/Endian; loops, unrolled forms and swaps against leNat/beNat",
 "C89": "Lookup lemmas for a document or its reparse; C42 text round trips; C31 base16; Tx.size_ok and the C08 reader.",
 "C90": "The registers hold the working variables in the order of the instruction set and four quads of the schedule; each turn is four rounds; induction over blocks; the accumulator theorems of C18/C58 are instantiated with the native functions.",
 "C91": "The templates are written over an abstract word type; taking a lane commutes with every step, so a lane is the scalar computation of C58; the in place invariant of C15; the native pair hash of C90.",
 "C92": "Model/HexReader over the byte reader state of Model/Stream; programs are an inductive type (Spec/HexReader) run against both; simulation relation (position doubled, limit doubled or not binding) preserved by each operation, induction on the program.",
 "C93": "Model/Writer keeps the whole memory around the buffer; invariant by induction over adaptive programs (Spec/Writer.Plan); exact content by induction over the writes.",
 "C94": "Model the loops over lists with the tables as numerals; state the standard's algorithms as relations (Spec/Unicode.lean); check table facts over every row in the kernel (Lemmas/UnicodeTables.lean); then induction: termination by an index depth measure, ordering as an insertion sort invariant under exchanges, the inner composition loop against the blocking rule with an invariant on the marks kept, and preservation of the decomposed form by composition steps.",
 "C95": "Slices as positions over a memory with partial dereference, shown to refine list operations; binary search by induction on the interval with the invariant that equivalent elements are inside; insertion and sorting by Pairwise and Perm.",
 "C96": "Loops with fuel over byte lists; find by first occurrence; right trimming as the mirror image of left trimming; replacement with its running position shown equal to join of split; words by induction over the text.",
 "C97": "Encoding and strict decoding of one character are inverse by case analysis on its length; induction over the text. The leading byte states the length, so the backward search finds the cut. An invariant over histories: bytes put = bytes of the characters written ++ pending.",
 "C98": "The words of the bytes are the bytes of the words of the characters (no byte of a longer character is a blank), then C96's theorem on split; the squeezing loop by induction over words. Closure of the decomposition, composition and case tables under scalar values is computed by the kernel over the whole tables.",
 "C99": "Bit writer lemmas give each packed row; rows and modules are indexed by division; an independent reader of TIFF files (Spec/Image) is run on the file.",
 "C100": "Mutual induction on the tree: what is written at each depth is a text that a fuel-bounded reader of RFC 8259 (Spec/Serial) reads back, whatever follows.",
 "C101": "Parse uniqueness of scripts (parse_is) gives the operations of each form; C64 gives the pattern; C63 gives the address.",
 "C102": "The first operation runs unconditionally, and each of its handlers returns an error; lifted through runStep, runLoop, run and connect. The byte form uses the parse theorem of C64.",
 "C103": "Steps of the reference interpreter, to which the machine and connect are refined by C52; bit masks are split into bit 22 and the low 16 bits. Exactness for the bare lock.",
 "C104": "Extraction of words from a stream by induction over the list of values; the texts and their readers by C57, C63, C67 and C72.",
 "C105": "From C27 (rules of an accepted block), C15 (root) and C54 (witness rule). Identifiers of an accepted block are distinct, because equal wire forms have equal inputs and no output is spent twice; two trees over distinct leaves with the same root have the same leaves or the first leaf of one is a node of the other (simultaneous induction on both trees), and a coinbase that is a joined pair starts with a near zero digest. For witnesses the trees have the same number of leaves.",
 "C106": "split at whitespace is C96_words: the maximal parts without whitespace, shown to be the words of the specification. join puts spaces between words. Elements by the theorems of C85 (numbers) and C31 (data).",
 "C107": "The conversions between int64_t and uint64_t are modelled as arithmetic modulo 2^64 and shown to do nothing in the range; the bound is that of the truncated quotients.",
 "C108": "A memory is a list of bytes; loading words from a memory and storing them are shown to be inverse by induction on the number of words."
}