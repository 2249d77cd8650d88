import Verif.Model.Unicode
import Verif.Model.Utf
import Verif.Model.Strings

/-! # Text forms

`src/unicode/normalization.cpp` (lines 446-579) and the tables of `code_points.cpp`, and the text functions of
normalization on bytes. The fuel of the loops of `split` (Model/Strings) is one more than the text's length, which is
always enough. -/

namespace Verif.Forms
open Verif.Utf

/-- `char32_separators` (code_points.cpp:63-83). -/
def separators : List Nat := [0x20, 0xa0, 0x1680, 0x2000, 0x2001, 0x2002, 0x2003, 0x2004,
  0x2005, 0x2006, 0x2007, 0x2008, 0x2009, 0x200a, 0x202f, 0x205f,
  0x3000]

/-- `char32_whitespace` (code_points.cpp:112-146). -/
def whitespace : List Nat := [0x9, 0xa, 0xb, 0xc, 0xd, 0x20, 0xa0, 0x1680,
  0x2000, 0x2001, 0x2002, 0x2003, 0x2004, 0x2005, 0x2006, 0x2007,
  0x2008, 0x2009, 0x200a, 0x202f, 0x205f, 0x3000, 0x85, 0x2028,
  0x2029]

/-- `char32_chinese_japanese_korean` (code_points.cpp:179-210). -/
def cjkIntervals : List (Nat × Nat) := [(0x4e00, 0x9fff), (0x3400, 0x4dbf), (0x20000, 0x2a6df), (0x2a700, 0x2b73f), (0x2b740, 0x2b81f), (0xf900, 0xfaff),
  (0x2f800, 0x2fa1d), (0x3190, 0x319f), (0x2e80, 0x2eff), (0x2f00, 0x2fdf), (0x31c0, 0x31ef), (0x2ff0, 0x2fff),
  (0xe0100, 0xe01ef), (0x3100, 0x312f), (0x31a0, 0x31bf), (0xff00, 0xffef), (0x3040, 0x309f), (0x30a0, 0x30ff),
  (0x31f0, 0x31ff), (0x1b000, 0x1b0ff), (0xac00, 0xd7af), (0x1100, 0x11ff), (0xa960, 0xa97f), (0xd7b0, 0xd7ff),
  (0x3130, 0x318f), (0xa4d0, 0xa4ff), (0x16f00, 0x16f9f), (0xa000, 0xa48f), (0xa490, 0xa4cf)]

/-- `char32_diacritics` (code_points.cpp:214-413). -/
def diacriticIntervals : List (Nat × Nat) := [(0x5e, 0x5e), (0x60, 0x60), (0xa8, 0xa8), (0xaf, 0xaf), (0xb4, 0xb4), (0xb7, 0xb7),
  (0xb8, 0xb8), (0x2b0, 0x2c1), (0x2c2, 0x2c5), (0x2c6, 0x2d1), (0x2d2, 0x2df), (0x2e0, 0x2e4),
  (0x2e5, 0x2eb), (0x2ec, 0x2ec), (0x2ed, 0x2ed), (0x2ee, 0x2ee), (0x2ef, 0x2ff), (0x300, 0x34e),
  (0x350, 0x36f), (0x374, 0x374), (0x375, 0x375), (0x37a, 0x37a), (0x384, 0x385), (0x483, 0x487),
  (0x559, 0x559), (0x591, 0x5a1), (0x5a3, 0x5bd), (0x5bf, 0x5bf), (0x5c1, 0x5c2), (0x5c4, 0x5c4),
  (0x64b, 0x652), (0x657, 0x658), (0x6df, 0x6e0), (0x6e5, 0x6e6), (0x6ea, 0x6ec), (0x730, 0x74a),
  (0x7a6, 0x7b0), (0x7eb, 0x7f3), (0x7f4, 0x7f5), (0x818, 0x819), (0x8e3, 0x8fe), (0x93c, 0x93c),
  (0x94d, 0x94d), (0x951, 0x954), (0x971, 0x971), (0x9bc, 0x9bc), (0x9cd, 0x9cd), (0xa3c, 0xa3c),
  (0xa4d, 0xa4d), (0xabc, 0xabc), (0xacd, 0xacd), (0xafd, 0xaff), (0xb3c, 0xb3c), (0xb4d, 0xb4d),
  (0xbcd, 0xbcd), (0xc4d, 0xc4d), (0xcbc, 0xcbc), (0xccd, 0xccd), (0xd3b, 0xd3c), (0xd4d, 0xd4d),
  (0xdca, 0xdca), (0xe47, 0xe4c), (0xe4e, 0xe4e), (0xec8, 0xecc), (0xf18, 0xf19), (0xf35, 0xf35),
  (0xf37, 0xf37), (0xf39, 0xf39), (0xf3e, 0xf3f), (0xf82, 0xf84), (0xf86, 0xf87), (0xfc6, 0xfc6),
  (0x1037, 0x1037), (0x1039, 0x103a), (0x1087, 0x108c), (0x108d, 0x108d), (0x108f, 0x108f), (0x109a, 0x109b),
  (0x17c9, 0x17d3), (0x17dd, 0x17dd), (0x1939, 0x193b), (0x1a75, 0x1a7c), (0x1a7f, 0x1a7f), (0x1ab0, 0x1abd),
  (0x1b34, 0x1b34), (0x1b44, 0x1b44), (0x1b6b, 0x1b73), (0x1baa, 0x1baa), (0x1bab, 0x1bab), (0x1c36, 0x1c37),
  (0x1c78, 0x1c7d), (0x1cd0, 0x1cd2), (0x1cd3, 0x1cd3), (0x1cd4, 0x1ce0), (0x1ce1, 0x1ce1), (0x1ce2, 0x1ce8),
  (0x1ced, 0x1ced), (0x1cf4, 0x1cf4), (0x1cf7, 0x1cf7), (0x1cf8, 0x1cf9), (0x1d2c, 0x1d6a), (0x1dc4, 0x1dcf),
  (0x1df5, 0x1df9), (0x1dfd, 0x1dff), (0x1fbd, 0x1fbd), (0x1fbf, 0x1fc1), (0x1fcd, 0x1fcf), (0x1fdd, 0x1fdf),
  (0x1fed, 0x1fef), (0x1ffd, 0x1ffe), (0x2cef, 0x2cf1), (0x2e2f, 0x2e2f), (0x302a, 0x302d), (0x302e, 0x302f),
  (0x3099, 0x309a), (0x309b, 0x309c), (0x30fc, 0x30fc), (0xa66f, 0xa66f), (0xa67c, 0xa67d), (0xa67f, 0xa67f),
  (0xa69c, 0xa69d), (0xa6f0, 0xa6f1), (0xa717, 0xa71f), (0xa720, 0xa721), (0xa788, 0xa788), (0xa7f8, 0xa7f9),
  (0xa8c4, 0xa8c4), (0xa8e0, 0xa8f1), (0xa92b, 0xa92d), (0xa92e, 0xa92e), (0xa953, 0xa953), (0xa9b3, 0xa9b3),
  (0xa9c0, 0xa9c0), (0xa9e5, 0xa9e5), (0xaa7b, 0xaa7b), (0xaa7c, 0xaa7c), (0xaa7d, 0xaa7d), (0xaabf, 0xaabf),
  (0xaac0, 0xaac0), (0xaac1, 0xaac1), (0xaac2, 0xaac2), (0xaaf6, 0xaaf6), (0xab5b, 0xab5b), (0xab5c, 0xab5f),
  (0xabec, 0xabec), (0xabed, 0xabed), (0xfb1e, 0xfb1e), (0xfe20, 0xfe2f), (0xff3e, 0xff3e), (0xff40, 0xff40),
  (0xff70, 0xff70), (0xff9e, 0xff9f), (0xffe3, 0xffe3), (0x102e0, 0x102e0), (0x10ae5, 0x10ae6), (0x10d22, 0x10d23),
  (0x10d24, 0x10d27), (0x10f46, 0x10f50), (0x110b9, 0x110ba), (0x11133, 0x11134), (0x11173, 0x11173), (0x111c0, 0x111c0),
  (0x111ca, 0x111cc), (0x11235, 0x11235), (0x11236, 0x11236), (0x112e9, 0x112ea), (0x1133c, 0x1133c), (0x1134d, 0x1134d),
  (0x11366, 0x1136c), (0x11370, 0x11374), (0x11442, 0x11442), (0x11446, 0x11446), (0x114c2, 0x114c3), (0x115bf, 0x115c0),
  (0x1163f, 0x1163f), (0x116b6, 0x116b6), (0x116b7, 0x116b7), (0x1172b, 0x1172b), (0x11839, 0x1183a), (0x11a34, 0x11a34),
  (0x11a47, 0x11a47), (0x11a99, 0x11a99), (0x11c3f, 0x11c3f), (0x11d42, 0x11d42), (0x11d44, 0x11d45), (0x11d97, 0x11d97),
  (0x16af0, 0x16af4), (0x16f8f, 0x16f92), (0x16f93, 0x16f9f), (0x1d167, 0x1d169), (0x1d16d, 0x1d172), (0x1d17b, 0x1d182),
  (0x1d185, 0x1d18b), (0x1d1aa, 0x1d1ad), (0x1e8d0, 0x1e8d6), (0x1e944, 0x1e946), (0x1e948, 0x1e94a)]

/-- `is_unicode` (normalization.cpp:446-449). -/
def isUnicode (p : Nat) : Bool := decide (p ≤ Unicode.maxPoint)

/-- `is_separator` (normalization.cpp:451-461). -/
def isSeparator (p : Nat) : Bool := isUnicode p && separators.any (p == ·)

/-- `is_whitespace` (normalization.cpp:463-473). -/
def isWhitespace (p : Nat) : Bool := isUnicode p && whitespace.any (p == ·)

/-- `is_combining` (normalization.cpp:475-479). -/
def isCombining (p : Nat) : Bool := isUnicode p && !(Unicode.ccc p == 0)

/-- `is_contained` (normalization.cpp:481-486). -/
def isContained (p : Nat) (i : Nat × Nat) : Bool := decide (i.1 ≤ p) && decide (p ≤ i.2)

/-- `is_diacritic` (normalization.cpp:488-498). -/
def isDiacritic (p : Nat) : Bool := isUnicode p && diacriticIntervals.any (isContained p)

/-- `is_chinese_japanese_or_korean` (normalization.cpp:500-510). -/
def isCjk (p : Nat) : Bool := isUnicode p && cjkIntervals.any (isContained p)

/-- `is_ascii_whitespace` (ascii.ipp:70-74). -/
def isAsciiWhitespace (p : Nat) : Bool := p == 0x20 || p == 0x09 || (decide (0x0a ≤ p) && decide (p ≤ 0x0d))

/-- `to_utf32(string)` (conversion.cpp:89-92). -/
def toUtf32 (text : Bytes) : List Nat := orEmpty (decode8 text)

/-- `to_utf8(u32string)` (conversion.cpp:74-77). -/
def ofUtf32 (points : List Nat) : Bytes := orEmpty (encode8 points)

/-- `has_whitespace` (normalization.cpp:512-523). -/
def hasWhitespace (text : Bytes) : Bool := (toUtf32 text).any isWhitespace

/-- `to_non_combining_form` (normalization.cpp:528-537). -/
def nonCombining (text : Bytes) : Bytes := if text = [] then text else ofUtf32 ((toUtf32 text).filter fun p => !isCombining p)

/-- `to_non_diacritic_form` (normalization.cpp:539-548). -/
def nonDiacritic (text : Bytes) : Bytes := if text = [] then text else ofUtf32 ((toUtf32 text).filter fun p => !isDiacritic p)

/-- `char_whitespace` (code_points.cpp:41-50), the tokens of `split(text)` (string.cpp:154-159). -/
def asciiTokens : List Bytes := [[0x09], [0x0a], [0x0b], [0x0c], [0x0d], [0x20]]

/-- `join(split(text))` (normalization.cpp:554). -/
def spaced (text : Bytes) : Bytes :=
  Strings.join ((Strings.split (text.length + 1) text asciiTokens asciiTokens true).getD []) [0x20]

/-- The loop of `to_compressed_form` (normalization.cpp:568-576) and its last character (579), after the character `last`. -/
def squeeze (last : Nat) : List Nat → List Nat
  | [] => []
  | [p] => [p]
  | p :: next :: r =>
    if !(isAsciiWhitespace p && isCjk last && isCjk next) then p :: squeeze p (next :: r) else squeeze p (next :: r)

/-- `to_compressed_form` (normalization.cpp:551-581). -/
def compressed (text : Bytes) : Bytes :=
  let normalized := spaced text
  match toUtf32 normalized with
  | first :: second :: third :: r => ofUtf32 (first :: squeeze first (second :: third :: r))
  | _ => normalized

/-- `is_ascii` (ascii.ipp:32-35 for each character). -/
def isAsciiText (text : Bytes) : Bool := text.all fun b => decide (b.toNat < 128)

/-- `to_compatibility_decomposition` (normalization.cpp:439-442) and its fellows (423-437), on a text. -/
def formText (compatible recompose : Bool) (text : Bytes) : Bytes :=
  if isAsciiText text then text else ofUtf32 (Unicode.normalForm compatible recompose (toUtf32 text))

/-- `to_lower` (normalization.cpp:413-416), `apply_case` (388-408). -/
def lowerText (text : Bytes) : Bytes :=
  if isAsciiText text then text.map fun b => UInt8.ofNat (Unicode.asciiLower b.toNat)
  else ofUtf32 ((toUtf32 text).flatMap Unicode.foldLowerOne)

/-- The form of an Electrum passphrase (electrum.cpp:162-192). -/
def electrumPhrase (passphrase : Bytes) : Bytes := compressed (nonCombining (lowerText (formText true false passphrase)))

/-- The form of an Electrum sentence (electrum.cpp:150-152, 201-203). -/
def electrumSentence (words : List Bytes) : Bytes := compressed (nonCombining (Strings.join words [0x20]))

end Verif.Forms
