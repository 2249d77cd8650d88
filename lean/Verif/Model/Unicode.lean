import Verif.Model.Catalog.UnicodeTables
/-!
# Model of Unicode normalization and case conversion

Source: src/unicode/normalization.cpp with the tables of src/unicode/unicode_tables.cpp and src/unicode/code_points.cpp
(Model/Catalog/UnicodeTables.lean).

A text is its sequence of code points (`std::u32string`), as `Nat`s: the conversions from and to UTF-8 are boost's and are not modelled.
`ascii_to_lower`/`ascii_to_upper` are those of ASCII.
-/
namespace Verif.Unicode

/-- Element `i` of a table of `w` bit elements. Used for normalization.cpp:72-80. -/
def at' (w table i : Nat) : Nat := (table >>> (w * i)) % 2 ^ w

/-- `max_unicode_point` and the constants of `hangul` (normalization.cpp:38-52). -/
def maxPoint : Nat := 0x10ffff
/-- As above, normalization.cpp:38-52. -/
def sBase : Nat := 0xac00
/-- As above, normalization.cpp:38-52. -/
def lBase : Nat := 0x1100
/-- As above, normalization.cpp:38-52. -/
def vBase : Nat := 0x1161
/-- As above, normalization.cpp:38-52. -/
def tBase : Nat := 0x11a7
/-- As above, normalization.cpp:38-52. -/
def lCount : Nat := 19
/-- As above, normalization.cpp:38-52. -/
def vCount : Nat := 21
/-- As above, normalization.cpp:38-52. -/
def tCount : Nat := 28
/-- As above, normalization.cpp:38-52. -/
def nCount : Nat := vCount * tCount
/-- As above, normalization.cpp:38-52. -/
def sCount : Nat := lCount * nCount

/-- `components` (normalization.cpp:57-64): bits 24-30. -/
def components (header : Nat) : Nat := (header >>> 24) % 128

/-- `is_compatible` (normalization.cpp:66-70): the most significant bit. -/
def isCompatible (header : Nat) : Bool := decide (2 ^ 31 ≤ header)

/-- `decompose` (normalization.cpp:72-80). -/
def decompose (point : Nat) : Nat :=
  at' 16 decompositionIndex2 (at' 16 decompositionIndex1 (point >>> 7) * 128 + point % 128)

/-- `decompose_one` (normalization.cpp:82-130): the points it appends.  The recursion is over the table; `fuel` bounds its depth, which is at
most three (`C94_decompose` shows that the bound is not met). -/
def decomposeOne : Nat → Bool → Nat → List Nat
  | 0, _, point => [point]
  | fuel + 1, compatible, point =>
    if sBase ≤ point ∧ point < sBase + sCount then
      let syllable := point - sBase
      [lBase + syllable / nCount, vBase + syllable % nCount / tCount] ++
        (if syllable % tCount ≠ 0 then [tBase + syllable % tCount] else [])
    else if maxPoint < point then [point]
    else if decompose point = 0 then [point]
    else if isCompatible (at' 32 decompositionPool (decompose point)) && !compatible then [point]
    else (List.range (components (at' 32 decompositionPool (decompose point)))).flatMap fun component =>
      decomposeOne fuel compatible (at' 32 decompositionPool (decompose point + 1 + component))

/-- The recursion of `decompose_one` from the outside. Used for normalization.cpp:300-316. -/
def fullDecompose (compatible : Bool) (point : Nat) : List Nat := decomposeOne 4 compatible point

/-- `get_canonical` (normalization.cpp:132-143). -/
def ccc (point : Nat) : Nat :=
  if maxPoint < point then 0
  else at' 8 combiningIndex (at' 16 unicodeData2 (at' 16 unicodeData1 (point >>> 7) * 128 + point % 128))

/-- One insertion of the stable sort by combining class. Used for normalization.cpp:168-171. -/
def sortInsert (x : Nat) : List Nat → List Nat
  | [] => [x]
  | y :: l => if ccc y < ccc x then y :: sortInsert x l else x :: y :: l

/-- `std::stable_sort` by combining class (normalization.cpp:168-171). -/
def stableSort (run : List Nat) : List Nat := run.foldr sortInsert []

/-- The loop of `canonical_order` (normalization.cpp:151-176): skip starters, sort the run of combining characters, continue. -/
def orderLoop : Nat → List Nat → List Nat
  | 0, l => l
  | _, [] => []
  | fuel + 1, l =>
    let starters := l.takeWhile fun p => ccc p == 0
    let tail := l.dropWhile fun p => ccc p == 0
    let run := tail.takeWhile fun p => ccc p != 0
    let next := tail.dropWhile fun p => ccc p != 0
    starters ++ (if 1 < run.length then stableSort run else run) ++ orderLoop fuel next

/-- `canonical_order` (normalization.cpp:145-177). -/
def canonicalOrder (l : List Nat) : List Nat := if l.length < 2 then l else orderLoop l.length l

/-- The binary search of `composition_lookup` (normalization.cpp:205-226); zero is not found. -/
def pairSearch (a b : Nat) : Nat → Nat → Nat → Nat
  | 0, _, _ => 0
  | fuel + 1, lo, hi =>
    if lo < hi then
      let middle := (lo + hi) / 2
      let alpha := at' 32 compositionPairs (middle * 3)
      let bravo := at' 32 compositionPairs (middle * 3 + 1)
      if alpha < a ∨ (alpha = a ∧ bravo < b) then pairSearch a b fuel (middle + 1) hi
      else if a < alpha ∨ (alpha = a ∧ b < bravo) then pairSearch a b fuel lo middle
      else at' 32 compositionPairs (middle * 3 + 2)
    else 0

/-- `composition_pairs_count` (include/bitcoin/system/unicode/unicode_tables.hpp:35). -/
def pairsCount : Nat := 941

/-- `composition_lookup` (normalization.cpp:179-229). -/
def compositionLookup (a b : Nat) : Nat :=
  if lBase ≤ a ∧ a < lBase + lCount ∧ vBase ≤ b ∧ b < vBase + vCount then
    sBase + (a - lBase) * nCount + (b - vBase) * tCount
  else if sBase ≤ a ∧ a < sBase + sCount ∧ (a - sBase) % tCount = 0 ∧ tBase < b ∧ b < tBase + tCount then
    a + (b - tBase)
  else pairSearch a b (pairsCount + 1) 0 pairsCount

/-- The inner loop of `compose` (normalization.cpp:249-294): `current` is `sequence[index]`, `mid` the elements kept between `index` and `inner`,
the list the elements from `inner`.  Returns `sequence[index]` and what follows it when the loop ends. -/
def composeInner : Nat → List Nat → Nat → List Nat → Nat × List Nat
  | start, mid, _, [] => (start, mid)
  | start, mid, last, x :: rest =>
    let blocked := last ≠ 0 ∧ ccc x ≤ last
    if ccc x = 0 then
      if ¬ blocked ∧ compositionLookup start x ≠ 0 then composeInner (compositionLookup start x) mid 0 rest
      else (start, mid ++ x :: rest)
    else if ¬ blocked ∧ compositionLookup start x ≠ 0 then composeInner (compositionLookup start x) mid 0 rest
    else composeInner start (mid ++ [x]) (ccc x) rest

/-- The outer loop of `compose` (normalization.cpp:237-297), from an index. -/
def composeLoop : Nat → List Nat → List Nat
  | 0, l => l
  | _, [] => []
  | fuel + 1, x :: l =>
    if ccc x ≠ 0 then x :: composeLoop fuel l
    else (composeInner x [] 0 l).1 :: composeLoop fuel (composeInner x [] 0 l).2

/-- `compose` (normalization.cpp:231-298). -/
def compose (l : List Nat) : List Nat := if l.length < 2 then l else composeLoop l.length l

/-- `normal_form` (normalization.cpp:300-316), between the conversions. -/
def normalForm (compatible recompose : Bool) (points : List Nat) : List Nat :=
  let out := canonicalOrder (points.flatMap (fullDecompose compatible))
  if recompose then compose out else out

/-- `is_ascii` (src/unicode/ascii.cpp): all below 128. -/
def isAscii (points : List Nat) : Bool := points.all fun p => decide (p < 128)

/-- `to_canonical_composition`, `to_canonical_decomposition`, `to_compatibility_composition`, `to_compatibility_decomposition`
(normalization.cpp:423-441). -/
def toForm (compatible recompose : Bool) (points : List Nat) : List Nat :=
  if !isAscii points then normalForm compatible recompose points else points

/-- As above, normalization.cpp:423-441. -/
def toNfc : List Nat → List Nat := toForm false true
/-- As above, normalization.cpp:423-441. -/
def toNfd : List Nat → List Nat := toForm false false
/-- As above, normalization.cpp:423-441. -/
def toNfkc : List Nat → List Nat := toForm true true
/-- As above, normalization.cpp:423-441. -/
def toNfkd : List Nat → List Nat := toForm true false

/-- The binary search of `fold_lower_one` and `fold_upper_one` (normalization.cpp:324-386) in a table of quintuples: the mapped points. -/
def foldSearch (table point : Nat) : Nat → Nat → Nat → List Nat
  | 0, _, _ => [point]
  | fuel + 1, lo, hi =>
    if lo < hi then
      let middle := (lo + hi) / 2
      let source := at' 32 table (middle * 5)
      if source < point then foldSearch table point fuel (middle + 1) hi
      else if point < source then foldSearch table point fuel lo middle
      else [at' 32 table (middle * 5 + 2), at' 32 table (middle * 5 + 3), at' 32 table (middle * 5 + 4)].take (at' 32 table (middle * 5 + 1))
    else [point]

/-- `case_fold_pairs_count`, `upper_pairs_count` (unicode_tables.hpp:36-37). -/
def foldCount : Nat := 1530
/-- As above, unicode_tables.hpp:36-37. -/
def upperCount : Nat := 1423

/-- `fold_lower_one` (normalization.cpp:324-355). -/
def foldLowerOne (point : Nat) : List Nat := foldSearch caseFoldPairs point (foldCount + 1) 0 foldCount

/-- `fold_upper_one` (normalization.cpp:357-386). -/
def foldUpperOne (point : Nat) : List Nat := foldSearch upperPairs point (upperCount + 1) 0 upperCount

/-- `ascii_to_lower`, `ascii_to_upper` (src/unicode/ascii.cpp) on a point. Used for normalization.cpp:413-416. -/
def asciiLower (p : Nat) : Nat := if 65 ≤ p ∧ p ≤ 90 then p + 32 else p
/-- As above, normalization.cpp:357-386. -/
def asciiUpper (p : Nat) : Nat := if 97 ≤ p ∧ p ≤ 122 then p - 32 else p

/-- `to_lower` (normalization.cpp:413-416) with `apply_case` (390-408). -/
def toLower (points : List Nat) : List Nat :=
  if isAscii points then points.map asciiLower else points.flatMap foldLowerOne

/-- `to_upper` (normalization.cpp:418-421) with `apply_case` (390-408). -/
def toUpper (points : List Nat) : List Nat :=
  if isAscii points then points.map asciiUpper else points.flatMap foldUpperOne

end Verif.Unicode
