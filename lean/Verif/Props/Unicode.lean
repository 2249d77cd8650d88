import Verif.Lemmas.UnicodeCompose
/-!
# C94 Unicode normalization forms

`toForm compatible recompose` is `to_canonical_decomposition` (false, false), `to_canonical_composition` (false, true),
`to_compatibility_decomposition` (true, false) and `to_compatibility_composition` (true, true).  The standard's algorithms are in Spec/Unicode.lean.
-/
namespace Verif.Unicode
open Spec

/-- Full decomposition of a character terminates, and is the one the standard defines: no character of it decomposes further. -/
theorem C94_decompose (k : Bool) (p : Nat) : Full k p (fullDecompose k p) ∧ (∀ a, Full k p a → a = fullDecompose k p) ∧
    ∀ q ∈ fullDecompose k p, mapping k q = none := by
  have h := full_of_ends k 4 p (all_ends p)
  exact ⟨h, fun a ha => (full_unique ha).1, (full_unique h).2⟩

/-- Canonical ordering: reached by exchanges of reorderable pairs, with none left, and the only such sequence. -/
theorem C94_order (l : List Nat) : Reorders l (canonicalOrder l) ∧ Ordered (canonicalOrder l) ∧
    ∀ m, Reorders l m → Ordered m → m = canonicalOrder l := by
  rw [canonicalOrder_eq]
  refine ⟨reorders_order l, (ord_iff _).1 (order_ord l), fun m hr ho => ?_⟩
  rw [order_reorders hr, order_of_ord ((ord_iff m).2 ho)]

/-- Composition of a sequence in canonical order is the standard's canonical composition algorithm, which has one result. -/
theorem C94_compose {l : List Nat} (h : Ordered l) : Composes [] l (compose l) ∧ ∀ m, Composes [] l m → m = compose l := by
  have := compose_composes ((ord_iff l).2 h)
  exact ⟨this, fun m hm => composes_unique hm this⟩

/-- The decomposed forms of any text: full decomposition of its characters, in canonical order. -/
theorem C94_decomposed (k : Bool) (l : List Nat) : ∃ d, FullAll k l d ∧ Reorders d (toForm k false l) ∧ Ordered (toForm k false l) := by
  refine ⟨l.flatMap (fullDecompose k), fullAll_of l fun q _ => (C94_decompose k q).1, ?_⟩
  rw [toForm_eq, normalForm_false]
  exact ⟨reorders_order _, (ord_iff _).1 (order_ord _)⟩

theorem fullAll_unique {k : Bool} {l a : List Nat} (h : FullAll k l a) : a = l.flatMap (fullDecompose k) := by
  induction l generalizing a with
  | nil => cases h; rfl
  | cons p l ih =>
    cases h with
    | cons h1 h2 => rw [List.flatMap_cons, ← ih h2, (full_unique h1).1]

/-- The composed forms of any text are the canonical composition of its decomposed form. -/
theorem C94_composed (k : Bool) (l : List Nat) : Composes [] (toForm k false l) (toForm k true l) := by
  rw [toForm_eq, toForm_eq, normalForm_false, normalForm_true]
  exact compose_composes (nf_ord k l)

/-- Any result the standard's algorithms allow is the library's. -/
theorem C94_unique (k : Bool) {l d o c : List Nat} (h1 : FullAll k l d) (h2 : Reorders d o) (h3 : Ordered o) (h4 : Composes [] o c) :
    o = toForm k false l ∧ c = toForm k true l := by
  have e : o = toForm k false l := by
    rw [toForm_eq, normalForm_false, ← order_of_ord ((ord_iff o).2 h3), ← order_reorders h2, fullAll_unique h1]
    rfl
  subst e
  exact ⟨rfl, composes_unique h4 (C94_composed k l)⟩

/-- Normalizing again, to either form, changes what it should and nothing else: a decomposed or composed text of the same kind is recovered. -/
theorem C94_stable (k r s : Bool) (l : List Nat) : toForm k r (toForm k s l) = toForm k r l := by
  rw [toForm_eq, toForm_eq, toForm_eq]
  have : nf k (normalForm k s l) = nf k l := by
    cases s with
    | false => rw [normalForm_false, nf_nf]
    | true => rw [normalForm_true, nf_compose]
  cases r with
  | false => rw [normalForm_false, normalForm_false, this]
  | true => rw [normalForm_true, normalForm_true, this]

/-- Normalization is idempotent. -/
theorem C94_idempotent (l : List Nat) : toNfc (toNfc l) = toNfc l ∧ toNfd (toNfd l) = toNfd l ∧ toNfkc (toNfkc l) = toNfkc l ∧
    toNfkd (toNfkd l) = toNfkd l :=
  ⟨C94_stable _ _ _ l, C94_stable _ _ _ l, C94_stable _ _ _ l, C94_stable _ _ _ l⟩

/-- Two texts have the same composed form exactly if they have the same decomposed form. -/
theorem C94_equal (k : Bool) (a b : List Nat) : toForm k true a = toForm k true b ↔ toForm k false a = toForm k false b := by
  constructor
  · intro h
    rw [← C94_stable k false true a, h, C94_stable]
  · intro h
    rw [← C94_stable k true false a, h, C94_stable]

/-- ASCII text is unchanged, and that is also what the algorithms do with it: the shortcut is sound. -/
theorem C94_ascii (k r : Bool) {l : List Nat} (h : ∀ p ∈ l, p < 128) : toForm k r l = l ∧ normalForm k r l = l := by
  have : toForm k r l = l := by
    unfold toForm
    rw [isAscii_iff.2 h]
    rfl
  exact ⟨this, (toForm_eq k r l).symm.trans this⟩

/-- Case conversion is by character whether or not the text is ASCII, and is idempotent. -/
theorem C94_case (a b : List Nat) :
    (toLower (a ++ b) = toLower a ++ toLower b ∧ toLower (toLower a) = toLower a) ∧
    (toUpper (a ++ b) = toUpper a ++ toUpper b ∧ toUpper (toUpper a) = toUpper a) := by
  simp only [toLower_eq, toUpper_eq, List.flatMap_append]
  exact ⟨⟨trivial, flatMap_fixed foldLower_fixed a⟩, ⟨trivial, flatMap_fixed foldUpper_fixed a⟩⟩

/-- A character is replaced by the row of the case table that begins with it, and by itself if there is none. -/
theorem C94_case_rows (p : Nat) :
    (∀ i < foldCount, at' 32 caseFoldPairs (i * 5) = p → toLower [p] =
      [at' 32 caseFoldPairs (i * 5 + 2), at' 32 caseFoldPairs (i * 5 + 3), at' 32 caseFoldPairs (i * 5 + 4)].take (at' 32 caseFoldPairs (i * 5 + 1))) ∧
    ((∀ i < foldCount, at' 32 caseFoldPairs (i * 5) ≠ p) → toLower [p] = [p]) ∧
    (∀ i < upperCount, at' 32 upperPairs (i * 5) = p → toUpper [p] =
      [at' 32 upperPairs (i * 5 + 2), at' 32 upperPairs (i * 5 + 3), at' 32 upperPairs (i * 5 + 4)].take (at' 32 upperPairs (i * 5 + 1))) ∧
    ((∀ i < upperCount, at' 32 upperPairs (i * 5) ≠ p) → toUpper [p] = [p]) := by
  simp only [toLower_eq, toUpper_eq, List.flatMap_cons, List.flatMap_nil, List.append_nil]
  refine ⟨fun i hi he => ?_, fun h => ?_, fun i hi he => ?_, fun h => ?_⟩
  · have := allBelow_spec fold_check i hi
    rw [Bool.and_eq_true, beq_iff_eq, he] at this
    exact this.1
  · rcases foldSearch_found (t := caseFoldPairs) (p := p) (foldCount + 1) 0 foldCount with h' | ⟨i, -, hi, he, -⟩
    · exact h'
    · exact absurd he (h i hi)
  · have := allBelow_spec upper_check i hi
    rw [Bool.and_eq_true, beq_iff_eq, he] at this
    exact this.1
  · rcases foldSearch_found (t := upperPairs) (p := p) (upperCount + 1) 0 upperCount with h' | ⟨i, -, hi, he, -⟩
    · exact h'
    · exact absurd he (h i hi)

/-! ## Examples -/

-- Latin, with marks out of order; a Hangul syllable; a ligature.
example : toNfc [0x61, 0x315, 0x300, 0x5ae, 0x62] = [0xe0, 0x5ae, 0x315, 0x62] := by decide +kernel
example : toNfd [0x1eb7] = [0x61, 0x323, 0x306] ∧ toNfc [0x61, 0x306, 0x323] = [0x1eb7] := by decide +kernel
example : toNfd [0xd55c, 0xae00] = [0x1112, 0x1161, 0x11ab, 0x1100, 0x1173, 0x11af] ∧
    toNfc [0x1112, 0x1161, 0x11ab, 0x1100, 0x1173, 0x11af] = [0xd55c, 0xae00] := by decide +kernel
example : toNfkc [0xfb01, 0x212b] = [0x66, 0x69, 0xc5] ∧ toNfc [0xfb01, 0x212b] = [0xfb01, 0xc5] := by decide +kernel
example : Ordered [0x61, 0x323, 0x306] := by
  rw [← ord_iff]
  have e : ccc 0x323 = 220 ∧ ccc 0x306 = 230 := by decide +kernel
  refine ⟨?_, ?_, trivial⟩ <;> decide +kernel
-- Case folding, not lower case: sharp s and final sigma (finding 79).
example : toLower [0xdf, 0x3c2] = [0x73, 0x73, 0x3c3] := by decide +kernel

/-- Finding 78: the combining classes are those of an older Unicode than the decompositions.  U+0C3C (class 7 since Unicode 14) has class zero, so
it is not put before U+0C4D (class 9). -/
theorem C94_old_classes_counterexample : ccc 0xc4d = 9 ∧ ccc 0xc3c = 0 ∧ toNfd [0xc15, 0xc4d, 0xc3c] = [0xc15, 0xc4d, 0xc3c] := by decide +kernel

end Verif.Unicode
