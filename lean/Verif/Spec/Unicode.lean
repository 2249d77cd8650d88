import Verif.Model.Unicode
/-!
# Unicode normalization forms (Unicode Standard 3.11, UAX #15)

Parameters of the standard's algorithms are the character data: combining classes, decomposition mappings and primary composites.  They are
read from the library's tables (`ccc`, `mapping`, `composite`); the algorithms here are those of the standard, not of the library.
-/
namespace Verif.Unicode.Spec
open Verif.Unicode

/-- The decomposition mapping of a character, canonical or also compatibility (D65, D68; Hangul syllables by arithmetic, 3.12): none if it
has none. -/
def mapping (compatible : Bool) (p : Nat) : Option (List Nat) :=
  if sBase ≤ p ∧ p < sBase + sCount then
    let s := p - sBase
    some (if s % tCount = 0 then [lBase + s / nCount, vBase + s % nCount / tCount]
      else [lBase + s / nCount, vBase + s % nCount / tCount, tBase + s % tCount])
  else if maxPoint < p ∨ decompose p = 0 ∨ (isCompatible (at' 32 decompositionPool (decompose p)) = true ∧ compatible = false) then none
  else some ((List.range (components (at' 32 decompositionPool (decompose p)))).map fun c => at' 32 decompositionPool (decompose p + 1 + c))

mutual
/-- Full decomposition of a character: its mapping applied recursively until nothing decomposes. -/
inductive Full (compatible : Bool) : Nat → List Nat → Prop
  | leaf {p : Nat} (h : mapping compatible p = none) : Full compatible p [p]
  | node {p : Nat} {l out : List Nat} (h : mapping compatible p = some l) (k : FullAll compatible l out) : Full compatible p out
/-- Full decomposition of a sequence: the decompositions in order. -/
inductive FullAll (compatible : Bool) : List Nat → List Nat → Prop
  | nil : FullAll compatible [] []
  | cons {p : Nat} {l a b : List Nat} (h : Full compatible p a) (k : FullAll compatible l b) : FullAll compatible (p :: l) (a ++ b)
end

/-- Exchange of a reorderable pair (D108): adjacent characters `a b` with `ccc(a) > ccc(b) > 0`. -/
inductive Reorder : List Nat → List Nat → Prop
  | swap (u v : List Nat) (a b : Nat) (h : ccc b < ccc a) (h0 : 0 < ccc b) : Reorder (u ++ a :: b :: v) (u ++ b :: a :: v)

/-- Zero or more exchanges. -/
inductive Reorders : List Nat → List Nat → Prop
  | refl (l : List Nat) : Reorders l l
  | step {a b c : List Nat} (h : Reorder a b) (k : Reorders b c) : Reorders a c

/-- In canonical order (D109): no reorderable pair. -/
def Ordered (l : List Nat) : Prop := ∀ u v a b, l = u ++ a :: b :: v → ¬ (ccc b < ccc a ∧ 0 < ccc b)

/-- The primary composite of a pair (D114): Hangul by arithmetic (3.12), others from the table, row by row. -/
def Composite (a b c : Nat) : Prop :=
  (∃ l v : Nat, l < lCount ∧ v < vCount ∧ a = lBase + l ∧ b = vBase + v ∧ c = sBase + (l * vCount + v) * tCount) ∨
  (∃ lv t : Nat, lv < lCount * vCount ∧ 0 < t ∧ t < tCount ∧ a = sBase + lv * tCount ∧ b = tBase + t ∧ c = sBase + lv * tCount + t) ∨
  (∃ i : Nat, i < pairsCount ∧ a = at' 32 compositionPairs (3 * i) ∧ b = at' 32 compositionPairs (3 * i + 1) ∧ c = at' 32 compositionPairs (3 * i + 2))

/-- Split a sequence at its last starter: before it, it, after it. -/
def lastStarter : List Nat → Option (List Nat × Nat × List Nat)
  | [] => none
  | x :: l =>
    match lastStarter l with
    | some (pre, s, mid) => some (x :: pre, s, mid)
    | none => if ccc x = 0 then some ([], x, l) else none

/-- `c` is blocked from the starter that `mid` follows (D115). -/
def Blocked (mid : List Nat) (c : Nat) : Prop := ∃ b ∈ mid, ccc b = 0 ∨ ccc c ≤ ccc b

/-- The canonical composition algorithm (D117), one character `c` after the sequence composed so far: if it is not blocked from the last
starter and makes a primary composite with it, the composite replaces the starter and `c` is deleted. -/
inductive ComposeStep : List Nat → Nat → List Nat → Prop
  | first {out : List Nat} {c : Nat} (h : lastStarter out = none) : ComposeStep out c (out ++ [c])
  | compose {out pre mid : List Nat} {s c p : Nat} (h : lastStarter out = some (pre, s, mid)) (hb : ¬ Blocked mid c) (hc : Composite s c p) :
    ComposeStep out c (pre ++ p :: mid)
  | keep {out pre mid : List Nat} {s c : Nat} (h : lastStarter out = some (pre, s, mid)) (hb : Blocked mid c ∨ ∀ p, ¬ Composite s c p) :
    ComposeStep out c (out ++ [c])

/-- The algorithm over a sequence. -/
inductive Composes : List Nat → List Nat → List Nat → Prop
  | done (out : List Nat) : Composes out [] out
  | next {out out' r l : List Nat} {c : Nat} (h : ComposeStep out c out') (k : Composes out' l r) : Composes out (c :: l) r

end Verif.Unicode.Spec
