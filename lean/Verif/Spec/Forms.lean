import Verif.Model.Forms

/-! # Specification of the text forms -/

namespace Verif.Forms

/-- ASCII whitespace: space, and tab to carriage return. -/
def Blank (p : Nat) : Prop := p = 32 ∨ (9 ≤ p ∧ p ≤ 13)

/-- A word: at least one character and no blank. -/
def Word (w : List Nat) : Prop := w ≠ [] ∧ ∀ p ∈ w, ¬ Blank p

/-- `Words text ws`: the words of a text, in order, apart from each other by blanks. -/
inductive Words : List Nat → List (List Nat) → Prop
  | none {gap : List Nat} : (∀ p ∈ gap, Blank p) → Words gap []
  | last {gap w after : List Nat} : (∀ p ∈ gap, Blank p) → Word w → (∀ p ∈ after, Blank p) → Words (gap ++ w ++ after) [w]
  | cons {gap w : List Nat} {b : Nat} {rest : List Nat} {v : List Nat} {ws : List (List Nat)} :
      (∀ p ∈ gap, Blank p) → Word w → Blank b → Words rest (v :: ws) → Words (gap ++ w ++ b :: rest) (w :: v :: ws)

/-- A character of Chinese, Japanese or Korean script: in one of the library's intervals. -/
def Cjk (p : Nat) : Prop := ∃ i ∈ cjkIntervals, i.1 ≤ p ∧ p ≤ i.2

/-- The words with one space between them, but none between two characters of those scripts. -/
inductive Joined : List (List Nat) → List Nat → Prop
  | none : Joined [] []
  | last {w : List Nat} : Joined [w] w
  | space {u v r : List Nat} {a b : Nat} {ws : List (List Nat)} {text : List Nat} : ¬ (Cjk a ∧ Cjk b) → Joined ((b :: v) :: ws) text →
      r = (u ++ [a]) ++ 32 :: text → Joined ((u ++ [a]) :: (b :: v) :: ws) r
  | tight {u v r : List Nat} {a b : Nat} {ws : List (List Nat)} {text : List Nat} : Cjk a → Cjk b → Joined ((b :: v) :: ws) text →
      r = (u ++ [a]) ++ text → Joined ((u ++ [a]) :: (b :: v) :: ws) r

end Verif.Forms
