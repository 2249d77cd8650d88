import Verif.Model.Stream
/-!
# Specification: decimal texts and the amounts they denote
-/
namespace Verif.Base10.Spec
open Verif

/-- A decimal digit, as text. -/
def Digit (c : UInt8) : Prop := 48 ≤ c ∧ c ≤ 57

/-- Positional value of digits. -/
def value : Bytes → Nat
  | [] => 0
  | c :: s => (c.toNat - 48) * 10 ^ s.length + value s

/-- The text denotes `num / 10 ^ scale`: digits with at most one point. -/
inductive Denotes : Bytes → Nat → Nat → Prop
  | whole (w : Bytes) : (∀ c ∈ w, Digit c) → Denotes w (value w) 0
  | point (w f : Bytes) : (∀ c ∈ w, Digit c) → (∀ c ∈ f, Digit c) → Denotes (w ++ [46] ++ f) (value (w ++ f)) f.length

/-- Smallest integer not below `num * 10 ^ places / 10 ^ scale`. -/
def IsCeil (num scale places n : Nat) : Prop := num * 10 ^ places ≤ n * 10 ^ scale ∧ ∀ m, num * 10 ^ places ≤ m * 10 ^ scale → n ≤ m

end Verif.Base10.Spec
