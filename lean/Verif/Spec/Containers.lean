import Verif.Model.Containers
/-!
# Meaning of slices and orders
-/
namespace Verif.Containers.Spec
open Verif Verif.Containers

/-- The slice is inside the memory. -/
def Valid (mem : Bytes) (s : Slice) : Prop := s.start + s.size ≤ mem.length

/-- The bytes a slice denotes. -/
def content (mem : Bytes) (s : Slice) : Bytes := (mem.drop s.start).take s.size

variable {α : Type}

/-- A strict weak order, as `std::sort` and friends require of a comparison. -/
structure Weak (lt : α → α → Bool) : Prop where
  irrefl : ∀ a, lt a a = false
  trans : ∀ a b c, lt a b = true → lt b c = true → lt a c = true
  split : ∀ a b c, lt a c = true → lt a b = true ∨ lt b c = true

/-- A strict total order. -/
structure Total (lt : α → α → Bool) : Prop extends Weak lt where
  eq : ∀ a b, lt a b = false → lt b a = false → a = b

/-- No element is before an earlier one. -/
def Sorted (lt : α → α → Bool) (l : List α) : Prop := l.Pairwise fun a b => lt b a = false

end Verif.Containers.Spec
