/-!
# Specification: the Bitcoin Merkle tree

Written without the model: one level pairs neighbours, pairing a last odd node with itself; the root is the only node left.
-/
namespace Verif.Merkle.Spec

variable {α : Type}

/-- One level up. A last unpaired node is paired with itself. -/
def level (H : α → α → α) : List α → List α
  | a :: b :: rest => H a b :: level H rest
  | [a] => [H a a]
  | [] => []

/-- `IsRoot H l r`: `r` is the Merkle root of the nonempty list `l`. -/
inductive IsRoot (H : α → α → α) : List α → α → Prop
  | one (a : α) : IsRoot H [a] a
  | up (l : List α) (r : α) : 2 ≤ l.length → IsRoot H (level H l) r → IsRoot H l r

/-- Combine a leaf with a branch, bottom up: at an even position the node is the left child. -/
def combine (H : α → α → α) (position : Nat) (leaf : α) : List α → α
  | [] => leaf
  | s :: rest => combine H (position / 2) (if position % 2 = 0 then H leaf s else H s leaf) rest

end Verif.Merkle.Spec
