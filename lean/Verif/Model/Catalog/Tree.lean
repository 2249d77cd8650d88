/-!
# Search trees over words, used only to prove that words are distinct

A node holds a word and the one or two positions (`2048 * list + index`) at which it occurs.
-/
namespace Verif.Catalog

inductive Tree where
  | e
  | o (l : Tree) (key v : Nat) (r : Tree)
  | t (l : Tree) (key v v' : Nat) (r : Tree)

namespace Tree

/-- Does the node of `w` hold `c`? -/
def holds (w c : Nat) : Tree → Bool
  | e => false
  | o l k v r => bif Nat.beq w k then Nat.beq c v else bif Nat.blt w k then l.holds w c else r.holds w c
  | t l k v v' r =>
    bif Nat.beq w k then Nat.beq c v || Nat.beq c v' else bif Nat.blt w k then l.holds w c else r.holds w c

/-- All nodes with two positions satisfy `f`. -/
def pairs (f : Nat → Nat → Bool) : Tree → Bool
  | e => true
  | o l _ _ r => l.pairs f && r.pairs f
  | t l _ v v' r => f v v' && (l.pairs f && r.pairs f)

end Tree
end Verif.Catalog
