import Verif.Spec.Commit
import Verif.Spec.Identity
/-!
# Specification: what it takes to find two blocks with the same identity

A digest has fewer values than there are messages, so collisions exist; what matters is whether somebody knows one. Here the
messages are those that are hashed when the two blocks are checked, so that two different blocks with one hash hand over a
collision explicitly.
-/
namespace Verif.BlockCommit
open Verif Verif.Merkle.Spec Verif.Validate.Spec

/-- The messages hashed for one level of a tree: neighbours joined, a last unpaired node joined with itself. -/
def joined : List Hash → List Bytes
  | a :: b :: rest => (a.bytes ++ b.bytes) :: joined rest
  | [a] => [a.bytes ++ a.bytes]
  | [] => []

/-- The messages hashed for the tree over the leaves. -/
inductive InTree (D : Bytes → Hash) : List Hash → Bytes → Prop
  | here (l : List Hash) (m : Bytes) : 2 ≤ l.length → m ∈ joined l → InTree D l m
  | above (l : List Hash) (m : Bytes) : 2 ≤ l.length → InTree D ((joined l).map D) m → InTree D l m

/-- The messages hashed for a block: its header, its transactions, the tree over them. -/
inductive Hashed (D : Bytes → Hash) (b : Block) : Bytes → Prop
  | header : Hashed D b b.header.toData
  | tx (t : Tx) : t ∈ b.txs → Hashed D b (t.toData false)
  | node (m : Bytes) : InTree D (b.txs.map (Verif.Spec.txid D)) m → Hashed D b m

/-- Those, and the messages hashed for the witnesses: the complete transactions, the tree over them, and its root joined with
the reserved value. -/
inductive WitnessHashed (D : Bytes → Hash) (b : Block) : Bytes → Prop
  | nominal (m : Bytes) : Hashed D b m → WitnessHashed D b m
  | tx (t : Tx) : t ∈ b.txs → WitnessHashed D b (t.toData true)
  | node (m : Bytes) : InTree D (b.txs.map (Verif.Spec.wtxid D)) m → WitnessHashed D b m
  | commitment (root : Hash) (reserved : Bytes) :
      IsRoot (fun l r => D (l.bytes ++ r.bytes)) (b.txs.map (Verif.Spec.wtxid D)) root → coinbaseStack b.txs = [reserved] →
      WitnessHashed D b (root.bytes ++ reserved)

/-- Two different messages of a set with the same digest. -/
def Collision (D : Bytes → Hash) (S : Bytes → Prop) : Prop := ∃ x y, S x ∧ S y ∧ x ≠ y ∧ D x = D y

/-- A message of a set whose digest is zero from the sixth byte on (216 bits of it). -/
def NearZero (D : Bytes → Hash) (S : Bytes → Prop) : Prop := ∃ m, S m ∧ (D m).bytes.drop 5 = List.replicate 27 0

end Verif.BlockCommit
