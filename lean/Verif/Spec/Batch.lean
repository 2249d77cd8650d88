import Verif.Model.Batch
/-!
# Batches of signatures

What OP_CHECKMULTISIG asks of `n` keys and `m` signatures, and the rows that a store makes of the groups captured for a block
(secp256k1_batch.hpp:62-77 and the comment of multisig.hpp:41: signature `i` is paired with keys `i` up to `i + (n - m)`).
-/
namespace Verif.Spec.Batch
open Verif

/-- Each signature can be given a key that it is good for, in the order of the keys, and no key twice. -/
def Satisfied (good : Bytes → Bytes → Bool) (keys sigs : List Bytes) : Prop :=
  ∃ f : Nat → Nat, (∀ i j, i < j → j < sigs.length → f i < f j) ∧
    ∀ (i : Nat) s, sigs[i]? = some s → ∃ k, keys[f i]? = some k ∧ good k s = true

/-- A captured group: a digest, its keys and its signatures. -/
structure Group where
  digest : Bytes
  keys : List Bytes
  sigs : List Bytes
deriving DecidableEq

/-- An m of n multisig of no more than 16 keys, with the sizes of a digest, a compressed point and a compact signature. -/
structure Group.OK (g : Group) : Prop where
  some : 1 ≤ g.sigs.length
  enough : g.sigs.length ≤ g.keys.length
  few : g.keys.length ≤ 16
  digest : g.digest.length = 32
  keys : ∀ k ∈ g.keys, k.length = 33
  sigs : ∀ s ∈ g.sigs, s.length = 64

/-- The group is good, `V key digest signature` being the check of one signature. -/
def Group.Good (V : Bytes → Bytes → Bytes → Bool) (g : Group) : Prop := Satisfied (fun k s => V k g.digest s) g.keys g.sigs

/-- The row of signature `i` and key `j` of group number `o` of the block `id`. -/
def cell (id : Bytes) (o : Nat) (g : Group) (i j : Nat) : Verif.Batch.Row where
  id := id
  pair := UInt8.ofNat (16 * i + j)
  group := UInt16.ofNat o
  digest := g.digest
  point := g.keys[j]?.getD []
  signature := g.sigs[i]?.getD []

/-- The band of a group. -/
def expand (id : Bytes) (o : Nat) (g : Group) : List Verif.Batch.Row :=
  (List.range g.sigs.length).flatMap fun i => (List.range (g.keys.length - g.sigs.length + 1)).map fun d => cell id o g i (i + d)

/-- A block: its link in the store, and its groups in the order of capture. -/
structure Block where
  id : Bytes
  groups : List Group

/-- The rows of blocks, one block after the other. -/
def rows (blocks : List Block) : List Verif.Batch.Row :=
  blocks.flatMap fun b => b.groups.zipIdx.flatMap fun g => expand b.id g.2 g.1

/-- What the log may hold: links of different blocks, and group numbers of 16 bits. -/
structure Stored (blocks : List Block) : Prop where
  links : (blocks.map (·.id)).Nodup
  groups : ∀ b ∈ blocks, b.groups.length ≤ 65536
  ok : ∀ b ∈ blocks, ∀ g ∈ b.groups, g.OK

end Verif.Spec.Batch
