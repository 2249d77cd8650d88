import Verif.Model.Golomb
/-!
# Specification: Golomb coded sets [bip158]
-/
namespace Verif.Golomb.Spec
open Verif

/-- The hashed value of an item for a set of `n` items at a false positive rate: the hash scaled to `0 .. n * rate - 1`. -/
def image (h : Bytes → Nat) (n rate : Nat) (x : Bytes) : Nat := h x * (rate * n) / 2 ^ 64

/-- The numbers an encoded set stands for: the running sums of the decoded deltas. -/
def decoded (bits : Nat) : Nat → Nat → Bit.Reader → List Nat
  | 0, _, _ => []
  | n + 1, previous, r => (previous + (decode r bits).1) :: decoded bits n (previous + (decode r bits).1) (decode r bits).2

/-- The script data a filter of a block's transactions is made of: nonempty scripts of spent outputs (of all but the coinbase) and nonempty scripts of
created outputs other than those starting with `OP_RETURN`. -/
inductive Element (prevout : Input → Option Output) (txs : List Tx) : Script → Prop
  | spent (t : Tx) (i : Input) (o : Output) : t ∈ txs → Validate.isCoinbase t = false → i ∈ t.inputs → prevout i = some o →
      o.script.ops ≠ [] → Element prevout txs o.script
  | created (t : Tx) (o : Output) : t ∈ txs → o ∈ t.outputs → o.script.ops ≠ [] → (∀ op, o.script.ops.head? = some op → op.code ≠ 106) →
      Element prevout txs o.script

end Verif.Golomb.Spec
