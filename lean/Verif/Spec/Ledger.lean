import Verif.Spec.Validate
/-!
# Specification: the ledger of unspent outputs
-/
namespace Verif.Validate.Spec
open Verif

/-- Unspent outputs by outpoint. -/
abbrev Ledger := List (Key × Output)

/-- The value of all unspent outputs, in unbounded arithmetic. -/
def total (u : Ledger) : Nat := (u.map fun e => e.2.value.toNat).sum

/-- The outputs transactions create. -/
def created (txid : Tx → Hash) (txs : List Tx) : Ledger :=
  txs.flatMap fun t => t.outputs.zipIdx.map fun p => ((txid t, UInt32.ofNat p.2), p.1)

/-- The ledger after a block: everything that was there or is created, except what the block spends. -/
def applyBlock (txid : Tx → Hash) (u : Ledger) (b : Block) : Ledger :=
  (u ++ created txid b.txs).filter fun e => decide (e.1 ∉ spentKeys b.txs)

end Verif.Validate.Spec
