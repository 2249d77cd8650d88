import Verif.Spec.Chain
import Verif.Spec.Merkle
import Verif.Model.Validate
/-!
# Specification: block and transaction rules

Written over the chain objects and their bytes; from the model only the data types (`Tx`, `Block`, `Ctx`, `Meta`, `Key`) are
used, and `Spec.sigops` for signature operations.
-/
namespace Verif.Validate.Spec
open Verif Verif.Merkle.Spec

/-- The outpoint of an input refers to nothing. -/
def NullPoint (p : Point) : Prop := p.hash = nullHash ∧ p.index = 0xffffffff

/-- A coinbase transaction: exactly one input, which refers to nothing. -/
def CoinbaseTx (t : Tx) : Prop := ∃ i, t.inputs = [i] ∧ NullPoint i.point

/-- The context free transaction rules. -/
structure TxValid (t : Tx) : Prop where
  hasInputs : t.inputs ≠ []
  hasOutputs : t.outputs ≠ []
  coinbaseScript : CoinbaseTx t → ∀ i ∈ t.inputs, 2 ≤ (opsData i.script.ops).length ∧ (opsData i.script.ops).length ≤ 100
  noNull : ¬ CoinbaseTx t → ∀ i ∈ t.inputs, ¬ NullPoint i.point

/-- Some transaction after the first spends an output of a transaction that comes later. -/
def ForwardRef (txid : Tx → Hash) (txs : List Tx) : Prop :=
  ∃ i j ti tj, 1 ≤ i ∧ i < j ∧ txs[i]? = some ti ∧ txs[j]? = some tj ∧ ∃ inp ∈ ti.inputs, inp.point.hash = txid tj

/-- The outpoints spent by all transactions but the first, in order. -/
def spentKeys (txs : List Tx) : List Key := txs.tail.flatMap fun t => t.inputs.map fun i => (i.point.hash, i.point.index)

/-- The context free block rules. -/
structure BlockValid (txid : Tx → Hash) (b : Block) : Prop where
  nonempty : b.txs ≠ []
  size : (b.toData false).length ≤ 1000000
  first : ∀ t, b.txs.head? = some t → CoinbaseTx t
  others : ∀ t ∈ b.txs.tail, ¬ CoinbaseTx t
  ordered : ¬ ForwardRef txid b.txs
  spends : (spentKeys b.txs).Nodup
  txs : ∀ t ∈ b.txs, TxValid t


/-- The first condition of a list that holds, with the code that belongs to it. -/
def FirstOf : List (Prop × Code) → Code → Prop
  | [], _ => False
  | (p, c) :: rest, e => (p ∧ e = c) ∨ (¬ p ∧ FirstOf rest e)

/-- The context free block rules in the order in which they are reported. `commitment` is the condition that the identity
check adds, `other` is the code of the first invalid transaction. -/
def blockRules (txid : Tx → Hash) (b : Block) (commitment : Prop) (c1 c2 : Code) : List (Prop × Code) := [
  (b.txs = [], .empty_block),
  (1000000 < (b.toData false).length, .block_size_limit),
  (¬ ∃ t, b.txs.head? = some t ∧ CoinbaseTx t, c1),
  (∃ t ∈ b.txs.tail, CoinbaseTx t, .extra_coinbases),
  (ForwardRef txid b.txs, .forward_reference),
  (¬ (spentKeys b.txs).Nodup, c2),
  (commitment, .invalid_transaction_commitment)]

/-- The context free transaction rules in the order in which they are reported. -/
def txRules (t : Tx) : List (Prop × Code) := [
  (t.inputs = [] ∨ t.outputs = [], .empty_transaction),
  (CoinbaseTx t ∧ ∃ i ∈ t.inputs, (opsData i.script.ops).length < 2 ∨ 100 < (opsData i.script.ops).length, .invalid_coinbase_script_size),
  (¬ CoinbaseTx t ∧ ∃ i ∈ t.inputs, NullPoint i.point, .previous_output_null)]

/-! ## Locks -/

/-- Bitcoin's finality rule: no lock, or lock height/time in the past, or every input final. -/
def Final (t : Tx) (height time : Nat) : Prop :=
  t.locktime = 0 ∨ t.locktime.toNat < (if t.locktime.toNat < 500000000 then height else time) ∨
    ∀ i ∈ t.inputs, i.sequence = 0xffffffff

/-- BIP68 for one input spending an output confirmed at `prevHeight`, with median time past `prevMtp` there: with the
disable bit (31) clear, the 16 bit value is a number of 512 second units (bit 22 set) or blocks that must have passed. -/
def SequenceLocked (sequence : UInt32) (height mtp prevHeight prevMtp : Nat) : Prop :=
  let value := sequence.toNat % 65536
  sequence.toNat.testBit 31 = false ∧ 0 < value ∧
    if sequence.toNat.testBit 22 then mtp < prevMtp + 512 * value else height < prevHeight + value

/-! ## Commitments in the coinbase -/

/-- BIP141 commitment output: OP_RETURN, a direct push of 36 bytes starting with the header; anything after is ignored. -/
def Commits (script : Bytes) (h : Bytes) : Prop :=
  h.length = 32 ∧ ∃ rest, script = [0x6a, 0x24, 0xaa, 0x21, 0xa9, 0xed] ++ h ++ rest

end Verif.Validate.Spec
