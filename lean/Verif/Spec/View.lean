import Verif.Spec.Chain
import Verif.Model.View
/-!
# What a block view accepts

A transaction that a view can read: well formed, with inputs and outputs, scripts of at most `max_bytes`, and, if it carries
witnesses, at least one witness element that is not empty.
-/
namespace Verif.Spec

structure Viewable (t : Tx) : Prop where
  writable : t.Writable
  inputs : t.inputs ≠ []
  outputs : t.outputs ≠ []
  inSizes : ∀ i ∈ t.inputs, (opsData i.script.ops).length ≤ maxBytes
  outSizes : ∀ o ∈ t.outputs, (opsData o.script.ops).length ≤ maxBytes
  elements : t.segregated = true → someElement t.inputs = true

/-- A block with at least one transaction, all of them viewable. -/
structure ViewableBlock (b : Block) : Prop where
  count : b.txs.length ≤ maxCount
  some : b.txs ≠ []
  txs : ∀ t ∈ b.txs, Viewable t

/-- The transaction as seen with (`true`) or without its witnesses. -/
def seen (witness : Bool) (t : Tx) : Tx := if witness then t else t.stripped
/-- The block as seen with or without witnesses. -/
def seenBlock (witness : Bool) (b : Block) : Block := { b with txs := b.txs.map (seen witness) }

/-- The view `x` says the same as the transaction object `t`: counts, fields, sizes, serialisations, hashes and the byte ranges
of inputs, outputs and witnesses. `first`: the transaction is the first of its block. -/
structure Agrees (H : Bytes → Hash) (first : Bool) (x : Views.TxView) (t : Tx) : Prop where
  valid : x.isValid = true
  coinbase : x.coinbase = first
  version : x.version = t.version
  locktime : x.locktime = t.locktime
  inputs : x.inCount = t.inputs.length
  outputs : x.outCount = t.outputs.length
  segregated : x.segregated = t.segregated
  nullPoint : ∀ i is, t.inputs = i :: is → x.isNullPoint = Validate.pointNull i.point
  data : ∀ w, x.toData w = t.toData w
  size : ∀ w, x.serializedSize w = (t.toData w).length
  txid : x.hash false = H (t.toData false)
  wtxid : x.hash true = if t.segregated then (if first then nullHash else H (t.toData true)) else H (t.toData false)
  inputsData : x.inputsStream = t.inputs.flatMap Input.toData ++ (writeVariable t.outputs.length ++ t.outputs.flatMap Output.toData)
  outputsData : x.outputsStream = t.outputs.flatMap Output.toData
  /-- Sizes in the store: scripts with size prefix, and one witness stack per input. -/
  inputTable : x.inputTableSize false = (t.inputs.map fun i => (i.script.toData true).length).sum +
    (t.inputs.map fun i => (i.witness.toData true).length).sum
  pruned : x.inputTableSize true = 2 * t.inputs.length
  outputTable : x.outputTableSize = (t.outputs.map fun o => variableSize o.value.toNat + (o.script.toData true).length).sum

end Verif.Spec
