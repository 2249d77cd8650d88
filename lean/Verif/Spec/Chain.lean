import Verif.Model.Chain
/-!
# Specification vocabulary for the chain codecs

Predicates saying which objects are well formed; independent of the parsing code.
-/
namespace Verif

/-- The size `n` can be declared by `code`. -/
def SizeFits (code : UInt8) (n : Nat) : Prop :=
  if code = 76 then n < 256
  else if code = 77 then n < 2 ^ 16
  else if code = 78 then n < 2 ^ 32
  else if code ≤ 75 then n = code.toNat
  else n = 0

/-- A pushing operation whose data size agrees with its opcode (what `from_data` yields and `to_data` can encode). -/
structure Op.Consistent (o : Op) : Prop where
  notUnder : o.underflow = false
  fits : SizeFits o.code o.data.length
  bound : o.data.length ≤ maxBytes

/-- An operation list that some byte string parses to: all operations consistent, except that the last may be
an underflow holding bytes that start no complete operation. -/
inductive OpsOK : List Op → Prop
  | nil : OpsOK []
  | under (d : Bytes) (hne : d ≠ []) (h : ∀ o : Op, o.Consistent → ¬ o.toData <+: d) :
      OpsOK [{ code := anyInvalid, data := d, underflow := true }]
  | cons (o : Op) (os : List Op) (h : o.Consistent) (t : OpsOK os) : OpsOK (o :: os)

/-- The script can have been parsed, or built from consistent operations: its cached size is the byte count. -/
structure Script.Writable (sc : Script) : Prop where
  ops : OpsOK sc.ops
  size : sc.size = (opsData sc.ops).length

structure Witness.Writable (w : Witness) : Prop where
  count : w.stack.length ≤ maxBytes
  elements : ∀ e ∈ w.stack, e.length ≤ maxBytes

/-- What must hold of a transaction object for its wire form to be parsed back. -/
structure Tx.Writable (t : Tx) : Prop where
  inScripts : ∀ i ∈ t.inputs, i.script.Writable
  outScripts : ∀ o ∈ t.outputs, o.script.Writable
  inCount : t.inputs.length ≤ maxCount
  outCount : t.outputs.length ≤ maxCount
  witnesses : t.segregated = true → ∀ i ∈ t.inputs, i.witness.Writable
  segregated : t.segregated = segregatedInputs t.inputs
  unambiguous : t.inputs = [] → t.outputs.length ≠ 1

/-- The block can be parsed back. -/
structure Block.Writable (b : Block) : Prop where
  count : b.txs.length ≤ maxCount
  txs : ∀ t ∈ b.txs, t.Writable

/-- The cached sizes of the scripts and witnesses are the ones the constructors and parsers set. -/
def Script.Sized (s : Script) : Prop := s.size = opsSize s.ops
def Witness.Sized (w : Witness) : Prop := w.size = stackSize w.stack
def Input.Sized (i : Input) : Prop := i.script.Sized ∧ i.witness.Sized
def Output.Sized (o : Output) : Prop := o.script.Sized
def Tx.Sized (t : Tx) : Prop := (∀ i ∈ t.inputs, i.Sized) ∧ ∀ o ∈ t.outputs, o.Sized
def Block.Sized (b : Block) : Prop := ∀ t ∈ b.txs, t.Sized

/-- Some witness element of some input is non-empty. -/
def someElement (is : List Input) : Bool := is.any fun i => i.witness.stack.any fun e => !e.isEmpty

/-- The transaction without its witnesses. -/
def Tx.stripped (t : Tx) : Tx :=
  { t with inputs := t.inputs.map (fun i => { i with witness := Witness.empty }), segregated := false }


end Verif
