import Verif.Model.Chain
/-!
# Signature messages

The original message is that of the Satoshi client (`SignatureHash`): a copy of the transaction is changed as the type says, and
the copy and the type are hashed. The others are the lists of BIP143 and BIP341/BIP342.
-/
namespace Verif.Spec.Sighash
open Verif

/-- `SIGHASH_NONE`: the low five bits are two. -/
def isNone (type : UInt8) : Prop := type.toNat % 32 = 2
/-- `SIGHASH_SINGLE`: the low five bits are three. -/
def isSingle (type : UInt8) : Prop := type.toNat % 32 = 3
/-- `SIGHASH_ANYONECANPAY`: the high bit. -/
def isAnyoneCanPay (type : UInt8) : Prop := 128 ≤ type.toNat

instance (type : UInt8) : Decidable (isNone type) := inferInstanceAs (Decidable (_ = _))
instance (type : UInt8) : Decidable (isSingle type) := inferInstanceAs (Decidable (_ = _))
instance (type : UInt8) : Decidable (isAnyoneCanPay type) := inferInstanceAs (Decidable (_ ≤ _))

/-- An empty script. -/
def emptyScript : Script := Script.ofOps []
/-- `CTxOut::SetNull`: value minus one and an empty script. -/
def nullOut : Output := { value := 0xffffffffffffffff, script := emptyScript }

/-- The copy of the transaction that is hashed, for the signature of input `n`:
every input script is blank, that of input `n` is the code; for `NONE` and `SINGLE` the sequences of the other inputs are zero;
for `NONE` there are no outputs, for `SINGLE` those up to `n`, all but the last null; for `ANYONECANPAY` only input `n` is left. -/
def copy (t : Tx) (n : Nat) (code : List Op) (type : UInt8) : Tx :=
  let inputs := t.inputs.mapIdx fun k (i : Input) => { i with
    script := if k = n then Script.ofOps code else emptyScript
    sequence := if k ≠ n ∧ (isNone type ∨ isSingle type) then 0 else i.sequence }
  { t with
    inputs := if isAnyoneCanPay type then (inputs.drop n).take 1 else inputs
    outputs := if isNone type then [] else if isSingle type then (t.outputs.take (n + 1)).mapIdx fun k o => if k < n then nullOut else o
      else t.outputs }

/-- The original message: the copy without witnesses, and the type as four bytes. -/
def original (t : Tx) (n : Nat) (code : List Op) (type : UInt8) : Bytes := (copy t n code type).toData false ++ writeU32 type.toUInt32

/-- 32 zero bytes. -/
def zeros : Bytes := List.replicate 32 0

/-- BIP143 (`D` is the double SHA-256), items 1 to 10. -/
def bip143 (D : Bytes → Bytes) (t : Tx) (n : Nat) (inp : Input) (code : List Op) (amount : UInt64) (type : UInt8) : List Bytes :=
  [ writeU32 t.version,
    if isAnyoneCanPay type then zeros else D (t.inputs.flatMap fun i => i.point.toData),
    if isAnyoneCanPay type ∨ isSingle type ∨ isNone type then zeros else D (t.inputs.flatMap fun i => writeU32 i.sequence),
    inp.point.toData,
    (Script.ofOps code).toData true,
    writeU64 amount,
    writeU32 inp.sequence,
    if isSingle type then (if h : n < t.outputs.length then D t.outputs[n].toData else zeros)
      else if isNone type then zeros else D (t.outputs.flatMap Output.toData),
    writeU32 t.locktime,
    writeU32 type.toUInt32 ]

/-- The annex of a witness (BIP341): there are at least two elements and the first byte of the last is 0x50. -/
def annex (w : List Bytes) : Option Bytes :=
  match w.reverse with
  | (0x50 :: rest) :: _ :: _ => some (0x50 :: rest)
  | _ => none

/-- BIP341 with the extension of BIP342 (`S` is SHA-256): the epoch and the items of the message. `spent` are the outputs that are
spent (amount and script), `leaf` the tapleaf hash and the position of the last executed code separator of a tapscript. -/
def bip341 (S : Bytes → Bytes) (t : Tx) (spent : List Output) (n : Nat) (inp : Input) (own : Output) (leaf : Option (Bytes × UInt32))
    (type : UInt8) : List Bytes :=
  [[0], [type], writeU32 t.version, writeU32 t.locktime] ++
  (if isAnyoneCanPay type then [] else
    [S (t.inputs.flatMap fun i => i.point.toData), S (spent.flatMap fun o => writeU64 o.value),
     S (spent.flatMap fun o => o.script.toData true), S (t.inputs.flatMap fun i => writeU32 i.sequence)]) ++
  (if isNone type ∨ isSingle type then [] else [S (t.outputs.flatMap Output.toData)]) ++
  [[UInt8.ofNat ((if leaf.isSome then 1 else 0) * 2 + (if (annex inp.witness.stack).isSome then 1 else 0))]] ++
  (if isAnyoneCanPay type then [inp.point.toData, writeU64 own.value, own.script.toData true, writeU32 inp.sequence]
    else [writeU32 (UInt32.ofNat n)]) ++
  (match annex inp.witness.stack with | some a => [S (writeVariable a.length ++ a)] | none => []) ++
  (if isSingle type then (if h : n < t.outputs.length then [S t.outputs[n].toData] else []) else []) ++
  (match leaf with | some (hash, pos) => [hash, [0], writeU32 pos] | none => [])

/-! ### What a serialised transaction shows -/

/-- The fields of a serialised transaction: version, inputs (outpoint hash and index, script bytes, sequence), outputs (value, script
bytes), locktime. -/
structure View where
  version : UInt32
  inputs : List (Verif.Hash × UInt32 × Bytes × UInt32)
  outputs : List (UInt64 × Bytes)
  locktime : UInt32
  deriving DecidableEq

/-- The fields of a transaction. -/
def view (t : Tx) : View where
  version := t.version
  inputs := t.inputs.map fun i => (i.point.hash, i.point.index, opsData i.script.ops, i.sequence)
  outputs := t.outputs.map fun o => (o.value, opsData o.script.ops)
  locktime := t.locktime

/-- The transaction output an input spends. -/
def outpoint (i : Input) : Verif.Hash × UInt32 := (i.point.hash, i.point.index)
/-- Value and script bytes of an output. -/
def outFields (o : Output) : UInt64 × Bytes := (o.value, opsData o.script.ops)

/-- The two signings agree in all that the type says is signed. -/
structure Agree (type : UInt8) (t₁ : Tx) (n₁ : Nat) (c₁ : List Op) (t₂ : Tx) (n₂ : Nat) (c₂ : List Op) : Prop where
  version : t₁.version = t₂.version
  locktime : t₁.locktime = t₂.locktime
  code : opsData c₁ = opsData c₂
  /-- the outpoint and the sequence of the input that is signed -/
  own : (t₁.inputs[n₁]?).map (fun i => (outpoint i, i.sequence)) = (t₂.inputs[n₂]?).map (fun i => (outpoint i, i.sequence))
  /-- unless anyone can pay, its position and all outpoints -/
  inputs : ¬ isAnyoneCanPay type → n₁ = n₂ ∧ t₁.inputs.map outpoint = t₂.inputs.map outpoint
  /-- for `ALL`, all sequences -/
  sequences : ¬ isAnyoneCanPay type → ¬ isNone type → ¬ isSingle type → t₁.inputs.map Input.sequence = t₂.inputs.map Input.sequence
  /-- for `ALL`, all outputs -/
  outputs : ¬ isNone type → ¬ isSingle type → t₁.outputs.map outFields = t₂.outputs.map outFields
  /-- for `SINGLE`, the position and the output at it -/
  single : isSingle type → n₁ = n₂ ∧ (t₁.outputs[n₁]?).map outFields = (t₂.outputs[n₂]?).map outFields

/-- Agreement under BIP143: lists of outpoints, sequences and outputs by their double hashes. -/
structure Agree143 (D : Bytes → Bytes) (type : UInt8) (t₁ : Tx) (n₁ : Nat) (i₁ : Input) (c₁ : List Op) (a₁ : UInt64)
    (t₂ : Tx) (n₂ : Nat) (i₂ : Input) (c₂ : List Op) (a₂ : UInt64) : Prop where
  version : t₁.version = t₂.version
  locktime : t₁.locktime = t₂.locktime
  code : opsData c₁ = opsData c₂
  amount : a₁ = a₂
  own : outpoint i₁ = outpoint i₂ ∧ i₁.sequence = i₂.sequence
  outpoints : ¬ isAnyoneCanPay type → D (t₁.inputs.flatMap fun i => i.point.toData) = D (t₂.inputs.flatMap fun i => i.point.toData)
  sequences : ¬ isAnyoneCanPay type → ¬ isNone type → ¬ isSingle type →
    D (t₁.inputs.flatMap fun i => writeU32 i.sequence) = D (t₂.inputs.flatMap fun i => writeU32 i.sequence)
  outputs : ¬ isNone type → ¬ isSingle type → D (t₁.outputs.flatMap Output.toData) = D (t₂.outputs.flatMap Output.toData)
  /-- for `SINGLE` the output at the position of the input; zeros if there is none -/
  single : isSingle type → ((t₁.outputs[n₁]?).map fun o => D o.toData).getD zeros = ((t₂.outputs[n₂]?).map fun o => D o.toData).getD zeros

/-- Agreement under BIP341 and BIP342. -/
structure Agree341 (S : Bytes → Bytes) (type : UInt8) (t₁ : Tx) (s₁ : List Output) (n₁ : Nat) (i₁ : Input) (o₁ : Output) (l₁ : Option (Bytes × UInt32))
    (t₂ : Tx) (s₂ : List Output) (n₂ : Nat) (i₂ : Input) (o₂ : Output) (l₂ : Option (Bytes × UInt32)) : Prop where
  version : t₁.version = t₂.version
  locktime : t₁.locktime = t₂.locktime
  /-- tapleaf hash and code separator position, and whether this is a tapscript -/
  leaf : l₁ = l₂
  annex : (annex i₁.witness.stack).map (fun a => S (writeVariable a.length ++ a)) = (annex i₂.witness.stack).map (fun a => S (writeVariable a.length ++ a))
  /-- if anyone can pay: the outpoint, the sequence, and the amount and script that are spent -/
  own : isAnyoneCanPay type → outpoint i₁ = outpoint i₂ ∧ i₁.sequence = i₂.sequence ∧ outFields o₁ = outFields o₂
  /-- otherwise: the position, all outpoints, amounts, scripts and sequences -/
  inputs : ¬ isAnyoneCanPay type → UInt32.ofNat n₁ = UInt32.ofNat n₂ ∧
    S (t₁.inputs.flatMap fun i => i.point.toData) = S (t₂.inputs.flatMap fun i => i.point.toData) ∧
    S (s₁.flatMap fun o => writeU64 o.value) = S (s₂.flatMap fun o => writeU64 o.value) ∧
    S (s₁.flatMap fun o => o.script.toData true) = S (s₂.flatMap fun o => o.script.toData true) ∧
    S (t₁.inputs.flatMap fun i => writeU32 i.sequence) = S (t₂.inputs.flatMap fun i => writeU32 i.sequence)
  outputs : ¬ isNone type → ¬ isSingle type → S (t₁.outputs.flatMap Output.toData) = S (t₂.outputs.flatMap Output.toData)
  single : isSingle type → (t₁.outputs[n₁]?).map (fun o => S o.toData) = (t₂.outputs[n₂]?).map (fun o => S o.toData)

end Verif.Spec.Sighash
