import Verif.Model.Connect
import Verif.Model.Secp
import Verif.Model.Number
/-!
# Script patterns and their classification

Source: include/bitcoin/system/impl/chain/script_patterns.ipp unless said otherwise. A pattern that walks an iterator returns `none` where
the code would dereference a position outside the operations.
-/
namespace Verif.Pattern
open Verif Verif.Ec
open Verif.Machine (opcodeFromSize)

/-- `is_endorsement` (src/crypto/secp256k1/keys.cpp:134-138). -/
def isEndorsement (d : Bytes) : Bool := decide (9 ≤ d.length) && decide (d.length ≤ 73)
/-- `operation::is_push` (impl/chain/operation_patterns.ipp:157-161). -/
def isPush (code : UInt8) : Bool := isRelaxedPush code && code != 80
/-- `operation::is_payload` (operation_patterns.ipp:164-169). -/
def isPayload (code : UInt8) : Bool := 1 ≤ code && code ≤ 78
/-- `operation::opcode_to_nonnegative` (operation_patterns.ipp:46-51). -/
def opcodeToNonnegative (code : UInt8) : Nat := if code = 0 then 0 else opcodeToPositive code
/-- `operation::as_unsigned32` (src/chain/operation.cpp:501-517). -/
def asUnsigned32 (o : Op) : Option Nat :=
  if isNonnegative o.code then some (opcodeToNonnegative o.code)
  else if !isPayload o.code then none
  else match Num.integerFromChunk 4 32 o.data with
    | none => none
    | some v => if v < 0 then none else some v.toNat

/-- `is_push_only_pattern` (script_patterns.ipp:49-57). -/
def pushOnly (ops : List Op) : Bool := ops.all fun o => isPush o.code
/-- `is_pay_null_data_pattern` (script_patterns.ipp:117-124). -/
def payNullData (ops : List Op) : Bool :=
  match ops with
  | [a, b] => a.code == 106 && b.isMinimalPush && decide (b.data.length ≤ 80)
  | _ => false
/-- `is_pay_public_key_pattern` (script_patterns.ipp:133-140). -/
def payPublicKey (ops : List Op) : Bool :=
  match ops with
  | [a, b] => isPublicKey a.data && b.code == 172
  | _ => false
/-- The `signatures` lambda of `is_pay_multisig_pattern` (script_patterns.ipp:326-335). -/
def signatures (o : Op) : Nat :=
  match asUnsigned32 o with
  | none => 0
  | some c => if c < 1 ∨ 20 < c then 0 else c
/-- `is_pay_multisig_pattern` (script_patterns.ipp:317-340). -/
def payMultisig (ops : List Op) : Bool :=
  match ops.head?, ops[ops.length - 2]?, ops.getLast? with
  | some f, some s, some l =>
    if ops.length < 4 ∨ l.code ≠ 174 then false
    else
      let m := signatures f
      let n := signatures s
      m != 0 && n != 0 && !decide (n < m) && n == ops.length - 3
  | _, _, _ => false
/-- `is_pay_multisig_standard_pattern` (script_patterns.ipp:288-315). -/
def payMultisigStandard (ops : List Op) : Bool :=
  match ops.head?, ops[ops.length - 2]?, ops.getLast? with
  | some f, some s, some l =>
    if ops.length < 4 ∨ l.code ≠ 174 then false
    else if !isPositive f.code || !isPositive s.code then false
    else
      let m := opcodeToPositive f.code
      let n := opcodeToPositive s.code
      if m = 0 ∨ n = 0 ∨ n < m ∨ 16 < n ∨ n ≠ ops.length - 3 then false
      else ((ops.drop 1).take (ops.length - 3)).all fun o => isPublicKey o.data
  | _, _, _ => false
/-- `is_sign_multisig_pattern` (script_patterns.ipp:342-354). -/
def signMultisig (ops : List Op) : Bool :=
  match ops with
  | a :: b :: r => a.code == 0 && (b :: r).all fun o => isEndorsement o.data
  | _ => false
/-- `is_sign_public_key_pattern` (script_patterns.ipp:356-361). -/
def signPublicKey (ops : List Op) : Bool :=
  match ops with
  | [a] => isEndorsement a.data
  | _ => false
/-- `is_sign_key_hash_pattern` (script_patterns.ipp:363-371). -/
def signKeyHash (ops : List Op) : Bool :=
  match ops with
  | [a, b] => isEndorsement a.data && isPublicKey b.data
  | _ => false
/-- `is_sign_script_hash_pattern` (script_patterns.ipp:373-381). -/
def signScriptHash (ops : List Op) : Bool :=
  match ops.getLast? with
  | some l => pushOnly ops && !l.data.isEmpty
  | none => false

/-- `script_pattern` (include/bitcoin/system/chain/enums/script_pattern.hpp), the values that are returned. Used for script_extract.cpp:67-96. -/
inductive Kind
  | payNullData | payMultisig | payPublicKey | payKeyHash | payScriptHash | payWitnessKeyHash | payWitnessScriptHash | payTaproot
  | signMultisig | signPublicKey | signKeyHash | signScriptHash | nonStandard
  deriving DecidableEq

/-- `script::output_pattern` (src/chain/script_extract.cpp:67-96). -/
def outputPattern (ops : List Op) : Kind :=
  if payKeyHashPattern ops then .payKeyHash
  else if payScriptHashPattern ops then .payScriptHash
  else if payNullData ops then .payNullData
  else if payPublicKey ops then .payPublicKey
  else if payMultisig ops then .payMultisig
  else if payWitnessKeyHashPattern ops then .payWitnessKeyHash
  else if payWitnessScriptHashPattern ops then .payWitnessScriptHash
  else if payWitnessTaprootPattern ops then .payTaproot
  else .nonStandard
/-- `script::input_pattern` (script_extract.cpp:98-116). -/
def inputPattern (ops : List Op) : Kind :=
  if signKeyHash ops then .signKeyHash
  else if signScriptHash ops then .signScriptHash
  else if signPublicKey ops then .signPublicKey
  else if signMultisig ops then .signMultisig
  else .nonStandard
/-- `script::pattern` (script_extract.cpp:61-65). -/
def pattern (ops : List Op) : Kind :=
  if outputPattern ops = .nonStandard then inputPattern ops else outputPattern ops

/-! ## Builders -/

/-- An operation made of data, not minimal: `operation(data, false)` (src/chain/operation.cpp:91-101, 160-186). -/
def push (d : Bytes) : Op := { code := opcodeFromSize d.length, data := d }
/-- `to_pay_null_data_pattern` (script_patterns.ipp:383-394). -/
def toPayNullData (d : Bytes) : List Op := if 80 < d.length then [] else [{ code := 106 }, push d]
/-- `to_pay_public_key_pattern` (script_patterns.ipp:396-407). -/
def toPayPublicKey (d : Bytes) : List Op := if !isPublicKey d then [] else [push d, { code := 172 }]
/-- `to_pay_script_hash_pattern` (script_patterns.ipp:430-439). -/
def toPayScriptHash (h : Bytes) : List Op := [{ code := 169 }, push h, { code := 135 }]
/-- `to_pay_multisig_pattern` (script_patterns.ipp:441-483); `m` is a byte. -/
def toPayMultisig (m : UInt8) (points : List Bytes) : List Op :=
  if m.toNat < 1 ∨ points.length < m.toNat ∨ points.length < 1 ∨ 16 < points.length then []
  else if !(points.all isPublicKey) then []
  else [{ code := m + 80 }] ++ points.map push ++ [{ code := UInt8.ofNat (points.length + 80) }, { code := 174 }]
/-- `opcode_from_nonnegative` (operation_patterns.ipp:100-105): OP_0 or OP_1 to OP_16. -/
def opcodeFromNonnegative (v : UInt8) : UInt8 := if v = 0 then 0 else v + 80
/-- `to_pay_witness_pattern` (script_patterns.ipp:485-493). -/
def toPayWitness (version : UInt8) (d : Bytes) : List Op := [{ code := opcodeFromNonnegative version }, push d]

/-! ## Tapscript patterns -/

/-- `operation::is_threshold` (operation_patterns.ipp:201-218). -/
def isThreshold (code : UInt8) : Bool := (156 ≤ code && code ≤ 162) || code == 165

/-- The iterator: `none` at or after the end. Used for script_patterns.ipp:233-265. -/
def at_ (ops : List Op) (i : Nat) : Option Op := ops[i]?

/-- A loop `while (op != stop)` taking two operations a turn: the position after it, or the result of the pattern, or `none` for a
dereference outside. `second` is the code wanted of the second. Bounded by the number of operations, after which the iterator would
have left the sequence. Used for script_patterns.ipp:233-265. -/
def pairLoop (ops : List Op) (stop : Nat) (second : UInt8) : Nat → Nat → Option (Nat ⊕ Bool)
  | 0, _ => none
  | f + 1, i =>
    if i = stop then some (.inl i)
    else match at_ ops i with
      | none => none
      | some a =>
        if a.data.length ≠ 32 then some (.inr false)
        else match at_ ops (i + 1) with
          | none => none
          | some c => if c.code ≠ second then some (.inr false) else pairLoop ops stop second f (i + 2)

/-- `is_pay_tapscript_threshold_pattern` (script_patterns.ipp:233-265); checksigadd = 186, within = 165. -/
def payTapscriptThreshold (ops : List Op) : Option Bool := do
  if ops.length = 0 then return false
  let last ← ops.getLast?
  let within := last.code == 165
  if (decide (ops.length % 2 = 0) == within) || decide (ops.length < 4 + (if within then 1 else 0)) then return false
  let a ← at_ ops 0
  if a.data.length ≠ 32 then return false
  let c ← at_ ops 1
  if c.code ≠ 172 then return false
  match ← pairLoop ops (ops.length - (2 + if within then 1 else 0)) 186 (ops.length + 1) 2 with
  | .inr r => return r
  | .inl i =>
    let x ← at_ ops i
    if (asUnsigned32 x).isNone then return false
    if within then
      let y ← at_ ops (i + 1)
      if (asUnsigned32 y).isNone then return false
      let z ← at_ ops (i + 2)
      return isThreshold z.code
    else
      let z ← at_ ops (i + 1)
      return isThreshold z.code

/-- `is_pay_tapscript_multisig_pattern` (script_patterns.ipp:267-286); checksigverify = 173. -/
def payTapscriptMultisig (ops : List Op) : Option Bool := do
  if ops.length < 2 ∨ ops.length % 2 ≠ 0 then return false
  match ← pairLoop ops (ops.length - 2) 173 (ops.length + 1) 0 with
  | .inr r => return r
  | .inl i =>
    let x ← at_ ops i
    if x.data.length ≠ 32 then return false
    let z ← at_ ops (i + 1)
    return z.code == 172

end Verif.Pattern
