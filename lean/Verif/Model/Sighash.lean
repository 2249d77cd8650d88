import Verif.Model.Chain
/-!
# Signature hashing

src/chain/transaction_sighash.cpp, transaction_sighash_v0.cpp, transaction_sighash_v1.cpp, transaction_cache.cpp and
transaction.cpp:475-529. The input iterator is the index of an input. A writer into a hash is the hash of the bytes written
(property C38). `H` is `sha256_hash`; the double hash is `H ∘ H`; `T` is the hash tagged "TapSighash". A script has its
mutable `offset` (script.hpp:212): the subscript argument is the operations from the offset on, and a previous output keeps
the offset of its script explicitly because evaluation leaves it where the last code separator put it.
-/
namespace Verif.Sighash
open Verif

/-- `coverage` (include/bitcoin/system/chain/enums/coverage.hpp:32-93), after masking. -/
inductive Coverage | all | none | single
  deriving DecidableEq

/-- `mask_sighash` (include/bitcoin/system/impl/chain/transaction_patterns.ipp:35-46); `coverage::mask` is 31. -/
def maskSighash (flags : UInt8) : Coverage :=
  let m := flags &&& 31
  if m = 3 then .single else if m = 2 then .none else .all

/-- `is_anyone_can_pay` (transaction_patterns.ipp:48-51): bit 7. -/
def isAnyone (flags : UInt8) : Bool := decide ((flags >>> 7) &&& 1 = 1)

/-- `script::to_data(sink, true)` with `script::serialized_size(false)` (script.cpp:344-353, 458-465) of a script with an offset. -/
def scriptData (sc : Script) (offset : Nat) : Bytes :=
  writeVariable (if offset = 0 then sc.size else opsSize (sc.ops.drop offset)) ++ opsData (sc.ops.drop offset)

/-- `subscript.to_data(sink, true)`: the subscript by its operations. Used for transaction_sighash.cpp:80-82, 129-131, 166-168. -/
def subData (sub : List Op) : Bytes := scriptData (Script.ofOps sub) 0

/-- `null_output()` (transaction_sighash.cpp:39-43), `output::output()` (output.cpp:50-53), value `sighash_null_value`. -/
def nullOutput : Bytes := writeU64 0xffffffffffffffff ++ (Script.mk [] false 0).toData true
/-- `empty_script()` (transaction_sighash.cpp:45-49). -/
def emptyScript : Bytes := (Script.mk [] false 0).toData true
/-- `zero_sequence()` (transaction_sighash.cpp:51-55). -/
def zeroSequence : Bytes := writeU32 0

/-- `output_overflow` (transaction.cpp:486-489). -/
def outputOverflow (t : Tx) (i : Nat) : Bool := decide (t.outputs.length ≤ i)

/-- `input_index` (transaction.cpp:475-479). -/
def inputIndex (i : Nat) : Nat := i % 2 ^ 32

/-- The other inputs in `signature_hash_single` and `signature_hash_none` (transaction_sighash.cpp:73-78, 84-89, 122-127,
133-138). -/
def otherZero (i : Input) : Bytes := i.point.toData ++ emptyScript ++ zeroSequence
/-- The other inputs in `signature_hash_all` (transaction_sighash.cpp:159-164, 170-175). -/
def otherSeq (i : Input) : Bytes := i.point.toData ++ emptyScript ++ writeU32 i.sequence
/-- The input that is signed (transaction_sighash.cpp:80-82, 129-131, 166-168). -/
def signed (i : Input) (sub : List Op) : Bytes := i.point.toData ++ subData sub ++ writeU32 i.sequence

/-- `write_inputs` (transaction_sighash.cpp:66-90, 115-139, 152-176): the three lambdas differ in the other inputs only. -/
def writeInputs (other : Input → Bytes) (t : Tx) (i : Nat) (sub : List Op) (flags : UInt8) : Bytes :=
  let anyone := isAnyone flags
  writeVariable (if anyone then 1 else t.inputs.length) ++
  (if anyone then [] else (t.inputs.take i).flatMap other) ++
  (match t.inputs[i]? with | some inp => signed inp sub | none => []) ++
  (if anyone then [] else (t.inputs.drop (i + 1)).flatMap other)

/-- `write_outputs` of `signature_hash_single` (transaction_sighash.cpp:92-102). -/
def singleOutputs (t : Tx) (i : Nat) : Bytes :=
  let index := inputIndex i
  writeVariable (index + 1) ++ (List.range index).flatMap (fun _ => nullOutput) ++
  (match t.outputs[index]? with | some o => o.toData | none => [])

/-- `signature_hash_single` (transaction_sighash.cpp:62-109). -/
def hashSingle (t : Tx) (i : Nat) (sub : List Op) (flags : UInt8) : Bytes :=
  writeU32 t.version ++ writeInputs otherZero t i sub flags ++ singleOutputs t i ++ writeU32 t.locktime ++ writeU32 flags.toUInt32

/-- `signature_hash_none` (transaction_sighash.cpp:111-146). -/
def hashNone (t : Tx) (i : Nat) (sub : List Op) (flags : UInt8) : Bytes :=
  writeU32 t.version ++ writeInputs otherZero t i sub flags ++ writeVariable 0 ++ writeU32 t.locktime ++ writeU32 flags.toUInt32

/-- `signature_hash_all` (transaction_sighash.cpp:148-190). -/
def hashAll (t : Tx) (i : Nat) (sub : List Op) (flags : UInt8) : Bytes :=
  writeU32 t.version ++ writeInputs otherSeq t i sub flags ++ (writeVariable t.outputs.length ++ t.outputs.flatMap Output.toData) ++
  writeU32 t.locktime ++ writeU32 flags.toUInt32

/-- `one_hash` (include/bitcoin/system/hash/functions.hpp:77). -/
def oneHash : Bytes := 1 :: List.replicate 31 0

/-- `unversioned_sighash` (transaction_sighash.cpp:192-223). -/
def unversioned (H : Bytes → Bytes) (t : Tx) (i : Nat) (sub : List Op) (flags : UInt8) : Bytes :=
  let flag := maskSighash flags
  if flag = .single ∧ outputOverflow t (inputIndex i) = true then oneHash
  else match flag with
    | .single => H (H (hashSingle t i sub flags))
    | .none => H (H (hashNone t i sub flags))
    | .all => H (H (hashAll t i sub flags))

/-! ### Caches -/

/-- `input::prevout` (include/bitcoin/system/chain/input.hpp), with the offset of its script. Used for transaction_cache.cpp:158-182. -/
structure Prevout where
  value : UInt64
  script : Script
  offset : Nat

/-- `base_cache` (transaction.hpp:244-249). -/
structure Base where
  points : Bytes
  sequences : Bytes
  outputs : Bytes

/-- The caches `x1_base_cache_`, `x2_base_cache_`, `v1_only_cache_` (transaction.hpp:244-256): amounts and scripts. -/
structure Cache where
  x1 : Option Base := none
  x2 : Option Base := none
  v1 : Option (Bytes × Bytes) := none

/-- `x1_base_hash_points`, `x1_base_hash_sequences`, `x1_base_hash_outputs` (transaction_cache.cpp:122-156). -/
def hashPoints (H : Bytes → Bytes) (t : Tx) : Bytes := H (t.inputs.flatMap fun i => i.point.toData)
@[inherit_doc hashPoints] def hashSequences (H : Bytes → Bytes) (t : Tx) : Bytes := H (t.inputs.flatMap fun i => writeU32 i.sequence)
@[inherit_doc hashPoints] def hashOutputs (H : Bytes → Bytes) (t : Tx) : Bytes := H (t.outputs.flatMap Output.toData)
/-- `v1_only_hash_amounts`, `v1_only_hash_scripts` (transaction_cache.cpp:158-182); all previous outputs are populated. -/
def hashAmounts (H : Bytes → Bytes) (ps : List Prevout) : Bytes := H (ps.flatMap fun p => writeU64 p.value)
@[inherit_doc hashAmounts] def hashScripts (H : Bytes → Bytes) (ps : List Prevout) : Bytes := H (ps.flatMap fun p => scriptData p.script p.offset)

/-- `set_x1_base_hash` (transaction_cache.cpp:186-195, 223-239). -/
def setX1 (H : Bytes → Bytes) (t : Tx) (c : Cache) : Base × Cache :=
  match c.x1 with
  | some b => (b, c)
  | none =>
    let b : Base := ⟨hashPoints H t, hashSequences H t, hashOutputs H t⟩
    (b, { c with x1 := some b })

/-- `set_x2_base_hash` (transaction_cache.cpp:197-206, 256-272). -/
def setX2 (H : Bytes → Bytes) (t : Tx) (c : Cache) : Base × Cache :=
  match c.x2 with
  | some b => (b, c)
  | none =>
    let (b1, c) := setX1 H t c
    let b : Base := ⟨H b1.points, H b1.sequences, H b1.outputs⟩
    (b, { c with x2 := some b })

/-- `set_v1_only_hash` (transaction_cache.cpp:208-216, 241-251). -/
def setV1 (H : Bytes → Bytes) (ps : List Prevout) (c : Cache) : (Bytes × Bytes) × Cache :=
  match c.v1 with
  | some b => (b, c)
  | none =>
    let b := (hashAmounts H ps, hashScripts H ps)
    (b, { c with v1 := some b })

/-! ### Version 0 -/

/-- `null_hash`. Used for transaction_sighash_v0.cpp:36-52. -/
def nullHash : Bytes := List.replicate 32 0

/-- `output_hash_v0` (transaction_sighash_v0.cpp:36-52). -/
def outputHashV0 (H : Bytes → Bytes) (t : Tx) (i : Nat) : Bytes :=
  if outputOverflow t (inputIndex i) then nullHash
  else match t.outputs[inputIndex i]? with
    | some o => H (H o.toData)
    | none => []

/-- `version0_sighash` (transaction_sighash_v0.cpp:59-93): the bytes hashed, and the caches after it. -/
def preimage0 (H : Bytes → Bytes) (t : Tx) (i : Nat) (sub : List Op) (value : UInt64) (flags : UInt8) (c : Cache) : Bytes × Cache :=
  let flag := maskSighash flags
  let anyone := isAnyone flags
  let single := flag == .single
  let all := flag == .all
  let (points, c) := if !anyone then let r := setX2 H t c; (r.1.points, r.2) else (nullHash, c)
  let (sequences, c) := if !anyone && all then let r := setX2 H t c; (r.1.sequences, r.2) else (nullHash, c)
  let (outputs, c) := if single then (outputHashV0 H t i, c)
    else if all then let r := setX2 H t c; (r.1.outputs, r.2) else (nullHash, c)
  (writeU32 t.version ++ points ++ sequences ++
    (match t.inputs[i]? with
      | some inp => inp.point.toData ++ subData sub ++ writeU64 value ++ writeU32 inp.sequence
      | none => []) ++
    outputs ++ writeU32 t.locktime ++ writeU32 flags.toUInt32, c)

/-! ### Version 1 -/

/-- `subscript_v1` (transaction_sighash_v1.cpp:42-55); the offset of the script. -/
def subscriptV1 (ops : List Op) (offset : Nat) : UInt32 :=
  if ops.isEmpty then 0xffffffff
  else if offset = 0 then 0xffffffff else UInt32.ofNat (offset - 1)

/-- `spend_type_v1` (transaction_sighash_v1.cpp:57-64). -/
def spendType (annex tapscript : Bool) : UInt8 := ((if tapscript then (1 : UInt8) else 0) <<< 1) ||| (if annex then 1 else 0)

/-- `annex::is_annex_pattern`, `witness::annex` (include/bitcoin/system/impl/chain/annex.ipp:49-52, 91-101). -/
def annex (w : Witness) : Option Bytes :=
  if w.stack.length ≤ 1 then none
  else match w.stack.getLast? with
    | some top => if top.head? = some 0x50 then some top else none
    | none => none

/-- `annex::hash(true)` (annex.ipp:76-88). -/
def annexHash (H : Bytes → Bytes) (a : Bytes) : Bytes := H (writeVariable a.length ++ a)

/-- `version1_sighash` (transaction_sighash_v1.cpp:66-154): the bytes hashed (`none` if it returns false), and the caches after
it. `leaf` is the tapleaf hash of a tapscript. The previous outputs are those of all inputs; if `missing` that of this
input is not populated. -/
def preimage1 (H : Bytes → Bytes) (t : Tx) (ps : List Prevout) (missing : Bool) (i : Nat) (ops : List Op) (offset : Nat)
    (value : UInt64) (leaf : Option Bytes) (flags : UInt8) (c : Cache) : Option Bytes × Cache :=
  match t.inputs[i]?, ps[i]? with
  | some inp, some prev =>
    let ann := annex inp.witness
    let flag := maskSighash flags
    let anyone := isAnyone flags
    let single := flag == .single
    let all := flag == .all
    if anyone && missing then (none, c)
    else if single && outputOverflow t (inputIndex i) then (none, c)
    else
      let (ins, c) := if !anyone then
          let r1 := setX1 H t c
          let r2 := setV1 H ps r1.2
          (r1.1.points ++ r2.1.1 ++ r2.1.2 ++ r1.1.sequences, r2.2)
        else ([], c)
      let (outs, c) := if all then let r := setX1 H t c; (r.1.outputs, r.2) else ([], c)
      (some (
        [0] ++ [flags] ++ writeU32 t.version ++ writeU32 t.locktime ++ ins ++ outs ++ [spendType ann.isSome leaf.isSome] ++
        (if anyone then inp.point.toData ++ writeU64 value ++ scriptData prev.script prev.offset ++ writeU32 inp.sequence
          else writeU32 (UInt32.ofNat (inputIndex i))) ++
        (match ann with | some a => annexHash H a | none => []) ++
        (if single then (match t.outputs[inputIndex i]? with | some o => H o.toData | none => []) else []) ++
        (match leaf with | some l => l ++ [0] ++ writeU32 (subscriptV1 ops offset) | none => [])), c)
  | _, _ => (none, c)

/-! ### Dispatch -/

/-- `script_version` (include/bitcoin/system/chain/enums/script_version.hpp). Used for transaction.cpp:446-470. -/
inductive Version | unversioned | segwit | taproot | reserved
  deriving DecidableEq

/-- The arguments of `signature_hash` and the forks of its flags. The script is given by its operations and its offset. Used for transaction.cpp:493-529. -/
structure Call where
  input : Nat
  ops : List Op
  offset : Nat
  value : UInt64
  leaf : Option Bytes
  version : Version
  sighashFlags : UInt8
  bip143 : Bool
  bip342 : Bool

/-- `signature_hash` (transaction.cpp:493-529). Versions other than 1 write the script from its offset on; `T` is the hash tagged
"TapSighash". All previous outputs are populated. -/
def signatureHash (H T : Bytes → Bytes) (t : Tx) (ps : List Prevout) (k : Call) (c : Cache) : Option Bytes × Cache :=
  if k.bip143 && k.version == .segwit then
    let r := preimage0 H t k.input (k.ops.drop k.offset) k.value k.sighashFlags c
    (some (H (H r.1)), r.2)
  else if k.bip342 && k.version == .taproot then
    let r := preimage1 H t ps false k.input k.ops k.offset k.value k.leaf k.sighashFlags c
    (r.1.map T, r.2)
  else (some (unversioned H t k.input (k.ops.drop k.offset) k.sighashFlags), c)

/-- A history of calls on one transaction: the results, and the caches after them. -/
def signatureHashes (H T : Bytes → Bytes) (t : Tx) (ps : List Prevout) : List Call → Cache → List (Option Bytes) × Cache
  | [], c => ([], c)
  | k :: ks, c =>
    let r := signatureHash H T t ps k c
    let rs := signatureHashes H T t ps ks r.2
    (r.1 :: rs.1, rs.2)

end Verif.Sighash
