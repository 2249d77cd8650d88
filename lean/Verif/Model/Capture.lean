import Verif.Model.Batch
import Verif.Model.Patterns
import Verif.Model.Connect
/-!
# Capture of signatures by the script machine

Sources: include/bitcoin/system/impl/machine/program_batch.ipp, interpreter.ipp, interpreter_run.ipp, interpreter_connect.ipp,
include/bitcoin/system/chain/batch/{cursor,threshold,signatures}.hpp, src/chain/script_extract.cpp. The machine of `Model/Machine` and
`Model/Connect` is the one that verifies every signature inline; here is the one that is given a capture context (`signatures`). Handlers
that check no signature are those of `Model/Machine`, lifted. The reports of what was missed, batched or faulted (`fire`, `log`, `batched`,
`faulted`, `thresholds_`) are not modelled, nothing reads them. The stack is the list container.
-/
namespace Verif.Capture
open Verif Verif.Machine

/-- What a program captures into: the accumulators of the thread (signatures.hpp:56-121, 299-303) and `threshold_.sink`
(program.hpp:277, cursor.hpp:36-64), kept as the number of rows that remain to be written, zero where it is closed. -/
structure Cap where
  log : Batch.Log := {}
  rows : List (Bytes × Bytes × Bytes) := []
  sink : Nat := 0
deriving DecidableEq

/-- What a program reads: the environment, `capture_.enabled` (signatures.hpp:350-351), `spender_` (program_construct.ipp:49), and
`compress` of an uncompressed point, uninterpreted (`none` is a `false` return). -/
structure Ctx where
  env : Env
  enabled : Bool
  spender : Bool
  compress : Bytes → Option Bytes

/-- Handlers that may capture. Used for program_batch.ipp:157-181. -/
abbrev MC (α : Type) := StateT (St (List Val) × Cap) Option α

/-- A handler that does not. Used for interpreter.ipp:1015-1088. -/
def lift {α : Type} (m : M (List Val) α) : MC α := fun s => (m s.1).map fun r => (r.1, r.2, s.2)

/-! ## What is batchable: program_batch.ipp -/

/-- `to_compressed` (program_batch.ipp:250-267). -/
def toCompressed (c : Ctx) (point : Bytes) : Option Bytes :=
  if point.length = 33 then some point else if point.length = 65 then c.compress point else none
/-- `is_ecdsa_batchable` (program_batch.ipp:281-291). -/
def ecdsaBatchable (c : Ctx) : Bool := !c.spender && (Pattern.payPublicKey c.env.ops || payKeyHashPattern c.env.ops)
/-- `is_multisig_batchable` (program_batch.ipp:293-302). -/
def multisigBatchable (c : Ctx) : Bool := !c.spender && Pattern.payMultisigStandard c.env.ops
/-- `is_pay_taproot_key_path_pattern` (script_patterns.ipp:196-202). -/
def taprootKeyPath (ops : List Op) : Bool :=
  match ops with
  | [a] => a.code == 172
  | _ => false
/-- `is_pay_tapscript_single_pattern` (script_patterns.ipp:204-210). -/
def tapscriptSingle (ops : List Op) : Bool :=
  match ops with
  | [a, b] => a.data.length == 32 && b.code == 172
  | _ => false
/-- `is_pay_tapscript_timelock_pattern` (script_patterns.ipp:212-221); `operation::is_timelock` (operation_patterns.ipp:194-199) is
checklocktimeverify = 177 or checksequenceverify = 178, drop = 117. -/
def tapscriptTimelock (ops : List Op) : Bool :=
  match ops with
  | [a, b, c, d, e] => isNonnegative a.code && (b.code == 177 || b.code == 178) && c.code == 117 && d.data.length == 32 && e.code == 172
  | _ => false
/-- `is_pay_tapscript_inscription_pattern` (script_patterns.ipp:223-232); if = 99, endif = 104. -/
def tapscriptInscription (ops : List Op) : Bool :=
  match ops with
  | a :: b :: c :: d :: e :: r => a.data.length == 32 && b.code == 172 && c.code == 0 && d.code == 99 &&
      (((e :: r).getLast?.map (·.code)) == some 104)
  | _ => false
/-- `is_schnorr_batchable` (program_batch.ipp:304-316). -/
def schnorrBatchable (c : Ctx) : Bool :=
  !c.spender && (taprootKeyPath c.env.ops || tapscriptSingle c.env.ops || tapscriptTimelock c.env.ops || tapscriptInscription c.env.ops)

/-- `script::extract_tapscript_threshold` (script_extract.cpp:180-207): the opcode, the minimum and the maximum. The outer `none` is an
access outside of the operations; xor = 134 stands for no threshold. -/
def extractThreshold (ops : List Op) : Option (UInt8 × Nat × Nat) := do
  if ← Pattern.payTapscriptMultisig ops then return (172, ops.length / 2, ops.length / 2)
  if ← Pattern.payTapscriptThreshold ops then
    let x ← ops[ops.length - 2]?
    match Pattern.asUnsigned32 x with
    | none => return (134, 0, 0)
    | some value =>
      let last ← ops.getLast?
      if last.code ≠ 165 then return (last.code, value, value)
      let y ← ops[ops.length - 3]?
      match Pattern.asUnsigned32 y with
      | none => return (134, value, value)
      | some low => return (last.code, low, value)
  return (134, 0, 0)

/-- `threshold::is_satisfied` (threshold.hpp:41-77): checksig, numequal, numequalverify, numnotequal, lessthan, greaterthan,
lessthanorequal, greaterthanorequal, within. -/
def thresholdSatisfied (code : UInt8) (expected minimum maximum : Nat) : Bool :=
  if code = 172 ∨ code = 156 then expected == minimum
  else if code = 157 then false
  else if code = 158 then expected != minimum
  else if code = 159 then decide (expected < minimum)
  else if code = 160 then decide (expected > minimum)
  else if code = 161 then decide (expected ≤ minimum)
  else if code = 162 then decide (expected ≥ minimum)
  else if code = 165 then decide (expected ≥ minimum) && decide (expected < maximum)
  else false

/-- An element that `peek_nonempty` counts (stack_variant.ipp:238-266). -/
def nonempty : Val → Bool
  | .bool b => b
  | .int i => i != 0
  | .chunk b => !b.isEmpty

/-- `is_threshold_batchable` (program_batch.ipp:157-181), which may open the cursor. -/
def thresholdBatchable (c : Ctx) : MC Bool := fun (s, cap) =>
  if c.spender then some (false, s, cap)
  else if cap.sink ≠ 0 then some (true, s, cap)
  else match extractThreshold c.env.ops with
    | none => none
    | some (code, min, max) =>
      let expected := (s.primary.filter nonempty).length + 1
      if !thresholdSatisfied code expected min max then some (false, s, cap)
      else some (true, s, { cap with sink := expected })

/-! ## Verification: program_batch.ipp -/

/-- `verify_ecdsa_signature` with `capture` (program_batch.ipp:39-76). -/
def verifyEcdsa (c : Ctx) (point hash signature : Bytes) : MC Bool := fun (s, cap) =>
  if c.enabled && ecdsaBatchable c then
    match toCompressed c point with
    | none => some (c.env.verifyEcdsa point hash signature, s, cap)
    | some key =>
      match cap.log.appendSingle hash key signature with
      | some log => some (true, s, { cap with log := log })
      | none => some (c.env.verifyEcdsa point hash signature, s, cap)
  else some (c.env.verifyEcdsa point hash signature, s, cap)

/-- The loop of `parse_ecdsa_signatures` (program_batch.ipp:207-224), given the byte that was seen first, if any. -/
def parseLoop (c : Ctx) : Option UInt8 → List Bytes → Option (Option UInt8 × List Bytes)
  | byte, [] => some (byte, [])
  | byte, sig :: rest =>
    if sig = [] then none
    else
      let back := sig.getLastD 0
      if byte.any fun b => b != back then none
      else match c.env.decodeSig sig.dropLast c.env.flags.bip66 with
        | none => none
        | some out => (parseLoop c (some back) rest).map fun r => (r.1, out :: r.2)

/-- `parse_ecdsa_signatures` (program_batch.ipp:201-233). -/
def parseSignatures (c : Ctx) (endorsements : List Bytes) : Option (UInt8 × List Bytes) :=
  match parseLoop c none endorsements with
  | some (some byte, sigs) => some (byte, sigs)
  | _ => none

/-- `compress_public_keys` (program_batch.ipp:235-248). -/
def compressKeys (c : Ctx) : List Bytes → Option (List Bytes)
  | [] => some []
  | key :: keys =>
    match toCompressed c key with
    | none => none
    | some k => (compressKeys c keys).map fun r => k :: r

/-- `try_batch_multisig_verification` with `parse_ecdsa_multisig` (program_batch.ipp:78-119, 187-199). The arrays of keys and of signatures
hold `multisig::maximum` elements (program.hpp), writing after them is undefined. -/
def tryMultisig (c : Ctx) (points endorsements : List Bytes) : MC Bool := fun (s, cap) =>
  if !c.enabled then some (false, s, cap)
  else if !multisigBatchable c then some (false, s, cap)
  else if points.length > Batch.multisigMaximum ∨ endorsements.length > Batch.multisigMaximum then none
  else match parseSignatures c endorsements with
    | none => some (false, s, cap)
    | some (byte, sigs) =>
      match compressKeys c points with
      | none => some (false, s, cap)
      | some keys =>
        match subscript c.env endorsements s with
        | none => none
        | some (sub, s) =>
          match c.env.sighash sub byte with
          | none => some (false, s, cap)
          | some hash =>
            match cap.log.appendMultisig hash keys sigs with
            | none => some (false, s, cap)
            | some log => some (true, s, { cap with log := log })

/-- `verify_schnorr_signature` (program_batch.ipp:121-155). -/
def verifySchnorr (c : Ctx) (point hash signature : Bytes) : MC Bool := do
  if c.enabled then
    if ← thresholdBatchable c then
      modify fun (s, cap) => (s, { cap with rows := cap.rows ++ [(hash, point, signature)], sink := cap.sink - 1 })
      return true
    else if schnorrBatchable c then
      modify fun (s, cap) => (s, { cap with rows := cap.rows ++ [(hash, point, signature)] })
      return true
    else return c.env.verifySchnorr point hash signature
  else return c.env.verifySchnorr point hash signature

/-! ## Handlers: interpreter.ipp -/

/-- The 32-byte key branch of op_check_sig_verify (interpreter.ipp:1036-1052). -/
def checkSigSchnorr (c : Ctx) (key endorsement : Bytes) : MC (Option Err) := do
  if key.length = 32 then
    match schnorrSplit endorsement with
    | none => return some .op_check_sig_schnorr1
    | some (sig, flags) =>
      match c.env.sighashTap (← get).1.offset flags with
      | none => return some .op_check_sig_schnorr2
      | some hash =>
        if ← verifySchnorr c key hash sig then return none else return some .op_check_sig_schnorr3
  else return none

/-- op_check_sig_verify (interpreter.ipp:1015-1088). -/
def opCheckSigVerify (c : Ctx) : MC Res := do
  if (← lift Machine.stackSize) < 2 then return some .op_check_sig_low_stack
  else
    let key ← lift popChunk
    let endorsement ← lift popChunk
    if c.env.flags.bip342 then
      if key = [] then return some .op_check_sig_empty_key
      else if endorsement = [] then return some .op_check_sig_verify1
      else
        match ← checkSigSchnorr c key endorsement with
        | some err => return some err
        | none =>
          if !(← lift sigopsIncrement) then return some .op_check_sig_budget
          else return none
    else if endorsement = [] then return some .op_check_sig_verify2
    else
      let (der, flags) ← lift (ecdsaSplit endorsement)
      match c.env.decodeSig der c.env.flags.bip66 with
      | none => return some .op_check_sig_decode_signature
      | some sig =>
        let sub ← lift (subscript c.env [endorsement])
        match c.env.sighash sub flags with
        | none => return some .op_check_sig_verify3
        | some hash => if ← verifyEcdsa c key hash sig then return none else return some .op_check_sig_verify4

/-- op_check_sig (interpreter.ipp:988-1013). -/
def opCheckSig (c : Ctx) : MC Res := do
  let ec ← opCheckSigVerify c
  if ec = some .op_check_sig_low_stack then return ec
  else if c.env.flags.bip66 ∧ ec = some .op_check_sig_decode_signature then return ec
  else if c.env.flags.bip342 ∧ (ec = some .op_check_sig_empty_key ∨ ec = some .op_check_sig_schnorr1 ∨
      ec = some .op_check_sig_schnorr2 ∨ ec = some .op_check_sig_schnorr3 ∨ ec = some .op_check_sig_budget) then return ec
  else lift (push (.bool (ec == none))); return none

/-- op_check_multisig_verify (interpreter.ipp:1118-1205); the loop over the keys does not capture (1186). -/
def opCheckMultisigVerify (c : Ctx) : MC Res := do
  if c.env.flags.bip342 then return unevaluated 175
  else match ← lift popIndex32 with
    | none => return some .op_check_multisig_verify1
    | some count =>
      if count > 20 then return some .op_check_multisig_verify2
      else if !(← lift (opsIncrementKeys c.env count)) then return some .op_check_multisig_verify3
      else match ← lift (popChunks count) with
        | none => return some .op_check_multisig_verify4
        | some keys => match ← lift popIndex32 with
          | none => return some .op_check_multisig_verify5
          | some count =>
            if count > keys.length then return some .op_check_multisig_verify6
            else match ← lift (popChunks count) with
              | none => return some .op_check_multisig_verify7
              | some endorsements =>
                if ← lift isStackEmpty then return some .op_check_multisig_verify8
                else if (← lift popStrictBool) && c.env.flags.bip147 then return some .op_check_multisig_verify9
                else if ← tryMultisig c keys endorsements then return none
                else
                  let sub ← lift (subscript c.env endorsements)
                  lift uncache
                  match ← lift (multisigLoop c.env sub keys endorsements) with
                  | none => return some .op_check_multisig_decode_signature
                  | some [] => return none
                  | some (_ :: _) => return some .op_check_multisig_mismatch

/-- op_check_multisig (interpreter.ipp:1090-1116). -/
def opCheckMultisig (c : Ctx) : MC Res := do
  if c.env.flags.bip342 then return unevaluated 174
  else
    let ec ← opCheckMultisigVerify c
    if multisigFatal ec then return ec
    else if c.env.flags.bip66 ∧ ec = some .op_check_multisig_decode_signature then return ec
    else lift (push (.bool (ec == none))); return none

/-- The 32-byte key branch of op_check_sig_add (interpreter.ipp:1323-1339). -/
def checkSigAddSchnorr (c : Ctx) (key endorsement : Bytes) : MC (Option Err) := do
  if key.length = 32 then
    match schnorrSplit endorsement with
    | none => return some .op_check_sig_add4
    | some (sig, flags) =>
      let ok ← lift (do if !(← cached flags) then setHashTap c.env flags else return true)
      if !ok then return some .op_check_sig_add5
      else
        let hash ← lift cachedHash
        if ← verifySchnorr c key hash sig then return none else return some .op_check_sig_add6
  else return none

/-- op_check_sig_add (interpreter.ipp:1288-1348). -/
def opCheckSigAdd (c : Ctx) : MC Res := do
  if !c.env.flags.bip342 then return unevaluated 186
  else if (← lift Machine.stackSize) < 3 then return some .op_check_sig_add1
  else
    let key ← lift popChunk
    if key = [] then return some .op_check_sig_add2
    else match ← lift popSigned32_ with
      | none => return some .op_check_sig_add3
      | some number =>
        let endorsement ← lift popChunk
        if endorsement = [] then
          lift (push (.int number))
          return none
        else
          match ← checkSigAddSchnorr c key endorsement with
          | some err => return some err
          | none =>
            if !(← lift sigopsIncrement) then return some .op_check_sig_add7
            else
              lift (push (.int (number + 1)))
              return none

/-! ## Run: interpreter_run.ipp -/

/-- interpreter::run_op (interpreter_run.ipp:74-380). -/
def runOp (c : Ctx) (i : Nat) (op : Op) : MC Res :=
  if op.code = 172 then opCheckSig c
  else if op.code = 173 then opCheckSigVerify c
  else if op.code = 174 then opCheckMultisig c
  else if op.code = 175 then opCheckMultisigVerify c
  else if op.code = 186 then opCheckSigAdd c
  else lift (Machine.runOp c.env i op)

/-- One iteration of the loop of interpreter::run (interpreter_run.ipp:44-62). -/
def runStep (c : Ctx) (i : Nat) (op : Op) : MC Res := do
  if op.data.length > 520 then return some .invalid_push_data_size
  else if !(← lift (opsIncrementOp c.env op)) then return some .invalid_operation_count
  else if ← lift (do if isConditional op.code then return true else isSuccess) then
    match ← runOp c i op with
    | some err => return some err
    | none => if ← lift isStackOverflow then return some .invalid_stack_size else return none
  else return none

/-- The loop of interpreter::run from operation `i` on. Used for interpreter_run.ipp:37-68. -/
def runLoop (c : Ctx) : Nat → List Op → MC Res
  | _, [] => return none
  | i, op :: ops => do
    match ← runStep c i op with
    | some err => return some err
    | none => runLoop c (i + 1) ops

/-- interpreter::run (interpreter_run.ipp:37-68). -/
def run (c : Ctx) : MC Res := do
  match ← lift (initProgram c.env) with
  | some err => return some err
  | none => match ← runLoop c 0 c.env.ops with
    | some err => return some err
    | none => if !(← lift isBalanced) then return some .invalid_stack_scope else return none

/-! ## Connect: interpreter_connect.ipp -/

/-- A spend, with what capture adds to it. Used for program.hpp:277. -/
structure Use where
  spend : Spend
  enabled : Bool
  compress : Bytes → Option Bytes

/-- The result and what was captured; an outer `none` is undefined behaviour. Used for program.hpp:277. -/
abbrev Out := Option (Res × Cap)

/-- Run a program, its cursor closed at first (program.hpp:277), and continue. -/
def runThen (u : Use) (spender : Bool) (e : Env) (stack : List Val) (budget : Nat) (cap : Cap) (k : St (List Val) → Cap → Out)
    (onErr : Err → Res) : Out :=
  match run ⟨e, u.enabled, spender, u.compress⟩ ({ primary := stack, budget := budget }, { cap with sink := 0 }) with
  | none => none
  | some (some err, _, cap) => some (onErr err, cap)
  | some (none, s, cap) => k s cap

/-- `interpreter::is_true` as the last step. Used for interpreter_connect.ipp:146-222. -/
def testTrue (clean : Bool) (s : St (List Val)) (cap : Cap) (k : Out) : Out :=
  match Machine.isTrue clean s with
  | none => none
  | some (false, _) => some (some .stack_false, cap)
  | some (true, _) => k

/-- `interpreter::connect_witness` (interpreter_connect.ipp:146-222). -/
def connectWitness (u : Use) (program : List Op) (embedded : Bool) (cap : Cap) : Out :=
  match scriptVersion program with
  | .segwit =>
    match extractSegwit u.spend program with
    | .error e => some (some e, cap)
    | .ok (ops, stack) => runThen u false (u.spend.segwitEnv ops stack) (project stack) 0 cap
        (fun t cap => testTrue true t cap (some (none, cap))) some
  | .taproot =>
    if !u.spend.flags.bip341 || embedded then some (none, cap)
    else match extractTaproot u.spend program with
      | .error e => some (some e, cap)
      | .ok (leaf, ops, stack) =>
        runThen u false (u.spend.taprootEnv ops stack leaf) (project stack) u.spend.budget cap
          (fun t cap => testTrue true t cap (some (none, cap))) (fun e => if e = .prevalid_script then none else some e)
  | .reserved => some (none, cap)
  | .unversioned => some (some .unversioned_script, cap)

/-- `interpreter::connect_embedded` (interpreter_connect.ipp:101-143). -/
def connectEmbedded (u : Use) (inStack : List Val) (cap : Cap) : Out :=
  if !relaxedPushPattern u.spend.ops then some (some .invalid_script_embed, cap)
  else match inStack with
    | [] => none
    | v :: rest =>
      let embedded := parseOps v.toChunk
      runThen u false (u.spend.legacyEnv embedded) rest 0 cap (fun t cap => testTrue false t cap
        (if u.spend.flags.bip141 && witnessProgramPattern embedded then
          if !nominalPushPattern u.spend.ops then some (some .dirty_embed, cap) else connectWitness u embedded true cap
        else if !u.spend.witness.isEmpty then some (some .unexpected_witness, cap)
        else some (none, cap))) some

/-- `interpreter::connect` (interpreter_connect.ipp:48-98); the program of the input is the one that is the spender. -/
def connect (u : Use) (cap : Cap) : Out :=
  runThen u true (u.spend.legacyEnv u.spend.ops) [] 0 cap (fun i cap =>
    runThen u false (u.spend.legacyEnv u.spend.prevout) i.primary 0 cap (fun t cap => testTrue false t cap
      (if u.spend.flags.bip16 && payScriptHashPattern u.spend.prevout then connectEmbedded u i.primary cap
      else if u.spend.flags.bip141 && witnessProgramPattern u.spend.prevout then
        if !u.spend.ops.isEmpty then some (some .dirty_witness, cap) else connectWitness u u.spend.prevout false cap
      else if !u.spend.witness.isEmpty then some (some .unexpected_witness, cap)
      else some (none, cap))) some) some

/-- `transaction::connect` and `block::connect_transactions` (src/chain/transaction.cpp:972-986, src/chain/block.cpp:845-855) on the inputs
of a block in order, into the accumulators of one thread: the first error ends it. -/
def connectAll (us : List Use) (cap : Cap) : Out :=
  match us with
  | [] => some (none, cap)
  | u :: us =>
    match connect u cap with
    | none => none
    | some (some err, cap) => some (some err, cap)
    | some (none, cap) => connectAll us cap

end Verif.Capture
