import Verif.Model.Machine
import Verif.Model.Chain
/-!
# Model of script patterns, signature operation counting and input connection

Sources: include/bitcoin/system/impl/chain/{script_patterns,operation_patterns,tapscript,annex}.ipp,
src/chain/{script_extract,witness_extract,taproot,input,output,transaction,block}.cpp,
include/bitcoin/system/impl/machine/{interpreter_connect,program_construct}.ipp.
Opcodes are bytes: push_size_n = n, push_negative_1 = 79, reserved_80 = 80, push_positive_n = 80 + n, dup = 118,
equal = 135, equalverify = 136, hash160 = 169, checksig = 172, checksigverify = 173, checkmultisig = 174,
checkmultisigverify = 175 (include/bitcoin/system/chain/enums/opcode.hpp).
-/
namespace Verif
open Verif.Machine (opcodeFromSize Flags Env Val Err Res St)

/-- `script(data, false)`: parse operations from an unprefixed byte string (src/chain/script.cpp:249-290). -/
def parseOps (b : Bytes) : List Op := (Script.read false (RS.init b)).1.ops

/-- `operation::is_relaxed_push` (operation_patterns.ipp:150-154) -/
def isRelaxedPush (code : UInt8) : Bool := code ≤ 96
/-- `operation::is_positive` (operation_patterns.ipp:172-177) -/
def isPositive (code : UInt8) : Bool := 81 ≤ code && code ≤ 96
/-- `operation::is_nonnegative` (operation_patterns.ipp:180-184) -/
def isNonnegative (code : UInt8) : Bool := code == 0 || isPositive code
/-- `operation::opcode_to_positive` (operation_patterns.ipp:38-43) -/
def opcodeToPositive (code : UInt8) : Nat := (code - 80).toNat
/-- `operation::minimal_opcode_from_data` (operation_patterns.ipp:107-131); numbers::negative_1 = 0x81. -/
def minimalOpcode (data : Bytes) : UInt8 :=
  match data with
  | [v] => if v = 0x81 then 79 else if v = 0 then 0 else if 1 ≤ v ∧ v ≤ 16 then v + 80 else opcodeFromSize 1
  | _ => opcodeFromSize data.length
/-- `operation::is_minimal_push` (operation_patterns.ipp:498-501) -/
def Op.isMinimalPush (o : Op) : Bool := o.code == minimalOpcode o.data
/-- `operation::is_nominal_push` (operation_patterns.ipp:503-506) -/
def Op.isNominalPush (o : Op) : Bool := o.code == opcodeFromSize o.data.length

/-- `script::is_relaxed_push_pattern` (script_patterns.ipp:59-70) -/
def relaxedPushPattern (ops : List Op) : Bool := ops.all fun o => isRelaxedPush o.code
/-- `script::is_nominal_push_pattern` (script_patterns.ipp:72-77) -/
def nominalPushPattern (ops : List Op) : Bool :=
  match ops with
  | [o] => o.isNominalPush
  | _ => false
/-- `script::is_witness_program_pattern` (script_patterns.ipp:95-106) -/
def witnessProgramPattern (ops : List Op) : Bool :=
  match ops with
  | [a, b] => isNonnegative a.code && b.isMinimalPush && decide (b.data.length ≥ 2) && decide (b.data.length ≤ 40)
  | _ => false
/-- `script::is_pay_script_hash_pattern` (script_patterns.ipp:152-162) -/
def payScriptHashPattern (ops : List Op) : Bool :=
  match ops with
  | [a, b, c] => a.code == 169 && b.code == 20 && c.code == 135
  | _ => false
/-- `script::is_pay_key_hash_pattern` (script_patterns.ipp:142-150) -/
def payKeyHashPattern (ops : List Op) : Bool :=
  match ops with
  | [a, b, c, d, e] => a.code == 118 && b.code == 169 && c.data.length == 20 && d.code == 136 && e.code == 172
  | _ => false
/-- `script::is_pay_witness_key_hash_pattern` (script_patterns.ipp:171-177) -/
def payWitnessKeyHashPattern (ops : List Op) : Bool :=
  match ops with
  | [a, b] => a.code == 0 && b.code == 20
  | _ => false
/-- `script::is_pay_witness_script_hash_pattern` (script_patterns.ipp:179-185) -/
def payWitnessScriptHashPattern (ops : List Op) : Bool :=
  match ops with
  | [a, b] => a.code == 0 && b.code == 32
  | _ => false
/-- `script::is_pay_witness_taproot_pattern` (script_patterns.ipp:187-193) -/
def payWitnessTaprootPattern (ops : List Op) : Bool :=
  match ops with
  | [a, b] => a.code == 81 && b.code == 32
  | _ => false

/-- `script_version` (include/bitcoin/system/chain/enums/script_version.hpp). Used for script_extract.cpp:43-57. -/
inductive ScriptVersion | unversioned | segwit | taproot | reserved
deriving DecidableEq

/-- `script::version` (src/chain/script_extract.cpp:43-57) -/
def scriptVersion (ops : List Op) : ScriptVersion :=
  if !witnessProgramPattern ops then .unversioned
  else match ops with
    | a :: _ => if a.code = 0 then .segwit else if a.code = 81 then .taproot else .reserved
    | [] => .unversioned
/-- `script::witness_program` (src/chain/script_extract.cpp:37-41) -/
def witnessProgram (ops : List Op) : Bytes :=
  if witnessProgramPattern ops then (match ops with | _ :: b :: _ => b.data | _ => []) else []

/-! ## Signature operation counting -/

/-- `multisig_sigops` (src/chain/script_extract.cpp:117-122) -/
def multisigSigops (accurate : Bool) (code : UInt8) : Nat :=
  if accurate && isPositive code then opcodeToPositive code else 20

/-- The loop of `script::signature_operations` (src/chain/script_extract.cpp:136-159) -/
def sigopsLoop (accurate : Bool) : Nat → UInt8 → List Op → Nat
  | total, _, [] => total
  | total, last, o :: ops =>
    sigopsLoop accurate
      (if o.code = 172 ∨ o.code = 173 then cadd total 1
       else if o.code = 174 ∨ o.code = 175 then cadd total (multisigSigops accurate last)
       else total) o.code ops
/-- `script::signature_operations` (src/chain/script_extract.cpp:136-159) -/
def scriptSigops (accurate : Bool) (ops : List Op) : Nat := sigopsLoop accurate 0 79 ops

/-- `script::extract_sigop_script` (src/chain/script_extract.cpp:161-178) -/
def extractEmbedded (ops prevout : List Op) : Option (List Op) :=
  if !payScriptHashPattern prevout then none
  else match ops.getLast? with
    | none => none
    | some o => if !relaxedPushPattern ops then none else some (parseOps o.data)
/-- `witness::extract_sigop_script` (src/chain/witness_extract.cpp:62-107); `none` is a false return. -/
def extractWitness (stack : List Bytes) (program : List Op) : Option (List Op) :=
  match scriptVersion program with
  | .segwit =>
    if (witnessProgram program).length = 20 then some [{ code := 172 }]
    else if (witnessProgram program).length = 32 then
      match stack.getLast? with
      | none => some []
      | some s => some (parseOps s)
    else some []
  | .taproot => some []
  | .reserved => some []
  | .unversioned => none

/-- Unsigned 64 bit multiplication (`size_t * size_t`). -/
def wmul (a b : Nat) : Nat := a * b % 2 ^ 64

/-- `input::signature_operations` (src/chain/input.cpp:456-495). `prevout` is `none` for a null prevout pointer. -/
def inputSigops (bip16 bip141 : Bool) (ops : List Op) (witness : List Bytes) (prevout : Option (List Op)) : Nat :=
  let factor := if bip141 then 4 else 1
  let sigops := wmul (scriptSigops false ops) factor
  match prevout with
  | none => sigops
  | some prev =>
    match (if bip141 then extractWitness witness prev else none) with
    | some script => cadd sigops (scriptSigops true script)
    | none =>
      match (if bip16 then extractEmbedded ops prev else none) with
      | none => sigops
      | some embedded =>
        match (if bip141 then extractWitness witness embedded else none) with
        | some script => cadd sigops (scriptSigops true script)
        | none => cadd sigops (wmul (scriptSigops true embedded) factor)
/-- `output::signature_operations` (src/chain/output.cpp:236-244) -/
def outputSigops (bip141 : Bool) (ops : List Op) : Nat := wmul (scriptSigops false ops) (if bip141 then 4 else 1)

/-- A transaction input together with its populated prevout script (`input::prevout` metadata). Used for transaction.cpp:377-396. -/
structure SpendIn where
  ops : List Op
  witness : List Bytes
  prevout : Option (List Op)
/-- `transaction::signature_operations` (src/chain/transaction.cpp:377-396) -/
def txSigops (bip16 bip141 : Bool) (inputs : List SpendIn) (outputs : List (List Op)) : Nat :=
  cadd (inputs.foldl (fun t i => cadd t (inputSigops bip16 bip141 i.ops i.witness i.prevout)) 0)
    (outputs.foldl (fun t o => cadd t (outputSigops bip141 o)) 0)
/-- `block::signature_operations` (src/chain/block.cpp:751-761) -/
def blockSigops (bip16 bip141 : Bool) (txs : List (List SpendIn × List (List Op))) : Nat :=
  txs.foldl (fun t x => cadd t (txSigops bip16 bip141 x.1 x.2)) 0
/-- `block::is_signature_operations_limited` (src/chain/block.cpp:763-768); max_fast_sigops = 80000,
max_block_sigops = 20000 (magic_numbers.hpp:56-78). -/
def sigopsLimited (bip16 bip141 : Bool) (txs : List (List SpendIn × List (List Op))) : Bool :=
  decide (blockSigops bip16 bip141 txs > if bip141 then 80000 else 20000)

/-! ## Connecting an input to its previous output -/

/-- The transaction, input and cryptography `interpreter::connect` reads. `sighash v` is transaction::signature_hash for
a subscript, with `v` false for an unversioned and true for a version 0 program; `sighashTap leaf` is that of version 1,
for a tapleaf hash or none (program::signature_hash). -/
structure Spend where
  flags : Flags
  ops : List Op
  prevout : List Op
  witness : List Bytes
  sequence : Nat
  locktime : Nat
  version : Nat
  rmd160 : Bytes → Bytes
  sha1 : Bytes → Bytes
  sha256 : Bytes → Bytes
  hash160 : Bytes → Bytes
  hash256 : Bytes → Bytes
  leafHash : UInt8 → Bytes → Bytes
  branchHash : Bytes → Bytes → Bytes
  tweakHash : Bytes → Bytes → Bytes
  decodeSig : Bytes → Bool → Option Bytes
  sighash : Bool → List Op → UInt8 → Option Bytes
  sighashTap : Option Bytes → Nat → UInt8 → Option Bytes
  verifyEcdsa : Bytes → Bytes → Bytes → Bool
  verifySchnorr : Bytes → Bytes → Bytes → Bool
  verifyCommitment : Bytes → Bytes → Bytes → Bool → Bool

/-- The parts of a program that do not depend on how it was constructed. Used for program_construct.ipp:36-89. -/
def Spend.env (s : Spend) : Env where
  flags := { s.flags with bip342 := false }
  ops := s.ops
  witness := none
  segwit := false
  sequence := s.sequence
  locktime := s.locktime
  version := s.version
  rmd160 := s.rmd160
  sha1 := s.sha1
  sha256 := s.sha256
  hash160 := s.hash160
  hash256 := s.hash256
  decodeSig := s.decodeSig
  sighash := s.sighash false
  sighashTap := fun _ _ => none
  verifyEcdsa := s.verifyEcdsa
  verifySchnorr := s.verifySchnorr

/-- Legacy program constructors (program_construct.ipp:36-89): the bip342 flag is masked. -/
def Spend.legacyEnv (s : Spend) (ops : List Op) : Env := { s.env with ops := ops }
/-- Segwit program constructor (program_construct.ipp:91-112) -/
def Spend.segwitEnv (s : Spend) (ops : List Op) (stack : List Bytes) : Env :=
  { s.env with ops := ops, witness := some stack, segwit := true, sighash := s.sighash true }
/-- Taproot program constructor (program_construct.ipp:114-140): flags unmasked -/
def Spend.taprootEnv (s : Spend) (ops : List Op) (stack : List Bytes) (leaf : Option Bytes) : Env :=
  { s.env with flags := s.flags, ops := ops, witness := some stack, sighashTap := s.sighashTap leaf }

/-- `projection<Stack>(*witness)`: the witness elements as chunks, the last element on top
(program_construct.ipp:105,129; impl/data/collection.ipp:69-80) -/
def project (stack : List Bytes) : List Val := (stack.map Val.chunk).reverse
/-- The taproot program's `budget_` (program_construct.ipp:133-136); chain::signature_cost = 50 -/
def Spend.budget (s : Spend) : Nat := cadd 51 ((Witness.ofStack s.witness).serializedSize true)

/-- `script::to_pay_key_hash_pattern` (script_patterns.ipp:415-428), with a nominal push -/
def toPayKeyHash (hash : Bytes) : List Op :=
  [{ code := 118 }, { code := 169 }, { code := opcodeFromSize hash.length, data := hash }, { code := 136 }, { code := 172 }]

/-- `witness::extract_segwit` (src/chain/witness_extract.cpp:113-164). `Except.error` is the returned code. The popped
script is valid, so its hash is the sha256 of its bytes (script.cpp:438-451). -/
def extractSegwit (s : Spend) (program : List Op) : Except Err (List Op × List Bytes) :=
  let p := witnessProgram program
  if p.length = 20 then
    if s.witness.length = 2 then .ok (toPayKeyHash p, s.witness) else .error .invalid_witness
  else if p.length = 32 then
    match s.witness.getLast? with
    | none => .error .invalid_witness
    | some w =>
      if p = s.sha256 (opsData (parseOps w)) then .ok (parseOps w, s.witness.dropLast) else .error .invalid_witness
  else .error .invalid_witness

/-- `annex::is_annex_pattern` (impl/chain/annex.ipp:91-100) and `taproot::drop_annex` (src/chain/taproot.cpp:100-107) -/
def dropAnnex (stack : List Bytes) : List Bytes :=
  if stack.length ≤ 1 then stack
  else match stack.getLast? with
    | some (0x50 :: _) => stack.dropLast
    | _ => stack

/-- `tapscript::is_control` (impl/chain/tapscript.ipp:51-60) -/
def isControl (c : Bytes) : Bool := !(decide (c.length < 33) || decide (c.length > 1 + 32 * 129)) && (c.length - 1) % 32 == 0
/-- `tapscript::version` (impl/chain/tapscript.ipp:82-87) -/
def controlVersion (c : Bytes) : UInt8 := (c.headD 0) &&& 0xfe
/-- `tapscript::parity` (impl/chain/tapscript.ipp:73-79) -/
def controlParity (c : Bytes) : Bool := ((c.headD 0) &&& 0x01) != 0
/-- `tapscript::key` (impl/chain/tapscript.ipp:90-96) -/
def controlKey (c : Bytes) : Bytes := (c.drop 1).take 32
/-- `tapscript::count` (impl/chain/tapscript.ipp:99-106) -/
def controlCount (c : Bytes) : Nat := (c.length - 33) / 32
/-- `tapscript::keys().at(i)` (impl/chain/tapscript.ipp:109-121) -/
def controlKeyAt (c : Bytes) (i : Nat) : Bytes := (c.drop (33 + 32 * i)).take 32

/-- `std::lexicographical_compare` on bytes. Used for taproot.cpp:46-52. -/
def lexLess : Bytes → Bytes → Bool
  | _, [] => false
  | [], _ :: _ => true
  | a :: as, b :: bs => if a < b then true else if b < a then false else lexLess as bs
/-- `taproot::sorted_branch_hash` (src/chain/taproot.cpp:46-52) -/
def sortedBranch (s : Spend) (l r : Bytes) : Bytes := if lexLess l r then s.branchHash l r else s.branchHash r l
/-- The loop of `taproot::merkle_root` (src/chain/taproot.cpp:35-44) from key `i`, `n` iterations left -/
def tapRootLoop (s : Spend) (c : Bytes) : Nat → Nat → Bytes → Bytes
  | 0, _, h => h
  | n + 1, i, h => tapRootLoop s c n (i + 1) (sortedBranch s h (controlKeyAt c i))
/-- `taproot::verify_commit` (src/chain/taproot.cpp:110-117) -/
def verifyCommit (s : Spend) (c : Bytes) (out leaf : Bytes) : Bool :=
  let root := tapRootLoop s c (controlCount c) 0 leaf
  s.verifyCommitment (controlKey c) (s.tweakHash (controlKey c) root) out (controlParity c)

/-- `success_script_ptr` (src/chain/witness_extract.cpp:45-51): the single operation reserved_80 -/
def successOps : List Op := [{ code := 80 }]

/-- `witness::extract_taproot` (src/chain/witness_extract.cpp:166-254). `leafHash` takes the leaf version and the
prefixed serialization of the script. -/
def extractTaproot (s : Spend) (program : List Op) : Except Err (Option Bytes × List Op × List Bytes) :=
  let p := witnessProgram program
  if p.length = 32 then
    let stack := dropAnnex s.witness
    if stack.length > 1 then
      match stack.getLast?, stack.dropLast.getLast? with
      | some c, some w =>
        if !isControl c then .error .invalid_witness
        else
          let tapleaf := parseOps w
          let leaf := s.leafHash (controlVersion c) ((Script.ofOps tapleaf).toData true)
          if !verifyCommit s c p leaf then .error .invalid_commitment
          else if controlVersion c = 0xc0 then .ok (some leaf, tapleaf, stack.dropLast.dropLast)
          else .ok (none, successOps, [])
      | _, _ => .error .invalid_witness
    else if stack.length = 1 then .ok (none, [{ code := 172 }], stack ++ [p])
    else .error .invalid_witness
  else .ok (none, successOps, [])


/-- Run a program and, on success, continue with its final state; an outer `none` is undefined behaviour. Used for interpreter_connect.ipp:146-222. -/
def runThen (e : Env) (stack : List Val) (budget : Nat) (k : St (List Val) → Option Res) (onErr : Err → Res) : Option Res :=
  match Machine.run e { primary := stack, budget := budget } with
  | none => none
  | some (some err, _) => some (onErr err)
  | some (none, s) => k s

/-- `interpreter::is_true` as the last step. Used for interpreter_connect.ipp:146-222. -/
def testTrue (clean : Bool) (s : St (List Val)) (k : Option Res) : Option Res :=
  match Machine.isTrue clean s with
  | none => none
  | some (false, _) => some (some .stack_false)
  | some (true, _) => k

/-- `interpreter::connect_witness` (interpreter_connect.ipp:146-222) -/
def connectWitness (s : Spend) (program : List Op) (embedded : Bool) : Option Res :=
  match scriptVersion program with
  | .segwit =>
    match extractSegwit s program with
    | .error e => some (some e)
    | .ok (ops, stack) => runThen (s.segwitEnv ops stack) (project stack) 0 (fun t => testTrue true t (some none)) some
  | .taproot =>
    if !s.flags.bip341 || embedded then some none
    else match extractTaproot s program with
      | .error e => some (some e)
      | .ok (leaf, ops, stack) =>
        runThen (s.taprootEnv ops stack leaf) (project stack) s.budget (fun t => testTrue true t (some none))
          (fun e => if e = .prevalid_script then none else some e)
  | .reserved => some none
  | .unversioned => some (some .unversioned_script)

/-- `interpreter::connect_embedded` (interpreter_connect.ipp:101-143); `inStack` is the stack left by the input script,
whose top is popped by `in_program.pop()` (undefined if there is none) -/
def connectEmbedded (s : Spend) (inStack : List Val) : Option Res :=
  if !relaxedPushPattern s.ops then some (some .invalid_script_embed)
  else match inStack with
    | [] => none
    | v :: rest =>
      let embedded := parseOps v.toChunk
      runThen (s.legacyEnv embedded) rest 0 (fun t => testTrue false t
        (if s.flags.bip141 && witnessProgramPattern embedded then
          if !nominalPushPattern s.ops then some (some .dirty_embed) else connectWitness s embedded true
        else if !s.witness.isEmpty then some (some .unexpected_witness)
        else some none)) some

/-- `interpreter::connect` (interpreter_connect.ipp:48-98), for an input whose prevout is populated; without
capture of signatures (see Model/Capture) -/
def connect (s : Spend) : Option Res :=
  runThen (s.legacyEnv s.ops) [] 0 (fun i =>
    runThen (s.legacyEnv s.prevout) i.primary 0 (fun t => testTrue false t
      (if s.flags.bip16 && payScriptHashPattern s.prevout then connectEmbedded s i.primary
      else if s.flags.bip141 && witnessProgramPattern s.prevout then
        if !s.ops.isEmpty then some (some .dirty_witness) else connectWitness s s.prevout false
      else if !s.witness.isEmpty then some (some .unexpected_witness)
      else some none)) some) some

end Verif
