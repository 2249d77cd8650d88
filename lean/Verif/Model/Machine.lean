import Verif.Model.Number
import Verif.Model.Chain

/-! Model of the script machine: `machine::stack`, `machine::program`, `machine::interpreter`
(include/bitcoin/system/impl/machine/*.ipp).

Conventions
* A handler is a state transformer over `Option`: the outer `none` is undefined behaviour (access to a missing stack,
  alternate stack or condition element, or to an unset hash cache; all are `BC_ASSERT`s in the C++ code).
* A handler returns `Option Err`: `none` is `error::op_success`/`error::script_success`.
* The code is generic in the stack container (`StackImpl`), as in the C++ template.
* Not modelled here: signature batching (`capture_`, program_batch.ipp; this is the program with capture disabled, see Model/Capture), the
  tether that keeps computed chunks alive, and signature hash/hash/curve functions, which are fields of `Env`. -/

namespace Verif.Machine
open Verif Verif.Num

/-- A stack element. stack_variant, include/bitcoin/system/machine/stack.hpp:33-35. An `int` is an int64_t. -/
inductive Val where
  | bool (b : Bool)
  | int (i : Int)
  | chunk (c : Bytes)
deriving DecidableEq, Repr

/-- error::script_error_t and error::op_error_t (include/bitcoin/system/error/{script,op}_error_t.hpp). Used for interpreter.ipp:68-110. -/
inductive Err where
  | prefail_script | prevalid_script | invalid_script | invalid_script_size | invalid_push_data_size
  | invalid_operation_count | invalid_stack_size | invalid_stack_scope | invalid_script_embed | unversioned_script
  | invalid_witness | invalid_witness_stack | invalid_commitment | stack_false | dirty_witness | dirty_embed | unexpected_witness
  | missing_previous_output | inputs_overflow
  | op_not_implemented | op_invalid | op_reserved | op_push_size | op_push_one_size | op_push_two_size
  | op_push_four_size | op_if1 | op_if2 | op_notif1 | op_notif2 | op_else | op_endif | op_verify1 | op_verify2
  | op_to_alt_stack | op_from_alt_stack | op_drop2 | op_dup2 | op_dup3 | op_over2 | op_rot2 | op_swap2 | op_if_dup
  | op_drop | op_dup | op_nip | op_over | op_pick | op_roll | op_rot | op_swap | op_tuck | op_size | op_equal
  | op_equal_verify1 | op_equal_verify2 | op_add1 | op_sub1 | op_negate | op_abs | op_not | op_nonzero | op_add | op_sub
  | op_bool_and | op_bool_or | op_num_equal | op_num_equal_verify1 | op_num_equal_verify2 | op_num_not_equal
  | op_less_than | op_greater_than | op_less_than_or_equal | op_greater_than_or_equal | op_min | op_max | op_within
  | op_ripemd160 | op_sha1 | op_sha256 | op_hash160 | op_hash256
  | op_check_sig_low_stack | op_check_sig_verify1 | op_check_sig_verify2 | op_check_sig_verify3 | op_check_sig_verify4
  | op_check_sig_empty_key | op_check_sig_schnorr1 | op_check_sig_schnorr2 | op_check_sig_schnorr3 | op_check_sig_budget
  | op_check_sig_decode_signature
  | op_check_multisig_verify1 | op_check_multisig_verify2 | op_check_multisig_verify3 | op_check_multisig_verify4
  | op_check_multisig_verify5 | op_check_multisig_verify6 | op_check_multisig_verify7 | op_check_multisig_verify8
  | op_check_multisig_verify9 | op_check_multisig_mismatch | op_check_multisig_decode_signature
  | op_check_locktime_verify1 | op_check_locktime_verify2 | op_check_locktime_verify3 | op_check_locktime_verify4
  | op_check_sequence_verify1 | op_check_sequence_verify2 | op_check_sequence_verify3 | op_check_sequence_verify4
  | op_check_sequence_verify5
  | op_check_sig_add1 | op_check_sig_add2 | op_check_sig_add3 | op_check_sig_add4 | op_check_sig_add5
  | op_check_sig_add6 | op_check_sig_add7
deriving DecidableEq, Repr

/-- The flags read by the machine (chain::flags). Used for script.cpp:350-352. -/
structure Flags where
  bip16 : Bool := false
  bip65 : Bool := false
  bip66 : Bool := false
  bip112 : Bool := false
  bip141 : Bool := false
  bip143 : Bool := false
  bip147 : Bool := false
  bip341 : Bool := false
  bip342 : Bool := false
  nops : Bool := false
  cats : Bool := false
deriving DecidableEq, Repr

/-- Everything a program reads but does not change: script, flags, transaction and input fields, and the
cryptographic functions (uninterpreted). `sighash` is transaction::signature_hash for a subscript given by its
operations from `script.offset` (unversioned and v0 read the subscript only through serialization from offset,
src/chain/script.cpp:350-352); `sighashTap` is the same function for the whole script, of which v1 reads only the
offset (src/chain/transaction_sighash_v1.cpp:46-56). `none` is a `false` return. -/
structure Env where
  flags : Flags
  ops : List Op
  witness : Option (List Bytes)
  segwit : Bool
  sequence : Nat
  locktime : Nat
  version : Nat
  rmd160 : Bytes → Bytes
  sha1 : Bytes → Bytes
  sha256 : Bytes → Bytes
  hash160 : Bytes → Bytes
  hash256 : Bytes → Bytes
  decodeSig : Bytes → Bool → Option Bytes
  sighash : List Op → UInt8 → Option Bytes
  sighashTap : Nat → UInt8 → Option Bytes
  verifyEcdsa : Bytes → Bytes → Bytes → Bool
  verifySchnorr : Bytes → Bytes → Bytes → Bool

/-- program::multisig_cache, include/bitcoin/system/machine/program.hpp:223-228. -/
structure Cache where
  set : Bool := false
  flags : UInt8 := 0
  hash : Bytes := List.replicate 32 0
deriving DecidableEq, Repr

/-- Mutable program state, include/bitcoin/system/machine/program.hpp:264-288. `condition` is kept with `back()` first.
`negative` is the size_t negative_conditions_, kept as an integer so that an underflow would show. `offset` is
`distance(ops.begin(), script.offset)`. -/
structure St (S : Type) where
  primary : S
  alternate : List Val := []
  condition : List Bool := []
  negative : Int := 0
  operations : Nat := 0
  budget : Nat := 0
  offset : Nat := 0
  cache : Cache := {}

/-- The container interface used by `machine::stack` (include/bitcoin/system/impl/machine/stack.ipp:49-187): index zero is
the top; `none` is undefined behaviour. -/
class StackImpl (S : Type) where
  size : S → Nat
  push : Val → S → S
  /-- `container_.back()` -/
  top : S → Option Val
  /-- `container_.pop_back()` -/
  drop : S → Option S
  peek : Nat → S → Option Val
  swap : Nat → Nat → S → Option S
  erase : Nat → S → Option S

/-- Handlers. Used for stack.ipp:49-55. -/
abbrev M (S : Type) (α : Type) := StateT (St S) Option α

variable {S : Type} [StackImpl S]

/-! ### Primitives: stack.ipp, program.ipp -/

/-- Undefined behaviour. Used for program_verify.ipp:99-109. -/
def ub {α : Type} : M S α := fun _ => none

/-- Lift a primary stack function. -/
def onPrimary {α : Type} (f : S → Option (α × S)) : M S α := fun s =>
  (f s.primary).map fun (a, p) => (a, { s with primary := p })

/-- stack::top, stack.ipp:49-55; program::peek_(), program.ipp:439-444 -/
def top : M S Val := fun s => (StackImpl.top s.primary).map fun v => (v, s)
/-- stack::drop, stack.ipp:67-73; program::drop_, program.ipp:425-430 -/
def drop : M S Unit := fun s => (StackImpl.drop s.primary).map fun p => ((), { s with primary := p })
/-- stack::pop, stack.ipp:57-65; program::pop_, program.ipp:446-451 -/
def pop : M S Val := do let v ← top; drop; pure v
/-- stack::push/emplace, stack.ipp:89-139; program::push_variant, program.ipp:432-437 -/
def push (v : Val) : M S Unit := fun s => some ((), { s with primary := StackImpl.push v s.primary })
/-- stack::peek(index), stack.ipp:176-187 -/
def peek (i : Nat) : M S Val := fun s => (StackImpl.peek i s.primary).map fun v => (v, s)
/-- stack::swap, stack.ipp:153-174 -/
def swap (i j : Nat) : M S Unit := fun s => (StackImpl.swap i j s.primary).map fun p => ((), { s with primary := p })
/-- stack::erase, stack.ipp:145-151 -/
def erase (i : Nat) : M S Unit := fun s => (StackImpl.erase i s.primary).map fun p => ((), { s with primary := p })
/-- program::stack_size, program.ipp:456-461 -/
def stackSize : M S Nat := fun s => some (StackImpl.size s.primary, s)
/-- program::is_stack_empty, program.ipp:470-475 -/
def isStackEmpty : M S Bool := do return (← stackSize) == 0

/-- stack::peek_bool conversion, stack_variant.ipp:73-100 -/
def Val.toBool : Val → Bool
  | .bool b => b
  | .int i => booleanFromInteger i
  | .chunk c => booleanFromChunk c
/-- stack::peek_strict_bool conversion, stack_variant.ipp:102-130 -/
def Val.toStrictBool : Val → Bool
  | .bool b => b
  | .int i => booleanFromInteger i
  | .chunk c => booleanFromChunkStrict c
/-- stack::peek_minimal_bool conversion, stack_variant.ipp:132-161 (`none`: false result) -/
def Val.toMinimalBool : Val → Option Bool
  | .bool b => some b
  | .int i => minimalBoolFromInteger i
  | .chunk c => minimalBoolFromChunk c
/-- stack::peek_chunk conversion, stack_variant.ipp:193-236 -/
def Val.toChunk : Val → Bytes
  | .bool b => chunkFromBool b
  | .int i => chunkFromInteger i
  | .chunk c => c
/-- stack::peek_size conversion, stack_variant.ipp:163-191 -/
def Val.size : Val → Nat
  | .bool b => (chunkFromBool b).length
  | .int i => (chunkFromInteger i).length
  | .chunk c => c.length
/-- stack::peek_signed<Bytes>, stack_variant.ipp:32-66; `width` is the width of the Integer type -/
def Val.toSigned (bytes width : Nat) : Val → Option Int
  | .bool b => some (if b then 1 else 0)
  | .int i => integerFromInteger bytes i
  | .chunk c => integerFromChunk bytes width c
/-- stack::equal_chunks, stack_variant.ipp:269-337 -/
def Val.equalChunks : Val → Val → Bool
  | .bool l, .bool r => r == l
  | .bool l, .int r => r == (if l then 1 else 0)
  | .bool l, .chunk r => r == chunkFromBool l
  | .int l, .bool r => (if r then 1 else 0) == l
  | .int l, .int r => r == l
  | .int l, .chunk r => r == chunkFromInteger l
  | .chunk l, .bool r => chunkFromBool r == l
  | .chunk l, .int r => chunkFromInteger r == l
  | .chunk l, .chunk r => r == l

/-- program::peek_bool_, program.ipp:141-146 -/
def peekBool : M S Bool := do return (← top).toBool
/-- program::pop_bool_, program.ipp:255-266 -/
def popBool (minimal : Bool) : M S (Option Bool) := do
  let v ← top
  if !minimal then
    drop
    return some v.toBool
  else
    match v.toMinimalBool with
    | none => return none
    | some b => drop; return some b
/-- program::pop_strict_bool_, program.ipp:246-253 -/
def popStrictBool : M S Bool := do
  let v ← top
  drop
  return v.toStrictBool
/-- program::pop_chunk_, program.ipp:221-229 -/
def popChunk : M S Bytes := do
  let v ← top
  drop
  return v.toChunk
/-- the pop loop of program::pop_chunks, program.ipp:239-241 -/
def popChunksLoop : Nat → M S (List Bytes)
  | 0 => pure []
  | n + 1 => do
    let c ← popChunk
    let cs ← popChunksLoop n
    return c :: cs
/-- program::pop_chunks, program.ipp:231-244 -/
def popChunks (count : Nat) : M S (Option (List Bytes)) := do
  if (← stackSize) < count then return none
  else return some (← popChunksLoop count)
/-- program::pop_signed32_, program.ipp:268-275 (drops even when conversion fails) -/
def popSigned32_ : M S (Option Int) := do
  let v ← top
  drop
  return v.toSigned 4 32
/-- program::pop_signed32, program.ipp:277-285 -/
def popSigned32 : M S (Option Int) := do
  if ← isStackEmpty then return none
  else popSigned32_
/-- program::pop_binary32, program.ipp:287-296; result is (left, right) -/
def popBinary32 : M S (Option (Int × Int)) := do
  if (← stackSize) < 2 then return none
  else match ← popSigned32_ with
    | none => return none
    | some right => match ← popSigned32_ with
      | none => return none
      | some left => return some (left, right)
/-- program::pop_ternary32, program.ipp:298-309; result is (upper, lower, value) -/
def popTernary32 : M S (Option (Int × Int × Int)) := do
  if (← stackSize) < 3 then return none
  else match ← popSigned32_ with
    | none => return none
    | some upper => match ← popSigned32_ with
      | none => return none
      | some lower => match ← popSigned32_ with
        | none => return none
        | some value => return some (upper, lower, value)
/-- program::pop_index32, program.ipp:319-335 -/
def popIndex32 : M S (Option Nat) := do
  match ← popSigned32 with
  | none => return none
  | some value =>
    if value < 0 then return none
    else if value.toNat < (← stackSize) then return some value.toNat
    else return none
/-- program::peek_unsigned32 (program.ipp:353-372) and peek_unsigned40 (374-394): the 5-byte nonnegative peek -/
def peekUnsigned40 : M S (Option Nat) := do
  if ← isStackEmpty then return none
  else match (← top).toSigned 5 64 with
    | none => return none
    | some v => if v < 0 then return none else return some v.toNat
/-- narrow_sign_cast<uint32_t> of the peeked value, program.ipp:369-371 -/
def peekUnsigned32 : M S (Option Nat) := do
  match ← peekUnsigned40 with
  | none => return none
  | some v => return some (v % 2 ^ 32)

/-- program::is_stack_overflow, program.ipp:477-484; chain::max_unified_stack_size -/
def isStackOverflow : M S Bool := fun s => some (decide (StackImpl.size s.primary + s.alternate.length > 1000), s)

/-- program::push_alternate, program.ipp:504-512 -/
def pushAlternate (v : Val) : M S Unit := fun s => some ((), { s with alternate := v :: s.alternate })
/-- program::is_alternate_empty, program.ipp:497-502 -/
def isAlternateEmpty : M S Bool := fun s => some (s.alternate.isEmpty, s)
/-- program::pop_alternate_, program.ipp:514-523 -/
def popAlternate : M S Val := fun s =>
  match s.alternate with
  | [] => none
  | v :: rest => some (v, { s with alternate := rest })

/-- program::begin_if, program.ipp:528-537 -/
def beginIf (value : Bool) : M S Unit := fun s =>
  some ((), { s with negative := s.negative + (if value then 0 else 1), condition := value :: s.condition })
/-- program::else_if_, program.ipp:539-558 -/
def elseIf : M S Unit := fun s =>
  match s.condition with
  | [] => none
  | b :: rest => some ((), { s with negative := s.negative + (if b then 1 else -1), condition := (!b) :: rest })
/-- program::end_if_, program.ipp:560-569 -/
def endIf : M S Unit := fun s =>
  match s.condition with
  | [] => none
  | b :: rest => some ((), { s with negative := s.negative + (if b then 0 else -1), condition := rest })
/-- program::is_balanced, program.ipp:571-576 -/
def isBalanced : M S Bool := fun s => some (s.condition.isEmpty, s)
/-- program::is_success, program.ipp:578-585 -/
def isSuccess : M S Bool := fun s => some (s.negative == 0, s)

/-- program::sigops_increment, program.ipp:610-622; chain::signature_cost is 50 -/
def sigopsIncrement : M S Bool := fun s =>
  let b := s.budget - 50
  some (b != 0, { s with budget := b })
/-- operation::is_counted, operation_patterns.ipp:227-232 -/
def isCounted (code : UInt8) : Bool := code ≥ 97
/-- program::ops_increment(op), program.ipp:624-639; chain::max_counted_ops is 201 -/
def opsIncrementOp (e : Env) (op : Op) : M S Bool := fun s =>
  if e.flags.bip342 then some (true, s)
  else
    let n := if isCounted op.code then s.operations + 1 else s.operations
    some (decide (n ≤ 201), { s with operations := n })
/-- program::ops_increment(public_keys), program.ipp:641-654 -/
def opsIncrementKeys (e : Env) (keys : Nat) : M S Bool := fun s =>
  if e.flags.bip342 then some (true, s)
  else some (!decide (s.operations + keys > 201), { s with operations := s.operations + keys })

/-! ### Signature helpers: program_verify.ipp -/

/-- program::is_schnorr_sighash, program_verify.ipp:36-60 -/
def isSchnorrSighash (b : UInt8) : Bool := b == 1 || b == 2 || b == 3 || b == 0x81 || b == 0x82 || b == 0x83

/-- program::schnorr_split, program_verify.ipp:62-97: signature and flags, `none` when flags are coverage::invalid -/
def schnorrSplit (endorsement : Bytes) : Option (Bytes × UInt8) :=
  if endorsement.length = 64 then some (endorsement, 0)
  else if endorsement.length = 65 then
    let b := endorsement.getLastD 0
    if isSchnorrSighash b then some (endorsement.take 64, b) else none
  else none

/-- program::ecdsa_split, program_verify.ipp:99-109; undefined on empty -/
def ecdsaSplit (endorsement : Bytes) : M S (Bytes × UInt8) :=
  if endorsement = [] then ub else pure (endorsement.dropLast, endorsement.getLastD 0)

/-- operation::opcode_from_size, operation_patterns.ipp:71-88 -/
def opcodeFromSize (n : Nat) : UInt8 :=
  if n ≤ 75 then UInt8.ofNat n else if n ≤ 255 then 76 else if n ≤ 65535 then 77 else 78

/-- operator==(operation, stripper), include/bitcoin/system/chain/stripper.hpp:72-76; the data of the opcode stripper is
the default (empty) external pointer -/
def matchesStrip (o : Op) (code : UInt8) (data : Bytes) : Bool := o.code == code && o.data == data

/-- create_strip_ops, program_verify.ipp:140-161 -/
def stripOps (endorsements : List Bytes) : List (UInt8 × Bytes) :=
  endorsements.map (fun d => (opcodeFromSize d.length, d)) ++ [(171, [])]

/-- is_intersecting (std::find_first_of), collection.ipp:238-244 -/
def isIntersecting (ops : List Op) (strip : List (UInt8 × Bytes)) : Bool :=
  ops.any fun o => strip.any fun (c, d) => matchesStrip o c d
/-- difference, collection.ipp:213-230 -/
def difference (ops : List Op) (strip : List (UInt8 × Bytes)) : List Op :=
  ops.filter fun o => !strip.any fun (c, d) => matchesStrip o c d

/-- program::subscript, program_verify.ipp:163-211, as the operations from the resulting script's offset -/
def subscript (e : Env) (endorsements : List Bytes) : M S (List Op) := fun s =>
  let cur := e.ops.drop s.offset
  if e.flags.bip143 && e.segwit then some (cur, s)
  else
    let strip := stripOps endorsements
    if !isIntersecting cur strip then some (cur, s)
    else some (difference cur strip, s)

/-- program::set_subscript, program_verify.ipp:122-138; `i` is the index of the executing operation -/
def setSubscript (i : Nat) : M S Unit := fun s =>
  some ((), { s with offset := i + 1, cache := { s.cache with set := false } })

/-- program::cached, program_verify.ipp:235-246 -/
def cached (f : UInt8) : M S Bool := fun s => some (s.cache.set && s.cache.flags == f, s)
/-- program::uncache, program_verify.ipp:248-253 -/
def uncache : M S Unit := fun s => some ((), { s with cache := { s.cache with set := false } })
/-- program::set_hash(flags), program_verify.ipp:255-262 -/
def setHashTap (e : Env) (f : UInt8) : M S Bool := fun s =>
  match e.sighashTap s.offset f with
  | none => some (false, { s with cache := { s.cache with set := false, flags := f } })
  | some h => some (true, { s with cache := { set := true, flags := f, hash := h } })
/-- program::set_hash(subscript, flags), program_verify.ipp:264-271 -/
def setHash (e : Env) (sub : List Op) (f : UInt8) : M S Unit := fun s =>
  some ((), { s with cache := { set := true, flags := f, hash := (e.sighash sub f).getD s.cache.hash } })
/-- program::cached_hash, program_verify.ipp:273-279 -/
def cachedHash : M S Bytes := fun s => if s.cache.set then some (s.cache.hash, s) else none

/-! ### Operation handlers: interpreter.ipp -/

/-- operation::is_invalid, operation_patterns.ipp:285-317 -/
def isInvalid (code : UInt8) : Bool :=
  code ∈ ([101, 102, 126, 127, 128, 129, 131, 132, 133, 134, 141, 142, 149, 150, 151, 152, 153] : List UInt8)
/-- operation::is_success, operation_patterns.ipp:234-283 -/
def isSuccessCode (code : UInt8) : Bool :=
  code ∈ ([80, 98, 126, 127, 128, 129, 131, 132, 133, 134, 137, 138, 141, 142, 149, 150, 151, 152, 153] : List UInt8)
    || (code ≥ 187 && code ≤ 254)
/-- operation::is_conditional, operation_patterns.ipp:319-332 -/
def isConditional (code : UInt8) : Bool := code ∈ ([99, 100, 103, 104] : List UInt8)

/-- As above, operation_patterns.ipp:319-332. -/
abbrev Res := Option Err

/-- interpreter::op_unevaluated, interpreter.ipp:38-44 -/
def unevaluated (code : UInt8) : Res := some (if isInvalid code then .op_invalid else .op_reserved)
/-- op_ver, op_verif, op_vernotif, op_return: interpreter.ipp:119-128, 168-186, 224-232 -/
def opNops (e : Env) (code : UInt8) : M S Res :=
  pure (if e.flags.nops then unevaluated code else some .op_not_implemented)
/-- op_cat .. op_rshift: interpreter.ipp:496-534, 547-585, 633-651, 730-778 -/
def opCats (e : Env) (code : UInt8) : M S Res :=
  pure (if e.flags.cats then unevaluated code else some .op_not_implemented)
/-- op_nop, interpreter.ipp:46-58, 112-117 (both overloads succeed under every flag) -/
def opNop : M S Res := pure none
/-- op_push_number, interpreter.ipp:60-66 -/
def opPushNumber (v : Int) : M S Res := do push (.int v); return none
/-- operation::opcode_to_maximum_size, operation_patterns.ipp:52-69 -/
def opcodeToMaximumSize (code : UInt8) : Nat :=
  if code = 76 then 0xff else if code = 77 then 0xffff else if code = 78 then 0xffffffff
  else if code ≤ 75 then code.toNat else 0
/-- operation::is_underclaimed, operation_patterns.ipp:508-511 -/
def isUnderclaimed (op : Op) : Bool := op.data.length > opcodeToMaximumSize op.code
/-- op_push_size, op_push_one_size, op_push_two_size, op_push_four_size: interpreter.ipp:68-110 -/
def opPushSize (err : Err) (op : Op) : M S Res :=
  if isUnderclaimed op then return some err
  else do push (.chunk op.data); return none
/-- op_if, interpreter.ipp:130-147 -/
def opIf (e : Env) : M S Res := do
  if ← isSuccess then
    if ← isStackEmpty then return some .op_if1
    else match ← popBool e.flags.bip342 with
      | none => return some .op_if2
      | some value => beginIf value; return none
  else beginIf false; return none
/-- op_notif, interpreter.ipp:149-166 -/
def opNotif (e : Env) : M S Res := do
  if ← isSuccess then
    if ← isStackEmpty then return some .op_notif1
    else match ← popBool e.flags.bip342 with
      | none => return some .op_notif2
      | some value => beginIf (!value); return none
  else beginIf (!false); return none
/-- op_else, interpreter.ipp:188-197 -/
def opElse : M S Res := do
  if ← isBalanced then return some .op_else
  else elseIf; return none
/-- op_endif, interpreter.ipp:199-208 -/
def opEndif : M S Res := do
  if ← isBalanced then return some .op_endif
  else endIf; return none
/-- op_verify, interpreter.ipp:210-222 -/
def opVerify : M S Res := do
  if ← isStackEmpty then return some .op_verify1
  else if !(← peekBool) then return some .op_verify2
  else drop; return none
/-- op_to_alt_stack, interpreter.ipp:234-243 -/
def opToAltStack : M S Res := do
  if ← isStackEmpty then return some .op_to_alt_stack
  else pushAlternate (← pop); return none
/-- op_from_alt_stack, interpreter.ipp:245-254 -/
def opFromAltStack : M S Res := do
  if ← isAlternateEmpty then return some .op_from_alt_stack
  else push (← popAlternate); return none
/-- op_drop2, interpreter.ipp:256-267 -/
def opDrop2 : M S Res := do
  if (← stackSize) < 2 then return some .op_drop2
  else drop; drop; return none
/-- op_dup2, interpreter.ipp:269-280 -/
def opDup2 : M S Res := do
  if (← stackSize) < 2 then return some .op_dup2
  else push (← peek 1); push (← peek 1); return none
/-- op_dup3, interpreter.ipp:282-294 -/
def opDup3 : M S Res := do
  if (← stackSize) < 3 then return some .op_dup3
  else push (← peek 2); push (← peek 2); push (← peek 2); return none
/-- op_over2, interpreter.ipp:296-307 -/
def opOver2 : M S Res := do
  if (← stackSize) < 4 then return some .op_over2
  else push (← peek 3); push (← peek 3); return none
/-- op_rot2, interpreter.ipp:309-323 -/
def opRot2 : M S Res := do
  if (← stackSize) < 6 then return some .op_rot2
  else swap 0 4; swap 1 5; swap 2 4; swap 3 5; return none
/-- op_swap2, interpreter.ipp:325-336 -/
def opSwap2 : M S Res := do
  if (← stackSize) < 4 then return some .op_swap2
  else swap 1 3; swap 0 2; return none
/-- op_if_dup, interpreter.ipp:338-350 -/
def opIfDup : M S Res := do
  if ← isStackEmpty then return some .op_if_dup
  else if ← peekBool then push (← top); return none
  else return none
/-- op_depth, interpreter.ipp:352-359 -/
def opDepth : M S Res := do push (.int (← stackSize)); return none
/-- op_drop, interpreter.ipp:361-371 -/
def opDrop : M S Res := do
  if ← isStackEmpty then return some .op_drop
  else drop; return none
/-- op_dup, interpreter.ipp:373-383 -/
def opDup : M S Res := do
  if ← isStackEmpty then return some .op_dup
  else push (← top); return none
/-- op_nip, interpreter.ipp:385-396 -/
def opNip : M S Res := do
  if (← stackSize) < 2 then return some .op_nip
  else swap 0 1; drop; return none
/-- op_over, interpreter.ipp:398-408 -/
def opOver : M S Res := do
  if (← stackSize) < 2 then return some .op_over
  else push (← peek 1); return none
/-- op_pick, interpreter.ipp:410-423 -/
def opPick : M S Res := do
  match ← popIndex32 with
  | none => return some .op_pick
  | some index => push (← peek index); return none
/-- op_roll, interpreter.ipp:425-456 -/
def opRoll : M S Res := do
  match ← popIndex32 with
  | none => return some .op_roll
  | some index =>
    let temporary ← peek index
    erase index
    push temporary
    return none
/-- op_rot, interpreter.ipp:458-469 -/
def opRot : M S Res := do
  if (← stackSize) < 3 then return some .op_rot
  else swap 1 2; swap 0 1; return none
/-- op_swap, interpreter.ipp:471-481 -/
def opSwap : M S Res := do
  if (← stackSize) < 2 then return some .op_swap
  else swap 0 1; return none
/-- op_tuck, interpreter.ipp:483-494 -/
def opTuck : M S Res := do
  if (← stackSize) < 2 then return some .op_tuck
  else swap 0 1; push (← peek 1); return none
/-- op_size, interpreter.ipp:536-545 -/
def opSize : M S Res := do
  if ← isStackEmpty then return some .op_size
  else push (.int (← top).size); return none
/-- op_equal, interpreter.ipp:587-596 -/
def opEqual : M S Res := do
  if (← stackSize) < 2 then return some .op_equal
  else
    let a ← pop
    let b ← pop
    push (.bool (a.equalChunks b))
    return none
/-- op_equal_verify, interpreter.ipp:598-607 -/
def opEqualVerify : M S Res := do
  if (← stackSize) < 2 then return some .op_equal_verify1
  else
    let a ← pop
    let b ← pop
    return if a.equalChunks b then none else some .op_equal_verify2

/-- op_add1, op_sub1, op_negate, op_abs, op_not, op_nonzero: interpreter.ipp:609-631, 653-702 -/
def opUnary (err : Err) (f : Int → Val) : M S Res := do
  match ← popSigned32 with
  | none => return some err
  | some n => push (f n); return none
/-- op_add, op_sub and the comparisons: interpreter.ipp:704-728, 780-910 -/
def opBinary (err : Err) (f : Int → Int → Val) : M S Res := do
  match ← popBinary32 with
  | none => return some err
  | some (left, right) => push (f left right); return none
/-- op_num_equal_verify, interpreter.ipp:816-826 -/
def opNumEqualVerify : M S Res := do
  match ← popBinary32 with
  | none => return some .op_num_equal_verify1
  | some (left, right) => return if left = right then none else some .op_num_equal_verify2
/-- op_within, interpreter.ipp:912-922 -/
def opWithin : M S Res := do
  match ← popTernary32 with
  | none => return some .op_within
  | some (upper, lower, value) =>
    push (.bool (!decide (value < lower) && decide (value < upper)))
    return none
/-- op_ripemd160 .. op_hash256, interpreter.ipp:924-977 -/
def opHash (err : Err) (f : Bytes → Bytes) : M S Res := do
  if ← isStackEmpty then return some err
  else push (.chunk (f (← popChunk))); return none
/-- op_codeseparator, interpreter.ipp:979-986 -/
def opCodeseparator (i : Nat) : M S Res := do setSubscript i; return none

/-- The 32-byte key branch of op_check_sig_verify, interpreter.ipp:1036-1052 -/
def checkSigSchnorr (e : Env) (key endorsement : Bytes) : M S (Option Err) := do
  if key.length = 32 then
    match schnorrSplit endorsement with
    | none => return some .op_check_sig_schnorr1
    | some (sig, flags) =>
      match e.sighashTap (← get).offset flags with
      | none => return some .op_check_sig_schnorr2
      | some hash =>
        if e.verifySchnorr key hash sig then return none else return some .op_check_sig_schnorr3
  else return none

/-- op_check_sig_verify, interpreter.ipp:1015-1088 -/
def opCheckSigVerify (e : Env) : M S Res := do
  if (← stackSize) < 2 then return some .op_check_sig_low_stack
  else
    let key ← popChunk
    let endorsement ← popChunk
    if e.flags.bip342 then
      if key = [] then return some .op_check_sig_empty_key
      else if endorsement = [] then return some .op_check_sig_verify1
      else
        match ← checkSigSchnorr e key endorsement with
        | some err => return some err
        | none =>
          if !(← sigopsIncrement) then return some .op_check_sig_budget
          else return none
    else if endorsement = [] then return some .op_check_sig_verify2
    else
      let (der, flags) ← ecdsaSplit endorsement
      match e.decodeSig der e.flags.bip66 with
      | none => return some .op_check_sig_decode_signature
      | some sig =>
        let sub ← subscript e [endorsement]
        match e.sighash sub flags with
        | none => return some .op_check_sig_verify3
        | some hash => if e.verifyEcdsa key hash sig then return none else return some .op_check_sig_verify4

/-- op_check_sig, interpreter.ipp:988-1013 -/
def opCheckSig (e : Env) : M S Res := do
  let ec ← opCheckSigVerify e
  if ec = some .op_check_sig_low_stack then return ec
  else if e.flags.bip66 ∧ ec = some .op_check_sig_decode_signature then return ec
  else if e.flags.bip342 ∧ (ec = some .op_check_sig_empty_key ∨ ec = some .op_check_sig_schnorr1 ∨
      ec = some .op_check_sig_schnorr2 ∨ ec = some .op_check_sig_schnorr3 ∨ ec = some .op_check_sig_budget) then return ec
  else push (.bool (ec == none)); return none

/-- The key loop of op_check_multisig_verify, interpreter.ipp:1168-1195, on the keys and the endorsements from `it`; the
result is either the endorsements left or a decode failure. -/
def multisigLoop (e : Env) (sub : List Op) : List Bytes → List Bytes → M S (Option (List Bytes))
  | [], sigs => return some sigs
  | _ :: _, [] => return some []
  | key :: keys, endorsement :: rest => do
    if endorsement = [] then multisigLoop e sub keys (endorsement :: rest)
    else
      let (der, flags) ← ecdsaSplit endorsement
      match e.decodeSig der e.flags.bip66 with
      | none => return none
      | some sig =>
        if !(← cached flags) then setHash e sub flags
        let hash ← cachedHash
        if e.verifyEcdsa key hash sig then multisigLoop e sub keys rest
        else multisigLoop e sub keys (endorsement :: rest)

/-- op_check_multisig_verify, interpreter.ipp:1118-1205; chain::max_multisig_public_keys is 20 -/
def opCheckMultisigVerify (e : Env) : M S Res := do
  if e.flags.bip342 then return unevaluated 175
  else match ← popIndex32 with
    | none => return some .op_check_multisig_verify1
    | some count =>
      if count > 20 then return some .op_check_multisig_verify2
      else if !(← opsIncrementKeys e count) then return some .op_check_multisig_verify3
      else match ← popChunks count with
        | none => return some .op_check_multisig_verify4
        | some keys => match ← popIndex32 with
          | none => return some .op_check_multisig_verify5
          | some count =>
            if count > keys.length then return some .op_check_multisig_verify6
            else match ← popChunks count with
              | none => return some .op_check_multisig_verify7
              | some endorsements =>
                if ← isStackEmpty then return some .op_check_multisig_verify8
                else if (← popStrictBool) && e.flags.bip147 then return some .op_check_multisig_verify9
                else
                  let sub ← subscript e endorsements
                  uncache
                  match ← multisigLoop e sub keys endorsements with
                  | none => return some .op_check_multisig_decode_signature
                  | some [] => return none
                  | some (_ :: _) => return some .op_check_multisig_mismatch

/-- The error codes op_check_multisig passes through, interpreter.ipp:1097-1106 -/
def multisigFatal (ec : Res) : Bool :=
  ec == some .op_check_multisig_verify1 || ec == some .op_check_multisig_verify2 || ec == some .op_check_multisig_verify3 ||
  ec == some .op_check_multisig_verify4 || ec == some .op_check_multisig_verify5 || ec == some .op_check_multisig_verify6 ||
  ec == some .op_check_multisig_verify7 || ec == some .op_check_multisig_verify8 || ec == some .op_check_multisig_verify9

/-- op_check_multisig, interpreter.ipp:1090-1116 -/
def opCheckMultisig (e : Env) : M S Res := do
  if e.flags.bip342 then return unevaluated 174
  else
    let ec ← opCheckMultisigVerify e
    if multisigFatal ec then return ec
    else if e.flags.bip66 ∧ ec = some .op_check_multisig_decode_signature then return ec
    else push (.bool (ec == none)); return none

/-- op_check_locktime_verify, interpreter.ipp:1207-1241; input::is_final is sequence = max (src/chain/input.cpp:381-384) -/
def opCheckLocktimeVerify (e : Env) : M S Res := do
  if !e.flags.bip65 then return none
  else if e.sequence = 0xffffffff then return some .op_check_locktime_verify1
  else match ← peekUnsigned40 with
    | none => return some .op_check_locktime_verify2
    | some stackLock =>
      if decide (stackLock < 500000000) != decide (e.locktime < 500000000) then return some .op_check_locktime_verify3
      else if stackLock > e.locktime then return some .op_check_locktime_verify4
      else return none

/-- op_check_sequence_verify, interpreter.ipp:1243-1286 (get_right is a bit test; mask_left by 16 keeps the low 16 bits) -/
def opCheckSequenceVerify (e : Env) : M S Res := do
  if !e.flags.bip112 then return none
  else match ← peekUnsigned32 with
    | none => return some .op_check_sequence_verify1
    | some stackSeq =>
      if stackSeq.testBit 31 then return none
      else if e.version < 2 then return some .op_check_sequence_verify2
      else if e.sequence.testBit 31 then return some .op_check_sequence_verify3
      else if stackSeq.testBit 22 != e.sequence.testBit 22 then return some .op_check_sequence_verify4
      else if stackSeq % 2 ^ 16 > e.sequence % 2 ^ 16 then return some .op_check_sequence_verify5
      else return none

/-- The 32-byte key branch of op_check_sig_add, interpreter.ipp:1323-1339 -/
def checkSigAddSchnorr (e : Env) (key endorsement : Bytes) : M S (Option Err) := do
  if key.length = 32 then
    match schnorrSplit endorsement with
    | none => return some .op_check_sig_add4
    | some (sig, flags) =>
      let ok ← (do if !(← cached flags) then setHashTap e flags else return true)
      if !ok then return some .op_check_sig_add5
      else
        let hash ← cachedHash
        if e.verifySchnorr key hash sig then return none else return some .op_check_sig_add6
  else return none

/-- op_check_sig_add, interpreter.ipp:1288-1348 -/
def opCheckSigAdd (e : Env) : M S Res := do
  if !e.flags.bip342 then return unevaluated 186
  else if (← stackSize) < 3 then return some .op_check_sig_add1
  else
    let key ← popChunk
    if key = [] then return some .op_check_sig_add2
    else match ← popSigned32_ with
      | none => return some .op_check_sig_add3
      | some number =>
        let endorsement ← popChunk
        if endorsement = [] then
          push (.int number)
          return none
        else
          match ← checkSigAddSchnorr e key endorsement with
          | some err => return some err
          | none =>
            if !(← sigopsIncrement) then return some .op_check_sig_add7
            else
              push (.int (number + 1))
              return none

/-! ### Dispatch and run: interpreter_run.ipp -/

/-- Values pushed by the numeric operators (interpreter.ipp:609-910). -/
def boolV (b : Bool) : Val := .bool b

/-- interpreter::run_op, interpreter_run.ipp:74-380 -/
def runOp (e : Env) (i : Nat) (op : Op) : M S Res :=
  match op.code.toNat with
  | 0 => opPushNumber 0
  | 76 => opPushSize .op_push_one_size op
  | 77 => opPushSize .op_push_two_size op
  | 78 => opPushSize .op_push_four_size op
  | 79 => opPushNumber (-1)
  | 80 => pure (unevaluated op.code)
  | 97 => opNop
  | 98 => opNops e op.code
  | 99 => opIf e
  | 100 => opNotif e
  | 101 => opNops e op.code
  | 102 => opNops e op.code
  | 103 => opElse
  | 104 => opEndif
  | 105 => opVerify
  | 106 => opNops e op.code
  | 107 => opToAltStack
  | 108 => opFromAltStack
  | 109 => opDrop2
  | 110 => opDup2
  | 111 => opDup3
  | 112 => opOver2
  | 113 => opRot2
  | 114 => opSwap2
  | 115 => opIfDup
  | 116 => opDepth
  | 117 => opDrop
  | 118 => opDup
  | 119 => opNip
  | 120 => opOver
  | 121 => opPick
  | 122 => opRoll
  | 123 => opRot
  | 124 => opSwap
  | 125 => opTuck
  | 126 => opCats e op.code
  | 127 => opCats e op.code
  | 128 => opCats e op.code
  | 129 => opCats e op.code
  | 130 => opSize
  | 131 => opCats e op.code
  | 132 => opCats e op.code
  | 133 => opCats e op.code
  | 134 => opCats e op.code
  | 135 => opEqual
  | 136 => opEqualVerify
  | 137 => pure (unevaluated op.code)
  | 138 => pure (unevaluated op.code)
  | 139 => opUnary .op_add1 fun n => .int (n + 1)
  | 140 => opUnary .op_sub1 fun n => .int (n - 1)
  | 141 => opCats e op.code
  | 142 => opCats e op.code
  | 143 => opUnary .op_negate fun n => .int (-n)
  | 144 => opUnary .op_abs fun n => .int (if n < 0 then -n else n)
  | 145 => opUnary .op_not fun n => boolV (n == 0)
  | 146 => opUnary .op_nonzero fun n => boolV (n != 0)
  | 147 => opBinary .op_add fun l r => .int (l + r)
  | 148 => opBinary .op_sub fun l r => .int (l - r)
  | 149 => opCats e op.code
  | 150 => opCats e op.code
  | 151 => opCats e op.code
  | 152 => opCats e op.code
  | 153 => opCats e op.code
  | 154 => opBinary .op_bool_and fun l r => boolV (l != 0 && r != 0)
  | 155 => opBinary .op_bool_or fun l r => boolV (l != 0 || r != 0)
  | 156 => opBinary .op_num_equal fun l r => boolV (l == r)
  | 157 => opNumEqualVerify
  | 158 => opBinary .op_num_not_equal fun l r => boolV (l != r)
  | 159 => opBinary .op_less_than fun l r => boolV (decide (l < r))
  | 160 => opBinary .op_greater_than fun l r => boolV (decide (l > r))
  | 161 => opBinary .op_less_than_or_equal fun l r => boolV (!decide (l > r))
  | 162 => opBinary .op_greater_than_or_equal fun l r => boolV (!decide (l < r))
  | 163 => opBinary .op_min fun l r => .int (if l < r then l else r)
  | 164 => opBinary .op_max fun l r => .int (if l > r then l else r)
  | 165 => opWithin
  | 166 => opHash .op_ripemd160 e.rmd160
  | 167 => opHash .op_sha1 e.sha1
  | 168 => opHash .op_sha256 e.sha256
  | 169 => opHash .op_hash160 e.hash160
  | 170 => opHash .op_hash256 e.hash256
  | 171 => opCodeseparator i
  | 172 => opCheckSig e
  | 173 => opCheckSigVerify e
  | 174 => opCheckMultisig e
  | 175 => opCheckMultisigVerify e
  | 177 => opCheckLocktimeVerify e
  | 178 => opCheckSequenceVerify e
  | 186 => opCheckSigAdd e
  | n =>
    if n ≤ 75 then opPushSize .op_push_size op
    else if n ≤ 96 then opPushNumber (n - 80)
    else if n = 176 ∨ (179 ≤ n ∧ n ≤ 185) then opNop
    else pure (unevaluated op.code)

/-- script::is_prefail (script.cpp:393-397) of a script built from operations or data: some operation is invalid -/
def isPrefail (ops : List Op) : Bool := ops.any fun o => isInvalid o.code
/-- script::is_prevalid (script.cpp:399-403) -/
def isPrevalid (ops : List Op) : Bool := ops.any fun o => isSuccessCode o.code
/-- script::is_underflow (script.cpp:405-409) -/
def isScriptUnderflow (ops : List Op) : Bool := isPrefail ops && (ops.getLast?.map Op.underflow).getD false

/-- The element size check of program::initialize, program.ipp:77-81 (`witness_` is null outside witness programs) -/
def witnessOversized : Option (List Bytes) → Bool
  | none => false
  | some w => w.any fun x => decide (x.length > 520)

/-- program::initialize, program.ipp:55-93 (`nops` is a constant true there); limits 520, 1000, 10000 -/
def initProgram (e : Env) : M S Res := do
  if e.flags.bip342 && isPrevalid e.ops then return some .prevalid_script
  else if isScriptUnderflow e.ops then return some .invalid_script
  else if ← (do if e.flags.bip342 then isStackOverflow else return false) then return some .invalid_stack_size
  else if (e.flags.bip342 || e.flags.bip141) && witnessOversized e.witness then return some .invalid_witness_stack
  else if !e.flags.bip342 && decide (opsSize e.ops > 10000) then return some .invalid_script_size
  else if isPrefail e.ops then return some .prefail_script
  else return none

/-- One iteration of the loop of interpreter::run, interpreter_run.ipp:44-62 -/
def runStep (e : Env) (i : Nat) (op : Op) : M S Res := do
  if op.data.length > 520 then return some .invalid_push_data_size
  else if !(← opsIncrementOp e op) then return some .invalid_operation_count
  else if ← (do if isConditional op.code then return true else isSuccess) then
    match ← runOp e i op with
    | some err => return some err
    | none => if ← isStackOverflow then return some .invalid_stack_size else return none
  else return none

/-- The loop of interpreter::run from operation `i` on. Used for interpreter_run.ipp:37-68. -/
def runLoop (e : Env) : Nat → List Op → M S Res
  | _, [] => return none
  | i, op :: ops => do
    match ← runStep e i op with
    | some err => return some err
    | none => runLoop e (i + 1) ops

/-- interpreter::run, interpreter_run.ipp:37-68 -/
def run (e : Env) : M S Res := do
  match ← initProgram e with
  | some err => return some err
  | none => match ← runLoop e 0 e.ops with
    | some err => return some err
    | none => if !(← isBalanced) then return some .invalid_stack_scope else return none

/-- program::is_true, program.ipp:35-41 -/
def isTrue (cleanStack : Bool) : M S Bool := do
  let n ← stackSize
  if (!cleanStack || n == 1) && !(n == 0) then peekBool else return false

/-! ### Container implementations -/

/-- The reference container: a list with the top first. -/
instance : StackImpl (List Val) where
  size := List.length
  push := List.cons
  top := List.head?
  drop := fun s => match s with | [] => none | _ :: t => some t
  peek := fun i s => s[i]?
  swap := fun i j s => match s[i]?, s[j]? with
    | some a, some b => some ((s.set i b).set j a)
    | _, _ => none
  erase := fun i s => if i < s.length then some (s.eraseIdx i) else none

/-- machine::stack over std::vector (stack.hpp `contiguous_stack`): elements in container order, the top last (impl/machine/stack.ipp:49-187). -/
structure VecStack where
  items : Array Val

/-- stack.ipp for `vector_`: `container_[sub1(size()) - index]`, std::swap of two indexed elements,
`erase(prev(end, add1(index)))`. Subtraction below zero wraps in C++: the index is then out of range. -/
instance : StackImpl VecStack where
  size s := s.items.size
  push v s := ⟨s.items.push v⟩
  top s := s.items.back?
  drop s := if s.items.size = 0 then none else some ⟨s.items.pop⟩
  peek i s := if i < s.items.size then s.items[s.items.size - 1 - i]? else none
  swap i j s :=
    if h : i < s.items.size ∧ j < s.items.size then
      some ⟨s.items.swap (s.items.size - 1 - i) (s.items.size - 1 - j)⟩
    else none
  erase i s := if i < s.items.size then some ⟨s.items.toList.eraseIdx (s.items.size - (i + 1)) |>.toArray⟩ else none

/-- machine::stack over std::list (stack.hpp `linked_stack`): elements in container order, the top last (impl/machine/stack.ipp:49-187). -/
structure LinkStack where
  items : List Val

/-- `std::prev(end, n)`: step a position back n times; undefined when it passes begin (impl/machine/stack.ipp:49-187). -/
def stepBack : Nat → Nat → Option Nat
  | pos, 0 => some pos
  | 0, _ + 1 => none
  | pos + 1, n + 1 => stepBack pos n

/-- stack.ipp for `linked_`: iterators stepped back from the end. -/
instance : StackImpl LinkStack where
  size s := s.items.length
  push v s := ⟨s.items ++ [v]⟩
  top s := s.items.getLast?
  drop s := if s.items = [] then none else some ⟨s.items.dropLast⟩
  peek i s := do s.items[← stepBack s.items.length (i + 1)]?
  swap i j s := do
    let p ← stepBack s.items.length (i + 1)
    let q ← stepBack s.items.length (j + 1)
    let a ← s.items[p]?
    let b ← s.items[q]?
    return ⟨(s.items.set p b).set q a⟩
  erase i s := do
    let p ← stepBack s.items.length (i + 1)
    return ⟨s.items.eraseIdx p⟩

end Verif.Machine
