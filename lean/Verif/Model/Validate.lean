import Verif.Model.Connect
import Verif.Model.Merkle
import Verif.Model.Number
/-!
# Transaction and block validation rules (check, accept, confirm, populate, subsidy)

The objects are those of `Verif.Model.Chain`. Hash functions and the metadata that the node populates on inputs are
parameters (`View`); the C++ keeps the latter in mutable members of each input, here they are a function of the input's point.
-/
namespace Verif.Validate
open Verif Merkle

/-- `point` identity: `operator==` and `std::hash` use hash and index only (src/chain/point.cpp:104-120). -/
abbrev Key := Hash × UInt32
/-- As above, point.cpp:104-120. -/
def keyOf (p : Point) : Key := (p.hash, p.index)

/-- `chain::prevout` metadata (include/bitcoin/system/chain/prevout.hpp:29-45), the members used by validation. -/
structure Meta where
  coinbase : Bool
  mtp : UInt32
  height : Nat
  spender : UInt32

/-- Hash functions and populated metadata. `txid`/`wtxid` are `transaction::hash(false/true)`, `pair` is
`sha256::double_hash(left, right)`. -/
structure View where
  txid : Tx → Hash
  wtxid : Tx → Hash
  pair : Hash → Hash → Hash
  prevout : Key → Option Output
  metadata : Key → Meta
  build : Build

/-- `chain::context` (include/bitcoin/system/chain/context.hpp:31-77); flags as booleans. -/
structure Ctx where
  height : Nat
  timestamp : UInt32
  mtp : UInt32
  bip16 : Bool := false
  bip34 : Bool := false
  bip42 : Bool := false
  bip50 : Bool := false
  bip68 : Bool := false
  bip113 : Bool := false
  bip141 : Bool := false

/-- Error codes returned here (src/error/transaction_error_t.cpp, block_error_t.cpp). Used for transaction.cpp:865-878. -/
inductive Code where
  | empty_block | block_size_limit | first_not_coinbase | extra_coinbases | forward_reference | block_internal_double_spend
  | invalid_transaction_commitment | invalid_witness_commitment | block_weight_limit | coinbase_height_mismatch
  | temporary_hash_limit | coinbase_value_limit | block_sigop_limit
  | empty_transaction | invalid_coinbase_script_size | previous_output_null | absolute_time_locked | missing_previous_output
  | spend_exceeds_value | relative_time_locked | coinbase_maturity | unconfirmed_spend | confirmed_double_spend
deriving DecidableEq, Repr

/-! ## transaction -/

/-- `point::is_null` (src/chain/point.cpp:195-198) -/
def pointNull (p : Point) : Bool := decide (p.index = 0xffffffff) && decide (p.hash = nullHash)
/-- `transaction::is_coinbase` (src/chain/transaction.cpp:533-536) -/
def isCoinbase (t : Tx) : Bool :=
  match t.inputs with
  | [i] => pointNull i.point
  | _ => false
/-- `transaction::is_empty` (src/chain/transaction.cpp:615-618) -/
def isEmpty (t : Tx) : Bool := t.inputs.isEmpty || t.outputs.isEmpty
/-- `transaction::is_null_non_coinbase` (src/chain/transaction.cpp:620-631) -/
def isNullNonCoinbase (t : Tx) : Bool := t.inputs.any fun i => pointNull i.point
/-- `transaction::is_invalid_coinbase_size` (src/chain/transaction.cpp:633-640); no inputs cannot occur for a coinbase -/
def isInvalidCoinbaseSize (t : Tx) : Bool :=
  match t.inputs with
  | i :: _ => decide (i.script.serializedSize false < 2) || decide (i.script.serializedSize false > 100)
  | [] => false
/-- `transaction::check` (src/chain/transaction.cpp:865-878) -/
def txCheck (t : Tx) : Option Code :=
  if isEmpty t then some .empty_transaction
  else if isCoinbase t && isInvalidCoinbaseSize t then some .invalid_coinbase_script_size
  else if !isCoinbase t && isNullNonCoinbase t then some .previous_output_null
  else none

/-- `input::is_final` (src/chain/input.cpp:381-384) -/
def isFinal (sequence : UInt32) : Bool := sequence == 0xffffffff
/-- `transaction::is_absolute_locked` (src/chain/transaction.cpp:645-661); locktime_threshold = 500000000 -/
def isAbsoluteLocked (t : Tx) (height : Nat) (timestamp mtp : UInt32) (bip113 : Bool) : Bool :=
  let time := if bip113 then mtp else timestamp
  let heightTime := if t.locktime.toNat < 500000000 then height else time.toNat
  !(t.locktime == 0 || decide (t.locktime.toNat < heightTime) || t.inputs.all fun i => isFinal i.sequence)
/-- `transaction::check(ctx)` (src/chain/transaction.cpp:885-894) -/
def txCheckCtx (c : Ctx) (t : Tx) : Option Code :=
  if isAbsoluteLocked t c.height c.timestamp c.mtp c.bip113 then some .absolute_time_locked else none

/-- `ceilinged_add` on 64 bits (include/bitcoin/system/impl/math/overflow.ipp), as in `cadd`. -/
def satSum (l : List Nat) : Nat := l.foldl cadd 0
/-- `transaction::value` (src/chain/transaction.cpp:676-688) -/
def txValue (v : View) (t : Tx) : Nat :=
  satSum (t.inputs.map fun i => match v.prevout (keyOf i.point) with | some o => o.value.toNat | none => 0)
/-- `transaction::spend` (src/chain/transaction.cpp:690-701) -/
def txSpend (t : Tx) : Nat := satSum (t.outputs.map fun o => o.value.toNat)
/-- `transaction::fee` (src/chain/transaction.cpp:357-362): floored subtraction -/
def txFee (v : View) (t : Tx) : Nat := txValue v t - txSpend t
/-- `transaction::is_missing_prevouts` (src/chain/transaction.cpp:663-674) -/
def isMissingPrevouts (v : View) (t : Tx) : Bool := t.inputs.any fun i => (v.prevout (keyOf i.point)).isNone
/-- `transaction::accept` (src/chain/transaction.cpp:896-910) with `is_overspent` (703-709) -/
def txAccept (v : View) (t : Tx) : Option Code :=
  if isCoinbase t then none
  else if isMissingPrevouts v t then some .missing_previous_output
  else if txSpend t > txValue v t then some .spend_exceeds_value
  else none

/-- static `input::is_relative_locked` (src/chain/input.cpp:403-428): bit 31 disables, bit 22 selects time, the low 16 bits
are the lock, times are shifted left by nine, subtractions are floored. -/
def inputRelativeLocked (sequence : UInt32) (height : Nat) (mtp : UInt32) (prevHeight : Nat) (prevMtp : UInt32) : Bool :=
  if sequence.toNat.testBit 31 then false
  else
    let blocks := sequence &&& 0xffff
    if sequence.toNat.testBit 22 then decide (mtp.toNat - prevMtp.toNat < (blocks <<< 9).toNat)
    else decide (height - prevHeight < blocks.toNat)
/-- `transaction::is_relative_locked` (src/chain/transaction.cpp:770-787); relative_locktime_min_version = 2 -/
def txRelativeLocked (v : View) (t : Tx) (height : Nat) (mtp : UInt32) : Bool :=
  if t.version < 2 then false
  else t.inputs.any fun i => let m := v.metadata (keyOf i.point); inputRelativeLocked i.sequence height mtp m.height m.mtp
/-- `transaction::is_internally_locked` (src/chain/transaction.cpp:756-768): the metadata against itself -/
def txInternallyLocked (v : View) (t : Tx) (i : Input) : Bool :=
  if t.version < 2 then false
  else let m := v.metadata (keyOf i.point); inputRelativeLocked i.sequence m.height m.mtp m.height m.mtp
/-- `transaction::is_coinbase_immature` (src/chain/transaction.cpp:722-727); coinbase_maturity = 100 -/
def isCoinbaseImmature (coinbaseHeight height : Nat) : Bool :=
  coinbaseHeight == 0 || decide (height < cadd coinbaseHeight 100)
/-- `transaction::is_immature` (src/chain/transaction.cpp:729-743), `is_non_coinbase_immature` (711-715) -/
def txImmature (v : View) (t : Tx) (height : Nat) : Bool :=
  t.inputs.any fun i => let m := v.metadata (keyOf i.point)
    if m.coinbase then isCoinbaseImmature m.height height else decide (height < m.height)
/-- `transaction::is_unconfirmed_spend` (src/chain/transaction.cpp:789-801) -/
def txUnconfirmed (v : View) (t : Tx) (height : Nat) : Bool :=
  t.inputs.any fun i => decide (height < (v.metadata (keyOf i.point)).height)
/-- `transaction::is_confirmed_double_spend` (src/chain/transaction.cpp:803-815) -/
def txDoubleSpent (v : View) (t : Tx) (height : Nat) : Bool :=
  t.inputs.any fun i => decide (height > (v.metadata (keyOf i.point)).spender.toNat)
/-- `transaction::confirm` (src/chain/transaction.cpp:916-936) -/
def txConfirm (v : View) (c : Ctx) (t : Tx) : Option Code :=
  if isCoinbase t then none
  else if c.bip68 && txRelativeLocked v t c.height c.mtp then some .relative_time_locked
  else if txImmature v t c.height then some .coinbase_maturity
  else if txUnconfirmed v t c.height then some .unconfirmed_spend
  else if txDoubleSpent v t c.height then some .confirmed_double_spend
  else none

/-! ## block -/

/-- First error of a list (`for (tx: txs) if (ec = f(tx)) return ec`). Used for block.cpp:894-915. -/
def firstError {α : Type} (f : α → Option Code) : List α → Option Code
  | [] => none
  | t :: ts => match f t with
    | some e => some e
    | none => firstError f ts

/-- `block::is_first_non_coinbase` (src/chain/block.cpp:378-381) -/
def isFirstNonCoinbase : List Tx → Bool
  | [] => false
  | t :: _ => !isCoinbase t
/-- `block::is_extra_coinbases` (src/chain/block.cpp:385-396) -/
def isExtraCoinbases : List Tx → Bool
  | [] => false
  | _ :: ts => ts.any isCoinbase
/-- The loop of `block::is_forward_reference` (src/chain/block.cpp:408-415): transactions in reverse, without the first. -/
def forwardLoop (v : View) : List Hash → List Tx → Bool
  | _, [] => false
  | hashes, t :: ts =>
    if t.inputs.any fun i => hashes.contains i.point.hash then true else forwardLoop v (v.txid t :: hashes) ts
/-- `block::is_forward_reference` (src/chain/block.cpp:402-418) -/
def isForwardReference (v : View) : List Tx → Bool
  | [] => false
  | _ :: ts => forwardLoop v [] ts.reverse
/-- The set insertion loop of `block::is_internal_double_spend` (src/chain/block.cpp:429-432). -/
def insertLoop : List Key → List Key → Bool
  | _, [] => false
  | seen, k :: ks => if seen.contains k then true else insertLoop (k :: seen) ks
/-- `block::is_internal_double_spend` (src/chain/block.cpp:423-435) -/
def isInternalDoubleSpend : List Tx → Bool
  | [] => false
  | _ :: ts => insertLoop [] (ts.flatMap fun t => t.inputs.map fun i => keyOf i.point)
/-- `block::generate_merkle_root` (src/chain/block.cpp:437-441); `none` cannot occur (`C15_root`) -/
def merkleRootOf (v : View) (txs : List Tx) (witness : Bool) : Option Hash :=
  merkleRoot v.pair nullHash v.build (txs.map (if witness then v.wtxid else v.txid))
/-- `block::is_invalid_merkle_root` (src/chain/block.cpp:443-446) -/
def isInvalidMerkleRoot (v : View) (b : Block) : Bool := decide (merkleRootOf v b.txs false ≠ some b.header.merkleRoot)
/-- static `block::is_malleable64` (src/chain/block.cpp:606-615) -/
def isMalleable64 (txs : List Tx) : Bool := !txs.isEmpty && txs.all fun t => t.serializedSize false == 64
/-- `block::is_malleated64` (src/chain/block.cpp:620-624) -/
def isMalleated64 (txs : List Tx) : Bool := isFirstNonCoinbase txs && isMalleable64 txs
/-- `block::is_malleated` (src/chain/block.cpp:537-540) -/
def isMalleated (v : View) (txs : List Tx) : Bool := isMalleated64 txs || isMalleated32 (txs.map v.txid)
/-- `block::malleated_or` (src/chain/block.cpp:626-629) -/
def malleatedOr (v : View) (txs : List Tx) (c : Code) : Code := if isMalleated v txs then .invalid_transaction_commitment else c
/-- `block::identify` (src/chain/block.cpp:870-876) -/
def blockIdentify (v : View) (b : Block) : Option Code :=
  if isMalleated v b.txs || isInvalidMerkleRoot v b then some .invalid_transaction_commitment else none

/-- `block::check(identity)` (src/chain/block.cpp:894-915) -/
def blockCheck (v : View) (b : Block) (identity : Bool) : Option Code :=
  if b.txs.isEmpty then some .empty_block
  else if b.serializedSize false > maxBlockSize then some .block_size_limit
  else if isFirstNonCoinbase b.txs then some (malleatedOr v b.txs .first_not_coinbase)
  else if isExtraCoinbases b.txs then some .extra_coinbases
  else if isForwardReference v b.txs then some .forward_reference
  else if isInternalDoubleSpend b.txs then some (malleatedOr v b.txs .block_internal_double_spend)
  else if identity && isInvalidMerkleRoot v b then some .invalid_transaction_commitment
  else firstError txCheck b.txs

/-- `script::is_coinbase_pattern` (src/chain/script.cpp:49-55); `to_signed(height)` for heights below 2^63 -/
def coinbasePattern (ops : List Op) (height : Nat) : Bool :=
  match ops with
  | o :: _ => o.isNominalPush && o.data == Num.chunkFromInteger height
  | [] => false
/-- `block::is_invalid_coinbase_script` (src/chain/block.cpp:493-500) -/
def isInvalidCoinbaseScript (txs : List Tx) (height : Nat) : Bool :=
  match txs with
  | t :: _ => match t.inputs with
    | i :: _ => !coinbasePattern i.script.ops height
    | [] => false
  | [] => false
/-- Insertion of all hashes into a set (src/chain/block.cpp:507-526) -/
def insertAll : List Hash → List Hash → List Hash
  | set, [] => set
  | set, h :: hs => insertAll (if set.contains h then set else h :: set) hs
/-- `block::is_hash_limit_exceeded` (src/chain/block.cpp:506-529); hash_limit = 4500 -/
def isHashLimitExceeded (v : View) : List Tx → Bool
  | [] => false
  | t :: ts => decide ((insertAll [v.txid t] (ts.flatMap fun t => v.txid t :: t.inputs.map fun i => i.point.hash)).length > 4500)

/-- `script::is_commitment_pattern` (include/bitcoin/system/impl/chain/script_patterns.ipp:82-93) -/
def commitmentPattern (ops : List Op) : Bool :=
  match ops with
  | a :: b :: _ => a.code == 106 && b.code == 36 && decide (b.data.length ≥ 4) && b.data.take 4 == [0xaa, 0x21, 0xa9, 0xed]
  | _ => false
/-- `output::committed_hash` (src/chain/output.cpp:222-234) -/
def committedHash (o : Output) : Option Hash :=
  if commitmentPattern o.script.ops then
    match o.script.ops with
    | _ :: b :: _ => some (Hash.of (b.data.drop 4))
    | _ => none
  else none
/-- `block::get_witness_commitment` (src/chain/block.cpp:652-663): the last output that matches -/
def witnessCommitment (txs : List Tx) : Option Hash :=
  match txs with
  | t :: _ => t.outputs.reverse.findSome? committedHash
  | [] => none
/-- `block::get_witness_reservation` (src/chain/block.cpp:666-673), `input::reserved_hash` (src/chain/input.cpp:438-447),
`witness::is_reserved_pattern` (witness_patterns.ipp:43-46) -/
def witnessReservation (txs : List Tx) : Option Hash :=
  match txs with
  | t :: _ => match t.inputs with
    | i :: _ => match i.witness.stack with
      | [e] => if e.length = 32 then some (Hash.of e) else none
      | _ => none
    | [] => none
  | [] => none
/-- `block::is_invalid_witness_commitment` (src/chain/block.cpp:679-697) -/
def isInvalidWitnessCommitment (v : View) (txs : List Tx) : Bool :=
  if txs.isEmpty then false
  else match witnessCommitment txs with
    | none => txs.any fun t => t.segregated
    | some commit => match witnessReservation txs with
      | none => true
      | some reserve => decide ((merkleRootOf v txs true).map (fun r => v.pair r reserve) ≠ some commit)

/-- `block::check(ctx, identity)` (src/chain/block.cpp:922-940) -/
def blockCheckCtx (v : View) (c : Ctx) (b : Block) (identity : Bool) : Option Code :=
  if c.bip141 && decide (b.weight > maxBlockWeight) then some .block_weight_limit
  else if c.bip34 && isInvalidCoinbaseScript b.txs c.height then some .coinbase_height_mismatch
  else if c.bip50 && isHashLimitExceeded v b.txs then some .temporary_hash_limit
  else if c.bip141 && identity && isInvalidWitnessCommitment v b.txs then some .invalid_witness_commitment
  else firstError (txCheckCtx c) b.txs

/-- `shift_right(value, shift, overflow)` for uint64_t (include/bitcoin/system/impl/math/bits.ipp:329-335) -/
def shiftRight64 (value shift : Nat) (overflow : Bool) : Nat :=
  if overflow ∧ shift ≥ 64 then 0 else value >>> (shift % 64)
/-- `block::subsidy` (src/chain/block.cpp:706-713) -/
def subsidy (height interval initial : Nat) (bip42 : Bool) : Nat := shiftRight64 initial (height / interval) bip42

/-- `block::fees` (src/chain/block.cpp:717-727) -/
def blockFees (v : View) (txs : List Tx) : Nat := satSum (txs.map (txFee v))
/-- `block::claim` (src/chain/block.cpp:729-733) -/
def blockClaim (txs : List Tx) : Nat :=
  match txs with
  | t :: _ => txSpend t
  | [] => 0
/-- `block::reward` (src/chain/block.cpp:735-742) -/
def blockReward (v : View) (txs : List Tx) (height interval initial : Nat) (bip42 : Bool) : Nat :=
  cadd (blockFees v txs) (subsidy height interval initial bip42)
/-- The scripts that `signature_operations` reads of a transaction. Used for block.cpp:945-960. -/
def spendIns (v : View) (t : Tx) : List SpendIn × List (List Op) :=
  (t.inputs.map fun i => SpendIn.mk i.script.ops i.witness.stack ((v.prevout (keyOf i.point)).map fun o => o.script.ops),
    t.outputs.map fun o => o.script.ops)
/-- `block::accept` (src/chain/block.cpp:945-960) with `is_overspent` (744-749) and `accept_transactions` (833-842) -/
def blockAccept (v : View) (c : Ctx) (interval initial : Nat) (b : Block) : Option Code :=
  if blockClaim b.txs > blockReward v b.txs c.height interval initial c.bip42 then some .coinbase_value_limit
  else if sigopsLimited c.bip16 c.bip141 (b.txs.map (spendIns v)) then some .block_sigop_limit
  else firstError (txAccept v) (b.txs.drop 1)
/-- `block::confirm` (src/chain/block.cpp:856-865,964-969) -/
def blockConfirm (v : View) (c : Ctx) (b : Block) : Option Code := firstError (txConfirm v c) (b.txs.drop 1)

/-- The output table of `block::populate` (src/chain/block.cpp:780-786), as an association list; `emplace` keeps the first
entry of a key. `index` is a uint32_t. -/
def blockOutputs (v : View) (txs : List Tx) : List (Key × Output) :=
  txs.flatMap fun t => t.outputs.zipIdx.map fun p => ((v.txid t, UInt32.ofNat p.2), p.1)
/-- First entry of a key. Used for block.cpp:771-808. -/
def find (l : List (Key × Output)) (k : Key) : Option Output := (l.find? fun e => decide (e.1 = k)).map Prod.snd
/-- The error result of `block::populate` (src/chain/block.cpp:771-808), inputs in order; coinbase_maturity is nonzero. -/
def populateError (v : View) (c : Ctx) (txs : List Tx) : Option Code :=
  match txs with
  | [] => none
  | first :: ts =>
    firstError (fun t => firstError (fun i : Input =>
      match find (blockOutputs v txs) (keyOf i.point) with
      | none => none
      | some _ =>
        if i.point.hash = v.txid first then some .coinbase_maturity
        else if c.bip68 && txInternallyLocked v t i then some .relative_time_locked
        else none) t.inputs) ts
/-- The prevouts after `block::populate`: those of the block itself take precedence over those of the store (block.cpp:771-808). -/
def populated (v : View) (txs : List Tx) (store : Key → Option Output) : Key → Option Output :=
  fun k => match find (blockOutputs v txs) k with
    | some o => some o
    | none => store k

end Verif.Validate
