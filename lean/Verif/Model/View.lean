import Verif.Model.Validate
/-!
# Buffer views of a block and its transactions

`block_view` parses only sizes and keeps offsets into the wire buffer. The hash function (`bitcoin_hash`, double sha256) is a
parameter `H`. A pointer into the buffer is modelled by the buffer from that byte on; offsets never exceed the buffer when
`is_valid()` (`C60_view` shows the parsed lengths are those of a serialised transaction).
-/
namespace Verif.Views
open Verif Validate Merkle

/-- static `transaction::desegregated_hash(witnessed, unwitnessed, data)` (src/chain/transaction_cache.cpp:38-58), the data
pointer not null. -/
def desegregatedHash (H : Bytes → Hash) (witnessed unwitnessed : Nat) (data : Bytes) : Hash :=
  H (data.take 4 ++ ((data.drop 6).take (unwitnessed - 8) ++ (data.drop (witnessed - 4)).take 4))

/-- `transaction_view` (include/bitcoin/system/chain/views/transaction_view.hpp:98-138). -/
structure TxView where
  /-- `tx_ptr_`: the block buffer from the first byte of the transaction; `none` is the null pointer. -/
  ptr : Option Bytes
  inOffset : Nat
  inCount : Nat
  outOffset : Nat
  outCount : Nat
  size : Nat
  witnessesSize : Nat
  inputTable : Nat
  outputTable : Nat
  txid : Hash
  wtxid : Hash
  segregated : Bool
  coinbase : Bool

/-- `in_count_ == witness_marker && source.peek_byte() == witness_enabled` (src/chain/views/transaction_view.cpp:57-59). -/
def detect (count : Nat) : Reader Bool := fun s =>
  if count = 0 then
    let p := peekByte s
    (p.1 == 1, p.2)
  else (false, s)

/-- The loop over inputs (transaction_view.cpp:69-75), yielding the table size contribution. -/
def skipInputs : Nat → Reader Nat
  | 0 => pure 0
  | n + 1 => do
    doSkip 36
    let size ← readSize maxBytes
    doSkip (size + 4)
    let rest ← skipInputs n
    return variableSize size + size + rest

/-- The loop over outputs (transaction_view.cpp:80-87). -/
def skipOutputs : Nat → Reader Nat
  | 0 => pure 0
  | n + 1 => do
    let value ← readU64
    let size ← readSize maxBytes
    doSkip size
    let rest ← skipOutputs n
    return variableSize value.toNat + variableSize size + size + rest

/-- The loop over witnesses (transaction_view.cpp:94-96): "some witness is not empty". -/
def skipWits : Nat → Reader Bool
  | 0 => pure false
  | n + 1 => do
    let a ← Witness.skip
    let r ← skipWits n
    return a || r

/-- `stripped_size` from its operands (transaction_view.cpp:458-462); sentinels_size = 2. -/
def strippedOf (size witnesses : Nat) : Nat := if witnesses = 0 then size else size - (witnesses + 2)

/-- The inputs, outputs, witnesses and locktime of the constructor (transaction_view.cpp:67-133), after the count of inputs. -/
def TxView.readBody (H : Bytes → Hash) (data : Bytes) (coinbase witness : Bool) (start : Nat) (hasWitness : Bool) (inCount : Nat) :
    Reader TxView := do
  let inPos ← getPosition
  let inTable ← skipInputs inCount
  let outCount ← readSize maxCount
  let outPos ← getPosition
  let outputTable ← skipOutputs outCount
  let witPos ← getPosition
  let nonempty ← (if hasWitness then skipWits inCount else pure true)
  invalidateIf (!nonempty)
  doSkip 4
  let finish ← getPosition
  invalidateIf (decide (inCount = 0) || decide (outCount = 0))
  let valid ← isGood
  let size := finish - start
  let witnessesSize := size - ((witPos - start) + 4)
  let tx := data.drop start
  return {
    ptr := if valid then some tx else none
    inOffset := inPos - start
    inCount
    outOffset := outPos - start
    outCount
    size
    witnessesSize
    inputTable := inTable + if hasWitness && witness then witnessesSize else inCount
    outputTable
    txid := if valid then
        if hasWitness then desegregatedHash H size (strippedOf size witnessesSize) tx else H (tx.take size)
      else nullHash
    wtxid := if valid && hasWitness && witness && !coinbase then H (tx.take size) else nullHash
    segregated := hasWitness && witness
    coinbase }

/-- Constructor of `transaction_view` (src/chain/views/transaction_view.cpp:45-134). The members of an invalid view other than
`tx_ptr_` are unused; size_t differences that would wrap there are cut at zero. -/
def TxView.read (H : Bytes → Hash) (data : Bytes) (coinbase witness : Bool) : Reader TxView := do
  let start ← getPosition
  doSkip 4
  let count ← readSize maxCount
  let hasWitness ← detect count
  if hasWitness then
    doSkip 1
    let count ← readSize maxCount
    TxView.readBody H data coinbase witness start true count
  else
    TxView.readBody H data coinbase witness start false count

namespace TxView
variable (v : TxView)

/-- `is_valid` (transaction_view.cpp:140-143). -/
def isValid : Bool := v.ptr.isSome
/-- The pointer (asserted valid by every accessor). Used for transaction_view.cpp:150-158. -/
def buf : Bytes := v.ptr.getD []
/-- `stripped_size` (transaction_view.cpp:458-462). -/
def strippedSize : Nat := strippedOf v.size v.witnessesSize
/-- `is_null_point` (transaction_view.cpp:150-158). -/
def isNullPoint : Bool :=
  decide ((v.buf.drop v.inOffset).take 32 = nullHash.bytes) &&
    decide (leNat ((v.buf.drop (v.inOffset + 32)).take 4) = 0xffffffff)
/-- `version` (transaction_view.cpp:175-179). -/
def version : UInt32 := UInt32.ofNat (leNat (v.buf.take 4))
/-- `locktime` (transaction_view.cpp:181-186). -/
def locktime : UInt32 := UInt32.ofNat (leNat ((v.buf.drop (v.size - 4)).take 4))
/-- `serialized_size` (transaction_view.cpp:188-191). -/
def serializedSize (witness : Bool) : Nat := if witness && v.segregated then v.size else v.strippedSize
/-- `to_data` (transaction_view.cpp:193-228). -/
def toData (witness : Bool) : Bytes :=
  if witness && v.segregated then v.buf.take v.size
  else
    let sentinels := if v.witnessesSize = 0 then 0 else 2
    let size := v.size - v.witnessesSize - 4 - 4 - sentinels
    v.buf.take 4 ++ ((v.buf.drop (4 + sentinels)).take size ++ (v.buf.drop (v.size - 4)).take 4)
/-- `hash` (transaction_view.cpp:230-233). -/
def hash (witness : Bool) : Hash := if witness && v.segregated then v.wtxid else v.txid
/-- `input_table_size` (transaction_view.cpp:239-243). -/
def inputTableSize (pruned : Bool) : Nat := if pruned then 2 * v.inCount else v.inputTable
/-- `output_table_size` (transaction_view.cpp:245-248). -/
def outputTableSize : Nat := v.outputTable
/-- `get_inputs_stream` (transaction_view.cpp:355-359) with `at_inputs`, `inputs_size` (transaction_view.cpp:415-419,438-441). -/
def inputsStream : Bytes := (v.buf.drop v.inOffset).take (v.size - v.inOffset - (v.witnessesSize + 4))
/-- `get_outputs_stream` (transaction_view.cpp:361-365) with `at_outputs`, `outputs_size` (transaction_view.cpp:421-425,443-446). -/
def outputsStream : Bytes := (v.buf.drop v.outOffset).take (v.size - v.outOffset - (v.witnessesSize + 4))
/-- `get_witnesses_stream` (transaction_view.cpp:367-371) with `at_witnesses` (transaction_view.cpp:427-432). -/
def witnessesStream : Bytes := (v.buf.drop (v.size - (v.witnessesSize + 4))).take v.witnessesSize

/-- static `is_commitment_pattern(script, size)` (transaction_view.cpp:381-394). -/
def commitmentPattern (script : Bytes) (size : Nat) : Bool :=
  if 38 > size then false
  else script.take 6 == [0x6a, 0x24, 0xaa, 0x21, 0xa9, 0xed]
/-- The loop of `get_witness_commitment` (transaction_view.cpp:263-277) over the outputs stream. -/
def commitmentLoop : Nat → Option Hash → Reader (Option Hash)
  | 0, found => pure found
  | n + 1, found => do
    doSkip 8
    let size ← readSize maxSize
    let found ← (fun s : RS => (if commitmentPattern s.rest size then some (Hash.of ((s.rest.drop 6).take 32)) else found, s))
    doSkip size
    commitmentLoop n found
/-- `get_witness_commitment` (transaction_view.cpp:254-280). -/
def witnessCommitment : Option Hash := (commitmentLoop v.outCount none (RS.init v.outputsStream)).1
/-- `get_witness_reservation` (transaction_view.cpp:282-293) with `is_reserved_pattern` (transaction_view.cpp:396-405). -/
def witnessReservation : Option Hash :=
  if 34 > v.witnessesSize then none
  else if v.witnessesStream.take 2 = [1, 32] then some (Hash.of ((v.witnessesStream.drop 2).take 32)) else none
end TxView

/-- static `transaction_view::write_input_script(sink, source)` (transaction_view.cpp:299-311): what is written. -/
def writeInputScript : Reader Bytes := do
  doSkip 36
  let size ← readSize maxSize
  let script ← readBytes size
  return writeVariable size ++ script
/-- The loop of `write_witness` (transaction_view.cpp:320-328). -/
def writeElements : Nat → Reader Bytes
  | 0 => pure []
  | n + 1 => do
    let size ← readSize maxSize
    let e ← readBytes size
    let rest ← writeElements n
    return writeVariable size ++ (e ++ rest)
/-- static `transaction_view::write_witness(sink, source)` (transaction_view.cpp:313-329): what is written. -/
def writeWitness : Reader Bytes := do
  let stack ← readSize maxSize
  let rest ← writeElements stack
  return writeVariable stack ++ rest
/-- The loop of `read_witness_size` (transaction_view.cpp:338-346). -/
def sizeElements : Nat → Reader Nat
  | 0 => pure 0
  | n + 1 => do
    let size ← readSize maxSize
    doSkip size
    let rest ← sizeElements n
    return variableSize size + size + rest
/-- static `transaction_view::read_witness_size(source)` (transaction_view.cpp:331-349). -/
def readWitnessSize : Reader Nat := do
  let stack ← readSize maxSize
  let rest ← sizeElements stack
  return variableSize stack + rest

/-- `block_view` (include/bitcoin/system/chain/views/block_view.hpp). Used for block_view.cpp:40-59. -/
structure BlockView where
  buffer : Bytes
  witness : Bool
  txs : List TxView

/-- The parse of the constructor of `block_view` (src/chain/views/block_view.cpp:44-57): the views, and the final `!in` check. -/
def readTxs (H : Bytes → Hash) (data : Bytes) (witness : Bool) : Reader (List TxView × Bool) := do
  doSkip 80
  let n ← readSize maxCount
  if n = 0 then return ([], true)
  else
    let first ← TxView.read H data true witness
    let rest ← readN (TxView.read H data false witness) (n - 1)
    let good ← isGood
    return (first :: rest, good)

/-- Constructor of `block_view` (src/chain/views/block_view.cpp:40-59). -/
def BlockView.make (H : Bytes → Hash) (data : Bytes) (witness : Bool) : BlockView :=
  let r := readTxs H data witness (RS.init data)
  { buffer := data, witness, txs := if r.1.2 then r.1.1 else [] }

namespace BlockView
variable (v : BlockView)

/-- `is_valid` (block_view.cpp:98-101). -/
def isValid : Bool := !v.txs.isEmpty
/-- `to_data` (block_view.cpp:64-93). -/
def toData (witness : Bool) : Bytes :=
  if witness then v.buffer
  else v.buffer.take 80 ++ (writeVariable v.txs.length ++ v.txs.flatMap fun t => t.toData false)
/-- `serialized_size` (block_view.cpp:127-137). -/
def serializedSize (witness : Bool) : Nat :=
  if witness then v.buffer.length
  else (v.txs.map fun t => t.serializedSize false).foldl (· + ·) (80 + variableSize v.txs.length)
/-- `is_segregated` (block_view.cpp:103-110). -/
def isSegregated : Bool := v.witness && v.txs.any fun t => t.segregated
/-- `hash` (block_view.cpp:112-115). -/
def hash (H : Bytes → Hash) : Hash := H (v.buffer.take 80)
/-- `header_merkle_root` (block_view.cpp:246-254). -/
def headerMerkleRoot : Hash :=
  if v.txs.isEmpty || v.buffer.isEmpty then nullHash else Hash.of ((v.buffer.drop 36).take 32)
/-- `generate_merkle_root` (block_view.cpp:256-269). -/
def merkleRootOf (pair : Hash → Hash → Hash) (build : Build) (witness : Bool) : Option Hash :=
  merkleRoot pair nullHash build (v.txs.map fun t => t.hash witness)
/-- static `is_malleable64(txs)` (block_view.cpp:193-201). -/
def isMalleable64 : Bool := !v.txs.isEmpty && v.txs.all fun t => t.serializedSize false == 64
/-- `is_malleated64` (block_view.cpp:208-213). -/
def isMalleated64 : Bool :=
  match v.txs with
  | [] => false
  | t :: _ => !t.isNullPoint && v.isMalleable64
/-- `is_malleated32` (block_view.cpp:203-206) with `malleated32_size`, `is_malleated32(width)` (block_view.cpp:215-240): the same
loops as `block`, over the transaction hashes. -/
def isMalleated32 : Bool := Merkle.isMalleated32 (v.txs.map fun t => t.hash false)
/-- `identify()` (block_view.cpp:139-148); `none` is block_success. -/
def identify (pair : Hash → Hash → Hash) (build : Build) : Option Code :=
  if v.txs.isEmpty then some .empty_block
  else if (v.isMalleated64 || v.isMalleated32) || decide (v.merkleRootOf pair build false ≠ some v.headerMerkleRoot) then
    some .invalid_transaction_commitment
  else none
/-- `is_invalid_witness_commitment` (block_view.cpp:173-187) -/
def isInvalidWitnessCommitment (pair : Hash → Hash → Hash) (build : Build) : Bool :=
  match v.txs with
  | [] => false
  | t :: _ => match t.witnessCommitment with
    | none => v.isSegregated
    | some commit => match t.witnessReservation with
      | none => true
      | some reserve => decide ((v.merkleRootOf pair build true).map (fun r => pair r reserve) ≠ some commit)
/-- `identify(ctx)` (block_view.cpp:150-158). -/
def identifyCtx (pair : Hash → Hash → Hash) (build : Build) (c : Ctx) : Option Code :=
  if c.bip141 && v.isInvalidWitnessCommitment pair build then some .invalid_witness_commitment else none
end BlockView

end Verif.Views
