import Verif.Model.Stream
/-!
# Model of the chain object codecs

Sources: src/chain/{point,operation,script,witness,input,output,transaction,header,block}.cpp.
Shared pointers are modelled by the values they point to; cached hashes, prevouts and other
non-serialized metadata are not part of these structures.
-/
namespace Verif

/-- `hash_digest`: exactly 32 bytes. -/
structure Hash where
  bytes : Bytes
  len : bytes.length = 32

instance : DecidableEq Hash := fun a b =>
  decidable_of_iff (a.bytes = b.bytes) ⟨fun h => by cases a; cases b; cases h; rfl, fun h => by rw [h]⟩

theorem Hash.ext {a b : Hash} (h : a.bytes = b.bytes) : a = b := by
  cases a; cases b; cases h; rfl

/-- Pad or cut a byte string to exactly `n` bytes (buffers have a fixed size in the code). -/
def fitBytes (n : Nat) (b : Bytes) : Bytes := (b ++ List.replicate n 0).take n

theorem fitBytes_length (n : Nat) (b : Bytes) : (fitBytes n b).length = n := by
  simp [fitBytes]

def Hash.of (b : Bytes) : Hash := ⟨fitBytes 32 b, fitBytes_length _ _⟩

/-- `null_hash`. Used for transaction_sighash_v0.cpp:36-52. -/
def nullHash : Hash := Hash.of []

/-- `max_block_size`, `max_block_weight`, `max_count`, `max_bytes`
(include/bitcoin/system/chain/enums/magic_numbers.hpp:30-60,77,107-110). -/
def maxBlockSize : Nat := 1000000
/-- As above, magic_numbers.hpp:30-60,77,107-110. -/
def maxBlockWeight : Nat := 4 * maxBlockSize
/-- As above, magic_numbers.hpp:30-60,77,107-110. -/
def maxCount : Nat := maxBlockSize
/-- As above, magic_numbers.hpp:30-60,77,107-110. -/
def maxBytes : Nat := maxBlockWeight

/-! ## Reader helpers returning fixed-width values -/

/-- `read_hash` (byte_reader.ipp:318-322, 266-276). -/
def readHash : Reader Hash := do
  let b ← doRead 32
  return Hash.of b

/-- `read_4_bytes_little_endian`. -/
def readU32 : Reader UInt32 := do
  let v ← readLE 4
  return UInt32.ofNat v

/-- `read_8_bytes_little_endian`. -/
def readU64 : Reader UInt64 := do
  let v ← readLE 8
  return UInt64.ofNat v

/-- As above, byte_reader.ipp:318-322, 266-276. -/
def writeU32 (v : UInt32) : Bytes := writeLE 4 v.toNat
/-- As above, byte_reader.ipp:318-322, 266-276. -/
def writeU64 (v : UInt64) : Bytes := writeLE 8 v.toNat

/-! ## point -/

/-- `chain::point` (include/bitcoin/system/chain/point.hpp). Used for point.cpp:140-148. -/
structure Point where
  hash : Hash
  index : UInt32
  valid : Bool := true
deriving DecidableEq

/-- `point::from_data` (src/chain/point.cpp:140-148). -/
def Point.read : Reader Point := do
  let hash ← readHash
  let index ← readU32
  let valid ← isGood
  return { hash, index, valid }

/-- `point::to_data` (src/chain/point.cpp:168-172). -/
def Point.toData (p : Point) : Bytes := p.hash.bytes ++ writeU32 p.index

/-- `point::serialized_size` (include/bitcoin/system/chain/point.hpp): 32 + 4. -/
def Point.size : Nat := 36

/-! ## operation -/

/-- `chain::operation`: opcode byte, push data, underflow flag. Used for operation.cpp:103-106. -/
structure Op where
  code : UInt8
  data : Bytes := []
  underflow : Bool := false
deriving DecidableEq, Repr

/-- `any_invalid = opcode::op_verif = 101` (src/chain/operation.cpp:59, enums/opcode.hpp). -/
def anyInvalid : UInt8 := 101

/-- `operation::operation()` — the default (invalid) operation (src/chain/operation.cpp:103-106). -/
def Op.default : Op := { code := anyInvalid, data := [0x42], underflow := false }

/-- `operation::read_data_size` (src/chain/operation.cpp:590-607); push_one_size = 76,
push_two_size = 77, push_four_size = 78, push_size_75 = 75. -/
def readDataSize (code : UInt8) : Reader Nat :=
  if code = 76 then do let b ← readByte; return b.toNat
  else if code = 77 then readLE 2
  else if code = 78 then readLE 4
  else if code ≤ 75 then return code.toNat
  else return 0

/-- `operation::from_data` (src/chain/operation.cpp:195-238). -/
def Op.read : Reader Op := fun s =>
  if !s.good then (Op.default, s)
  else
    let start := s.pos
    let c := readByte s
    let n := readDataSize c.1 c.2
    let s := if n.1 > maxBytes then (invalidate n.2).2 else n.2
    let push := if s.good then readBytes n.1 s else ([], s)
    let s := push.2
    if !s.good then
      let s := (setPosition start s).2
      let all := readAll s
      ({ code := anyInvalid, data := all.1, underflow := true }, all.2)
    else
      ({ code := c.1, data := push.1, underflow := false }, s)

/-- `operation::to_data` (src/chain/operation.cpp:271-302). -/
def Op.toData (o : Op) : Bytes :=
  if o.underflow then o.data
  else
    o.code ::
      ((if o.code = 76 then [UInt8.ofNat o.data.length]
        else if o.code = 77 then writeLE 2 o.data.length
        else if o.code = 78 then writeLE 4 o.data.length
        else []) ++ o.data)

/-- `operation::serialized_size` (src/chain/operation.cpp:552-571). -/
def Op.size (o : Op) : Nat :=
  if o.underflow then o.data.length
  else if o.code = 76 then 1 + 1 + o.data.length
  else if o.code = 77 then 1 + 2 + o.data.length
  else if o.code = 78 then 1 + 4 + o.data.length
  else 1 + o.data.length

/-- `operation::count_op` (src/chain/operation.cpp:579-587). -/
def countOp : Reader Bool := fun s =>
  if (isExhausted s).1 then (false, s)
  else
    let c := readByte s
    let n := readDataSize c.1 c.2
    (true, (skipBytes n.1 n.2).2)

/-! ## script -/

/-- `chain::script`: operations, validity and cached size.  The cached flags `easier_`, `failer_`,
`roller_` are folds over `ops` (src/chain/script.cpp:210-246, 267-277) and are modelled as functions of
`ops`; the evaluation-time `offset` is modelled by the subscript arguments of the sighash functions. -/
structure Script where
  ops : List Op
  valid : Bool
  size : Nat
deriving DecidableEq, Repr

/-- `script::serialized_size(ops)` with `op_size` accumulator
(src/chain/script.cpp:453-456; script.hpp: `ceilinged_add(total, op.serialized_size())`). -/
def opsSize (ops : List Op) : Nat := ops.foldl (fun t o => cadd t o.size) 0

/-- `script::from_operations` (src/chain/script.cpp:210-246). -/
def Script.ofOps (ops : List Op) : Script := { ops, valid := true, size := opsSize ops }

/-- Loop of `script::op_count` (src/chain/script.cpp:200-204). -/
def opCountLoop : Nat → Nat → Reader Nat
  | 0, c => fun s => (c, s)
  | fuel + 1, c => fun s =>
    let r := countOp s
    if r.1 then opCountLoop fuel (c + 1) r.2 else (c, r.2)

/-- `script::op_count` (src/chain/script.cpp:193-208). -/
def opCount : Reader Nat := fun s =>
  if !s.good then (0, s)
  else
    let start := s.pos
    let c := opCountLoop (s.data.length + 1) 0 s
    (c.1, (setPosition start c.2).2)

/-- Operation loop of `script::from_data` (src/chain/script.cpp:268-276). -/
def readOps : Nat → Reader (List Op)
  | 0 => fun s => ([], s)
  | fuel + 1 => fun s =>
    if (isExhausted s).1 then ([], s)
    else
      let o := Op.read s
      let r := readOps fuel o.2
      (o.1 :: r.1, r.2)

/-- `script::from_data` (src/chain/script.cpp:249-290). -/
def Script.read (pfx : Bool) : Reader Script := fun s =>
  let e := if pfx then readSize maxSize s else (0, s)
  let s := if pfx then (setLimit e.1 e.2).2 else e.2
  let s := (opCount s).2
  let start := s.pos
  let r := readOps (s.data.length + 1) s
  let size := r.2.pos - start
  let s := if pfx then
      let s := (clearLimit r.2).2
      if size ≠ e.1 then (invalidate s).2 else s
    else r.2
  ({ ops := r.1, valid := s.good, size := size }, s)

/-- Concatenated operation bytes. Used for script.cpp:345-353. -/
def opsData (ops : List Op) : Bytes := ops.flatMap Op.toData

/-- `script::serialized_size(prefix)` (src/chain/script.cpp:458-465), offset at begin. -/
def Script.serializedSize (sc : Script) (pfx : Bool) : Nat :=
  if pfx then cadd sc.size (variableSize sc.size) else sc.size

/-- `script::to_data` (src/chain/script.cpp:345-353), offset at begin. -/
def Script.toData (sc : Script) (pfx : Bool) : Bytes :=
  (if pfx then writeVariable (sc.serializedSize false) else []) ++ opsData sc.ops

/-! ## witness -/

/-- `chain::witness`. Used for witness.cpp:37-40. -/
structure Witness where
  stack : List Bytes
  valid : Bool
  size : Nat
deriving DecidableEq, Repr

/-- `witness::witness()` (src/chain/witness.cpp:37-40). -/
def Witness.empty : Witness := { stack := [], valid := false, size := 0 }

/-- `element_size` (src/chain/witness.cpp:145-150). -/
def elementSize (e : Bytes) : Nat := cadd (variableSize e.length) e.length

/-- `read_element` (src/chain/witness.cpp:152-156). -/
def readElement : Reader Bytes := do
  let n ← readSize maxBytes
  readBytes n

/-- Counted element loop (src/chain/witness.cpp:170-174). -/
def readElements : Nat → Reader (List Bytes)
  | 0 => pure []
  | n + 1 => do
    let e ← readElement
    let es ← readElements n
    return e :: es

/-- Uncounted element loop (src/chain/witness.cpp:178-182). Each pass over a non-exhausted reader
consumes at least the size byte, so `fuel = length + 1` suffices. -/
def readElementsAll : Nat → Reader (List Bytes)
  | 0 => fun s => ([], s)
  | fuel + 1 => fun s =>
    if (isExhausted s).1 then ([], s)
    else
      let e := readElement s
      let r := readElementsAll fuel e.2
      (e.1 :: r.1, r.2)

/-- Sum of element sizes as accumulated by `witness::from_data` (`size +=`, src/chain/witness.cpp:173,181)
and `witness::serialized_size(stack)` (326-335). -/
def stackSize (st : List Bytes) : Nat := st.foldl (fun t e => cadd t (elementSize e)) 0

/-- `witness::from_data` (src/chain/witness.cpp:159-186). Simplified: the size accumulation uses the
saturating sum (the code adds without saturation; equal below 2^64). -/
def Witness.read (pfx : Bool) : Reader Witness := fun s =>
  let r :=
    if pfx then
      let c := readSize maxBytes s
      readElements c.1 c.2
    else readElementsAll (s.data.length + 1) s
  ({ stack := r.1, valid := r.2.good, size := stackSize r.1 }, r.2)

/-- Counted loop of `witness::skip` (src/chain/witness.cpp:193-203): returns "some element non-empty". -/
def skipElements : Nat → Reader Bool
  | 0 => pure false
  | n + 1 => do
    let size ← readSize maxBytes
    let _ ← readBytes size
    let rest ← skipElements n
    return (size != 0) || rest

/-- `witness::skip(source, true)` (src/chain/witness.cpp:189-219). -/
def Witness.skip : Reader Bool := do
  let c ← readSize maxBytes
  skipElements c

/-- `witness::to_data` (src/chain/witness.cpp:236-248). -/
def Witness.toData (w : Witness) (pfx : Bool) : Bytes :=
  (if pfx then writeVariable w.stack.length else []) ++
    w.stack.flatMap (fun e => writeVariable e.length ++ e)

/-- `witness::serialized_size(prefix)` (src/chain/witness.cpp:337-343). -/
def Witness.serializedSize (w : Witness) (pfx : Bool) : Nat :=
  if pfx then cadd (variableSize w.stack.length) w.size else w.size

/-- `witness(stack)` constructor (src/chain/witness.cpp:42-70). -/
def Witness.ofStack (st : List Bytes) : Witness := { stack := st, valid := true, size := stackSize st }

/-! ## input, output -/

/-- `chain::input` (serialized members only). Used for input.cpp:228-240. -/
structure Input where
  point : Point
  script : Script
  witness : Witness
  sequence : UInt32
  valid : Bool := true
deriving DecidableEq

/-- `input::from_data` (src/chain/input.cpp:228-240). -/
def Input.read : Reader Input := do
  let point ← Point.read
  let script ← Script.read true
  let sequence ← readU32
  let valid ← isGood
  return { point, script, witness := Witness.empty, sequence, valid }

/-- `input::to_data` (src/chain/input.cpp:260-265). -/
def Input.toData (i : Input) : Bytes :=
  i.point.toData ++ (i.script.toData true ++ writeU32 i.sequence)

/-- `input::serialized_size().nominal` (src/chain/input.cpp:268-304). -/
def Input.nominalSize (i : Input) : Nat := cadd (cadd Point.size 4) (i.script.serializedSize true)

/-- `input::serialized_size().witnessed` (src/chain/input.cpp:283-304, 326-333). -/
def Input.witnessedSize (i : Input) : Nat := cadd i.nominalSize (i.witness.serializedSize true)

/-- `chain::output`. Used for output.cpp:130-138. -/
structure Output where
  value : UInt64
  script : Script
  valid : Bool := true
deriving DecidableEq

/-- `output::from_data` (src/chain/output.cpp:130-138). -/
def Output.read : Reader Output := do
  let value ← readU64
  let script ← Script.read true
  let valid ← isGood
  return { value, script, valid }

/-- `output::to_data` (src/chain/output.cpp:158-162). -/
def Output.toData (o : Output) : Bytes := writeU64 o.value ++ o.script.toData true

/-- `output::serialized_size` (src/chain/output.cpp:165-174). -/
def Output.size (o : Output) : Nat := cadd 8 (o.script.serializedSize true)

/-! ## transaction -/

/-- `chain::transaction`. Used for transaction.cpp:163-218. -/
structure Tx where
  version : UInt32
  inputs : List Input
  outputs : List Output
  locktime : UInt32
  segregated : Bool
  valid : Bool := true
deriving DecidableEq

/-- A counted repetition of a reader (loops `for (put = 0; put < count; ++put)`). -/
def readN {α : Type} (p : Reader α) : Nat → Reader (List α)
  | 0 => pure []
  | n + 1 => do
    let x ← p
    let xs ← readN p n
    return x :: xs

/-- `read_puts` (src/chain/transaction.cpp:146-160). -/
def readPuts {α : Type} (p : Reader α) : Reader (List α) := do
  let count ← readSize maxCount
  readN p count

/-- Witness assignment loop (src/chain/transaction.cpp:188-201): `input::set_witness` on each input
(src/chain/input.cpp:326-333); returns inputs and "not superfluous". -/
def readWitnesses : List Input → Reader (List Input × Bool)
  | [] => pure ([], false)
  | i :: is => do
    let w ← Witness.read true
    let r ← readWitnesses is
    return ({ i with witness := w } :: r.1, !w.stack.isEmpty || r.2)

/-- Witness skipping loop (src/chain/transaction.cpp:188-201 with witness == false). -/
def skipWitnesses : List Input → Reader Bool
  | [] => pure false
  | _ :: is => do
    let a ← Witness.skip
    let r ← skipWitnesses is
    return a || r

/-- Invalidate the reader if the flag is set. Used for transaction.cpp:163-218. -/
def invalidateIf (b : Bool) : Reader Unit := fun s => if b then invalidate s else ((), s)

/-- Witness-flag detection (src/chain/transaction.cpp:172-174): the peek happens only when the
input count is zero. -/
def detectWitness (inputs : List Input) : Reader Bool := fun s =>
  if inputs.length = 0 then
    let p := peekByte s
    (p.1 == 1, p.2)
  else (false, s)

/-- `transaction::from_data` (src/chain/transaction.cpp:163-218). -/
def Tx.read (witness : Bool) : Reader Tx := do
  let version ← readU32
  let inputs ← readPuts Input.read
  let hasWitness ← detectWitness inputs
  if hasWitness then
    doSkip 1
    let inputs ← readPuts Input.read
    let outputs ← readPuts Output.read
    let r ← (if witness then readWitnesses inputs
             else do let f ← skipWitnesses inputs; return (inputs, f))
    invalidateIf (!r.2)
    let locktime ← readU32
    let valid ← isGood
    return { version, inputs := r.1, outputs, locktime, segregated := witness, valid }
  else
    let outputs ← readPuts Output.read
    let locktime ← readU32
    let valid ← isGood
    return { version, inputs, outputs, locktime, segregated := false, valid }

/-- `transaction::to_data(writer, witness)` (src/chain/transaction.cpp:243-268). -/
def Tx.toData (t : Tx) (witness : Bool) : Bytes :=
  let w := witness && t.segregated
  writeU32 t.version ++
  ((if w then [0x00, 0x01] else []) ++
  (writeVariable t.inputs.length ++
  (t.inputs.flatMap Input.toData ++
  (writeVariable t.outputs.length ++
  (t.outputs.flatMap Output.toData ++
  ((if w then t.inputs.flatMap (fun i => i.witness.toData true) else []) ++
  writeU32 t.locktime))))))

/-- Saturating sum of a size function over a list (`std::accumulate` / `for_each` with `ceilinged_add`). Used for transaction.cpp:291-297. -/
def sumSize {α : Type} (f : α → Nat) (l : List α) : Nat := l.foldl (fun t x => cadd t (f x)) 0

/-- `transaction::serialized_size(inputs, outputs, segregated)` base part (transaction.cpp:291-297). -/
def Tx.baseSize (t : Tx) : Nat :=
  cadd (cadd (cadd 8 (variableSize t.inputs.length)) (variableSize t.outputs.length))
    (sumSize Output.size t.outputs)

/-- nominal size (src/chain/transaction.cpp:271-305). -/
def Tx.nominalSize (t : Tx) : Nat := cadd t.baseSize (sumSize Input.nominalSize t.inputs)

/-- witnessed size (src/chain/transaction.cpp:271-305). -/
def Tx.witnessedSize (t : Tx) : Nat :=
  if t.segregated then cadd (cadd t.baseSize 2) (sumSize Input.witnessedSize t.inputs)
  else t.nominalSize

/-- `transaction::serialized_size(witness)` (src/chain/transaction.cpp:307-311). -/
def Tx.serializedSize (t : Tx) (witness : Bool) : Nat :=
  if witness && t.segregated then t.witnessedSize else t.nominalSize

/-- `ceilinged_divide` for unsigned operands. Used for transaction.cpp:589-593. -/
def ceilDiv (a b : Nat) : Nat := (a + b - 1) / b

/-- `transaction::weight` (src/chain/transaction.cpp:581-587). -/
def Tx.weight (t : Tx) : Nat :=
  cadd (cmul 3 (t.serializedSize false)) (cmul 1 (t.serializedSize true))

/-- `transaction::virtual_size` (src/chain/transaction.cpp:589-593). -/
def Tx.virtualSize (t : Tx) : Nat := ceilDiv t.weight 4

/-- `transaction::segregated(inputs)` (src/chain/transaction.cpp:554-573): some witness stack is non-empty. -/
def segregatedInputs (is : List Input) : Bool := is.any (fun i => !i.witness.stack.isEmpty)

/-- Public constructor `transaction(version, inputs, outputs, locktime)` (transaction.cpp:60-80). -/
def Tx.make (version : UInt32) (inputs : List Input) (outputs : List Output) (locktime : UInt32) : Tx :=
  { version, inputs, outputs, locktime, segregated := segregatedInputs inputs, valid := true }

/-! ## header, block -/

/-- `chain::header`. Used for header.cpp:145-157. -/
structure Header where
  version : UInt32
  previous : Hash
  merkleRoot : Hash
  timestamp : UInt32
  bits : UInt32
  nonce : UInt32
  valid : Bool := true
deriving DecidableEq

/-- `header::from_data` (src/chain/header.cpp:145-157). -/
def Header.read : Reader Header := do
  let version ← readU32
  let previous ← readHash
  let merkleRoot ← readHash
  let timestamp ← readU32
  let bits ← readU32
  let nonce ← readU32
  let valid ← isGood
  return { version, previous, merkleRoot, timestamp, bits, nonce, valid }

/-- `header::to_data` (src/chain/header.cpp:177-185). -/
def Header.toData (h : Header) : Bytes :=
  writeU32 h.version ++ (h.previous.bytes ++ (h.merkleRoot.bytes ++
    (writeU32 h.timestamp ++ (writeU32 h.bits ++ writeU32 h.nonce))))

/-- `header::serialized_size` (include/bitcoin/system/chain/header.hpp). Used for block.cpp:338-360. -/
def Header.size : Nat := 80

/-- `chain::block`. Used for block.cpp:134-156. -/
structure Block where
  header : Header
  txs : List Tx
  valid : Bool := true
deriving DecidableEq

/-- `block::from_data` (src/chain/block.cpp:134-156). -/
def Block.read (witness : Bool) : Reader Block := do
  let header ← Header.read
  let txs ← readPuts (Tx.read witness)
  let valid ← isGood
  return { header, txs, valid }

/-- `block::to_data` (src/chain/block.cpp:175-182). -/
def Block.toData (b : Block) (witness : Bool) : Bytes :=
  b.header.toData ++ (writeVariable b.txs.length ++ b.txs.flatMap (fun t => t.toData witness))

/-- `block::serialized_size` (src/chain/block.cpp:338-360). -/
def Block.serializedSize (b : Block) (witness : Bool) : Nat :=
  cadd (cadd Header.size (variableSize b.txs.length)) (sumSize (fun t => t.serializedSize witness) b.txs)

/-- `block::weight` (src/chain/block.cpp:474-480). -/
def Block.weight (b : Block) : Nat :=
  cadd (cmul 3 (b.serializedSize false)) (cmul 1 (b.serializedSize true))

/-- `block::virtual_size` (src/chain/block.cpp:482-486). -/
def Block.virtualSize (b : Block) : Nat := ceilDiv b.weight 4

end Verif
