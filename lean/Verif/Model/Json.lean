import Verif.Model.Chain
import Verif.Model.ScriptText
/-!
# JSON of chain objects

src/chain/json/*.cpp. A `Json` is a boost::json value with the kinds these functions use (an integer is of kind int64 or uint64; no fractions).
`none` is a thrown exception. The members of an object are in the order written, their names are unique.
-/
namespace Verif.Json
open Verif
open Verif.Radix (encode16 encodeHash decodeHash)
open Verif.ScriptText (Forks toText fromString scriptText scriptFromString witnessText witnessFromString)

/-- `boost::json::value`. Used for point.cpp:38-45. -/
inductive Json where
  | null
  | int64 (n : Int)
  | uint64 (n : Nat)
  | string (s : Bytes)
  | array (l : List Json)
  | object (fields : List (String × Json))

/-- `value.at(name)`: throws if there is no such member, or no object. Used for point.cpp:29-36. -/
def Json.at (v : Json) (name : String) : Option Json :=
  match v with
  | .object fields => fields.lookup name
  | _ => none

/-- `value.as_string()`. Used for point.cpp:29-36. -/
def Json.asString : Json → Option Bytes
  | .string s => some s
  | _ => none

/-- `value.as_uint64()`: only of that kind. -/
def Json.asUint64 : Json → Option Nat
  | .uint64 n => some n
  | _ => none

/-- `value.to_number<T>()` of an unsigned type with values below `limit`: of either kind of integer, if it is representable. Used for point.cpp:29-36. -/
def Json.toNumber (limit : Nat) : Json → Option Nat
  | .int64 n => if 0 ≤ n ∧ n < limit then some n.toNat else none
  | .uint64 n => if n < limit then some n else none
  | _ => none

/-- `value_to<std::vector<T>>`. Used for transaction.cpp:51-60. -/
def Json.toList {α : Type} (f : Json → Option α) : Json → Option (List α)
  | .array l => l.mapM f
  | _ => none

mutual
/-- The value after writing it as text and parsing the text: boost::json gives an integer of the text the kind int64 if it fits, else uint64. -/
def Json.reparse : Json → Json
  | .null => .null
  | .int64 n => .int64 n
  | .uint64 n => if n < 2 ^ 63 then .int64 n else .uint64 n
  | .string s => .string s
  | .array l => .array (reparseList l)
  | .object fields => .object (reparseFields fields)
def reparseList : List Json → List Json
  | [] => []
  | v :: l => v.reparse :: reparseList l
def reparseFields : List (String × Json) → List (String × Json)
  | [] => []
  | (name, v) :: l => (name, v.reparse) :: reparseFields l
end

/-- `flags::all_rules` for the text of operations. Used for operation.cpp:35-38. -/
def allRules : Forks := ⟨true, true, true⟩

/-- `decode_hash<hash_size>` (include/bitcoin/system/impl/radix/base_16.ipp): the null hash if it is not the text of one. -/
def hashOf (s : Bytes) : Hash :=
  match h : decodeHash 32 s with
  | some b => if hl : b.length = 32 then ⟨b, hl⟩ else ⟨List.replicate 32 0, by simp⟩
  | none => ⟨List.replicate 32 0, by simp⟩

/-- `DEFINE_JSON_FROM_TAG(point)` (json/point.cpp:38-45). -/
def ofPoint (p : Point) : Json :=
  .object [("hash", .string (encodeHash p.hash.bytes)), ("index", .uint64 p.index.toNat)]

/-- `DEFINE_JSON_TO_TAG(point)` (json/point.cpp:29-36). -/
def toPoint (v : Json) : Option Point :=
  (v.at "hash").bind fun h => h.asString.bind fun hash =>
  (v.at "index").bind fun i => (i.toNumber (2 ^ 32)).map fun index =>
    { hash := hashOf hash, index := UInt32.ofNat index }

/-- `chain::checkpoint` (include/bitcoin/system/chain/checkpoint.hpp). Used for checkpoint.cpp:53-60. -/
structure Checkpoint where
  hash : Hash
  height : Nat

/-- `DEFINE_JSON_FROM_TAG(checkpoint)` (json/checkpoint.cpp:53-60). -/
def ofCheckpoint (c : Checkpoint) : Json :=
  .object [("hash", .string (encodeHash c.hash.bytes)), ("height", .uint64 c.height)]

/-- `DEFINE_JSON_TO_TAG(checkpoint)` (json/checkpoint.cpp:44-51); `size_t` of 64 bits. -/
def toCheckpoint (v : Json) : Option Checkpoint :=
  (v.at "hash").bind fun h => h.asString.bind fun hash =>
  (v.at "height").bind fun i => (i.toNumber (2 ^ 64)).map fun height => ⟨hashOf hash, height⟩

/-- The members of `chain::outpoint` (src/chain/outpoint.cpp). Used for outpoint.cpp:37-44. -/
structure Outpoint where
  point : Point
  value : UInt64

/-- `DEFINE_JSON_FROM_TAG(outpoint)` (json/outpoint.cpp:37-44). -/
def ofOutpoint (o : Outpoint) : Json :=
  .object [("point", ofPoint o.point), ("value", .uint64 o.value.toNat)]

/-- `DEFINE_JSON_TO_TAG(outpoint)` (json/outpoint.cpp:28-35). -/
def toOutpoint (v : Json) : Option Outpoint :=
  (v.at "point").bind fun p => (toPoint p).bind fun point =>
  (v.at "value").bind fun i => (i.toNumber (2 ^ 64)).map fun value => ⟨point, UInt64.ofNat value⟩

/-- `DEFINE_JSON_FROM_TAG(header)` (json/header.cpp:42-55); `hash` is `header::hash`, `digest` the double SHA256. -/
def ofHeader (digest : Bytes → Bytes) (h : Header) : Json :=
  .object [("hash", .string (encodeHash (digest h.toData))), ("version", .uint64 h.version.toNat),
    ("previous", .string (encodeHash h.previous.bytes)), ("merkle_root", .string (encodeHash h.merkleRoot.bytes)),
    ("timestamp", .uint64 h.timestamp.toNat), ("bits", .uint64 h.bits.toNat), ("nonce", .uint64 h.nonce.toNat)]

/-- `DEFINE_JSON_TO_TAG(header)` (json/header.cpp:29-40). -/
def toHeader (v : Json) : Option Header :=
  ((v.at "version").bind (Json.toNumber (2 ^ 32))).bind fun version =>
  ((v.at "previous").bind Json.asString).bind fun previous =>
  ((v.at "merkle_root").bind Json.asString).bind fun root =>
  ((v.at "timestamp").bind (Json.toNumber (2 ^ 32))).bind fun timestamp =>
  ((v.at "bits").bind (Json.toNumber (2 ^ 32))).bind fun bits =>
  ((v.at "nonce").bind (Json.toNumber (2 ^ 32))).map fun nonce =>
    { version := UInt32.ofNat version, previous := hashOf previous, merkleRoot := hashOf root, timestamp := UInt32.ofNat timestamp,
      bits := UInt32.ofNat bits, nonce := UInt32.ofNat nonce }

/-- `DEFINE_JSON_FROM_TAG(operation)` (json/operation.cpp:35-38). -/
def ofOperation (o : Op) : Json := .string (toText allRules o)
/-- `DEFINE_JSON_TO_TAG(operation)` (json/operation.cpp:30-33). -/
def toOperation (v : Json) : Option Op := v.asString.map fromString

/-- `DEFINE_JSON_FROM_TAG(script)` (json/script.cpp:34-38). -/
def ofScript (s : Script) : Json := .string (scriptText allRules s)
/-- `DEFINE_JSON_TO_TAG(script)` (json/script.cpp:29-32). -/
def toScript (v : Json) : Option Script := v.asString.map scriptFromString

/-- `DEFINE_JSON_FROM_TAG(witness)` (json/witness.cpp:34-37). -/
def ofWitness (w : Witness) : Json := .string (witnessText w)
/-- `DEFINE_JSON_TO_TAG(witness)` (json/witness.cpp:29-32). -/
def toWitness (v : Json) : Option Witness := v.asString.map witnessFromString

/-- `DEFINE_JSON_FROM_TAG(input)` (json/input.cpp:43-64). -/
def ofInput (i : Input) : Json :=
  if i.witness.valid then
    .object [("point", ofPoint i.point), ("script", ofScript i.script), ("witness", ofWitness i.witness), ("sequence", .uint64 i.sequence.toNat)]
  else
    .object [("point", ofPoint i.point), ("script", ofScript i.script), ("sequence", .uint64 i.sequence.toNat)]

/-- `DEFINE_JSON_TO_TAG(input)` (json/input.cpp:32-41). -/
def toInput (v : Json) : Option Input :=
  ((v.at "point").bind toPoint).bind fun point =>
  ((v.at "script").bind toScript).bind fun script =>
  ((v.at "witness").bind toWitness).bind fun witness =>
  ((v.at "sequence").bind (Json.toNumber (2 ^ 32))).map fun sequence =>
    { point, script, witness, sequence := UInt32.ofNat sequence }

/-- `DEFINE_JSON_FROM_TAG(output)` (json/output.cpp:40-47). -/
def ofOutput (o : Output) : Json := .object [("value", .uint64 o.value.toNat), ("script", ofScript o.script)]

/-- `DEFINE_JSON_TO_TAG(output)` (json/output.cpp:31-38). -/
def toOutput (v : Json) : Option Output :=
  ((v.at "value").bind Json.asUint64).bind fun value =>
  ((v.at "script").bind toScript).map fun script => { value := UInt64.ofNat value, script }

/-- `DEFINE_JSON_FROM_TAG(transaction)` (json/transaction.cpp:62-73). -/
def ofTx (digest : Bytes → Bytes) (t : Tx) : Json :=
  .object [("hash", .string (encodeHash (digest (t.toData false)))), ("version", .uint64 t.version.toNat),
    ("inputs", .array (t.inputs.map ofInput)), ("outputs", .array (t.outputs.map ofOutput)), ("locktime", .uint64 t.locktime.toNat)]

/-- `DEFINE_JSON_TO_TAG(transaction)` (json/transaction.cpp:51-60) and the constructor (src/chain/transaction.cpp:554-573). -/
def toTx (v : Json) : Option Tx :=
  ((v.at "version").bind (Json.toNumber (2 ^ 32))).bind fun version =>
  ((v.at "inputs").bind (Json.toList toInput)).bind fun inputs =>
  ((v.at "outputs").bind (Json.toList toOutput)).bind fun outputs =>
  ((v.at "locktime").bind (Json.toNumber (2 ^ 32))).map fun locktime =>
    { version := UInt32.ofNat version, inputs, outputs, locktime := UInt32.ofNat locktime, segregated := segregatedInputs inputs, valid := true }

/-- `DEFINE_JSON_FROM_TAG(block)` (json/block.cpp:45-52). -/
def ofBlock (digest : Bytes → Bytes) (b : Block) : Json :=
  .object [("header", ofHeader digest b.header), ("transactions", .array (b.txs.map (ofTx digest)))]

/-- `DEFINE_JSON_TO_TAG(block)` (json/block.cpp:36-43). -/
def toBlock (v : Json) : Option Block :=
  ((v.at "header").bind toHeader).bind fun header =>
  ((v.at "transactions").bind (Json.toList toTx)).map fun txs => { header, txs }

/-- `hex_writer` writing data (include/bitcoin/system/impl/stream/streamers/hex_writer.ipp:51-68): two characters an octet. -/
def hexWrite (data : Bytes) : Bytes := data.flatMap fun o => [Radix.toHexHi o, Radix.toHexLo o]

/-- `bitcoind_embedded_tag` of a transaction (json/transaction.cpp:121-134): the text is made of twice the serialized size, and written over
from the start (what is beyond it would not be written, what is left is zero). -/
def bitcoindHex (t : Tx) : Bytes :=
  let size := 2 * t.serializedSize true
  (hexWrite (t.toData true)).take size ++ List.replicate (size - (hexWrite (t.toData true)).length) 0

/-- `bitcoind_tag` of a witness (json/witness.cpp:52-62). -/
def bitcoindWitness (w : Witness) : Json := .array (w.stack.map fun e => .string (encode16 e))

/-- `bitcoind_tag` of a script (json/script.cpp:53-62), the `hex` member; `asm` is the text with other brackets, not modelled. -/
def bitcoindScriptHex (s : Script) : Bytes := encode16 (s.toData false)

/-- `input::is_coinbase` is `point::is_null` (src/chain/input.cpp:391-394, src/chain/point.cpp:195-198). -/
def isCoinbase (p : Point) : Bool := p.index == 0xffffffff && p.hash.bytes == List.replicate 32 0

/-- `bitcoind_tag` of an input (json/input.cpp:79-103). -/
def bitcoindInput (i : Input) : Json :=
  if isCoinbase i.point then
    .object [("coinbase", .string (encode16 (i.script.toData false))), ("sequence", .uint64 i.sequence.toNat)]
  else
    .object ([("txid", .string (encodeHash i.point.hash.bytes)), ("vout", .uint64 i.point.index.toNat),
      ("scriptSig", .object [("hex", .string (bitcoindScriptHex i.script))]), ("sequence", .uint64 i.sequence.toNat)] ++
      (if i.witness.stack.isEmpty then [] else [("txinwitness", bitcoindWitness i.witness)]))

/-- `bitcoind_tag` of a transaction (json/transaction.cpp:88-113); of the outputs only their number of members and positions (`n`) and scripts
(json/output.cpp:62-96; the amount is a floating point number and the address list a placeholder, not modelled). -/
def bitcoindTx (digest : Bytes → Bytes) (t : Tx) : Json :=
  .object [("hex", .string (bitcoindHex t)), ("txid", .string (encodeHash (digest (t.toData false)))),
    ("hash", .string (encodeHash (digest (t.toData true)))), ("size", .uint64 (t.serializedSize true)), ("vsize", .uint64 t.virtualSize),
    ("weight", .uint64 t.weight), ("version", .uint64 t.version.toNat), ("locktime", .uint64 t.locktime.toNat),
    ("vin", .array (t.inputs.map bitcoindInput)),
    ("vout", .array (t.outputs.zipIdx.map fun o =>
      .object [("scriptPubKey", .object [("hex", .string (bitcoindScriptHex o.1.script))]), ("n", .uint64 o.2)]))]

end Verif.Json
