import Verif.Model.Chain
import Verif.Model.ScriptText
/-!
# Text of configuration values

src/config/*.cpp, src/chain/checkpoint.cpp. A value is read from a stream of characters (its bytes); `none` is a thrown
`istream_exception`. Streams are those of libstdc++ in the C locale.
-/
namespace Verif.Config
open Verif
open Verif.Radix (ascii encode16 decode16 decode16Array encodeHash decodeHash)
open Verif.ScriptText (isWs trimWs splitOn scriptText scriptFromString)

/-- `stream >> text`: leading whitespace is skipped and characters are read up to whitespace. Used for version.cpp:114-132. -/
def word (s : Bytes) : Bytes := (s.dropWhile isWs).takeWhile fun c => !isWs c

/-- `stream >> integer` of an unsigned integer below `limit`, with nothing left of the text but what was not read: success, and what is stored
(`none`: nothing). The text does not start with whitespace or a minus sign. Without a digit zero is stored and above the limit the maximum
([facet.num.get.virtuals]); an empty stream stores nothing. Digits are read up to another character, which is left. Used for deserialize.ipp:96-118. -/
def scan (limit : Nat) (s : Bytes) : Bool × Option Nat :=
  if s = [] then (false, none)
  else
    let digits := (if s.head? = some 43 then s.drop 1 else s).takeWhile Base10.isDigit
    if digits = [] then (false, some 0)
    else if Base10.digitsVal digits < limit then (true, some (Base10.digitsVal digits))
    else (false, some (limit - 1))

/-- `deserialize` of an unsigned integer (include/bitcoin/system/impl/serial/deserialize.ipp:96-118). -/
def deserializeOut (limit : Nat) (s : Bytes) : Bool × Option Nat :=
  let t := trimWs s
  if t.head? = some 45 then (false, none) else scan limit t

/-- The value if it succeeds. Used for deserialize.ipp:48-56. -/
def deserialize (limit : Nat) (s : Bytes) : Option Nat :=
  let r := deserializeOut limit s
  if r.1 then r.2 else none

/-- `deserialize(uint8_t)` (deserialize.ipp:48-56). -/
def deserialize8 (s : Bytes) : Option Nat := (deserialize (2 ^ 16) s).filter fun v => v ≤ 255

/-- `serialize` of an unsigned integer (include/bitcoin/system/impl/serial/serialize.ipp:44-48, 88-103). -/
def serialize (n : Nat) : Bytes := Base10.formatDec n

/-- `split(text, delimiter)` with a delimiter of one character (src/data/string.cpp:103-153, 52-68): trim, split, trim the tokens, erase the empty
ones; one empty token if none is left. -/
def splitBy (c : UInt8) (s : Bytes) : List Bytes :=
  let tokens := ((splitOn c (trimWs s)).map trimWs).filter fun t => !t.isEmpty
  if tokens.isEmpty then [[]] else tokens

/-! ### Version -/

/-- `config::version`: `segments_` (include/bitcoin/system/config/version.hpp). Used for version.cpp:126-129. -/
structure Version where
  major : UInt32
  minor : UInt32
  subminor : UInt32
  patch : UInt32
  deriving DecidableEq

/-- The array of segments. Used for version.cpp:70-77, 134-150. -/
def Version.segments (v : Version) : List UInt32 := [v.major, v.minor, v.subminor, v.patch]

/-- The first segments are assigned, the others are zero (version.cpp:126-129). -/
def Version.ofSegments (l : List UInt32) : Version := ⟨l.getD 0 0, l.getD 1 0, l.getD 2 0, l.getD 3 0⟩

/-- `operator>>` (src/config/version.cpp:114-132). -/
def Version.read (s : Bytes) : Option Version :=
  let tokens := splitBy 46 (word s)
  if tokens.length < 2 ∨ tokens.length > 4 then none
  else (tokens.mapM (deserialize (2 ^ 32))).map fun l => Version.ofSegments (l.map UInt32.ofNat)

/-- The index of the last segment written (version.cpp:137-139). -/
def Version.last (v : Version) : Nat := if v.patch ≠ 0 then 3 else if v.subminor ≠ 0 then 2 else 1

/-- `operator<<`, `to_string` (version.cpp:70-77, 134-150). -/
def Version.write (v : Version) : Bytes :=
  match v.segments.take (v.last + 1) with
  | [] => []
  | x :: l => serialize x.toNat ++ l.flatMap fun x => ascii "." ++ serialize x.toNat

/-- `std::lexicographical_compare`. Used for version.cpp:92-112. -/
def lexLess : List UInt32 → List UInt32 → Bool
  | _, [] => false
  | [], _ :: _ => true
  | a :: l, b :: m => if a < b then true else if b < a then false else lexLess l m

/-- `operator<`, `operator<=`, `operator>`, `operator>=` (version.cpp:92-112). -/
def Version.less (a b : Version) : Bool := lexLess a.segments b.segments
/-- As above, version.cpp:92-112. -/
def Version.lessEq (a b : Version) : Bool := a.less b || decide (a = b)
/-- As above, version.cpp:92-112. -/
def Version.greater (a b : Version) : Bool := b.less a
/-- As above, version.cpp:92-112. -/
def Version.greaterEq (a b : Version) : Bool := b.lessEq a
/-- `is_default` (version.cpp:64-68). -/
def Version.isDefault (v : Version) : Bool := decide (v = ⟨0, 0, 0, 0⟩)

/-! ### Byte, hashes, data -/

/-- `config::byte` (src/config/byte.cpp:51-68). -/
def readByte (s : Bytes) : Option UInt8 := (deserialize8 (word s)).map UInt8.ofNat
/-- As above, byte.cpp:51-68. -/
def writeByte (b : UInt8) : Bytes := serialize b.toNat

/-- `config::hash160` (src/config/hash160.cpp:55-70). -/
def readHash160 (s : Bytes) : Option Bytes := decode16Array 20 (word s)
/-- As above, hash160.cpp:55-70. -/
def writeHash160 (h : Bytes) : Bytes := encode16 h

/-- `config::hash256` (src/config/hash256.cpp:67-82). -/
def readHash256 (s : Bytes) : Option Bytes := decodeHash 32 (word s)
/-- As above, hash256.cpp:67-82. -/
def writeHash256 (h : Bytes) : Bytes := encodeHash h

/-- `config::base16`, `config::base58`, `config::base64`, `config::base85` (src/config/base16.cpp:59-77, base58.cpp:52-67, base64.cpp:54-69, base85.cpp:65-88). -/
def readBase16 (s : Bytes) : Option Bytes := decode16 (word s)
/-- As above, base85.cpp:65-88. -/
def readBase58 (s : Bytes) : Option Bytes := Radix.decode58 (word s)
/-- As above, base85.cpp:65-88. -/
def readBase64 (s : Bytes) : Option Bytes := Radix.decode64 (word s)
/-- As above, base85.cpp:65-88. -/
def readBase85 (s : Bytes) : Option Bytes := (Radix.decode85 (word s)).filter fun d => d.length % 4 = 0

/-! ### Points, inputs, outputs -/

/-- `decode_point` and `operator>>` of `config::point` (src/config/point.cpp:40-56, 86-95). The hash is read by `config::hash256`. -/
def readPoint (s : Bytes) : Option (Bytes × UInt32) :=
  match splitBy 58 (word s) with
  | [hash, index] =>
    match deserialize (2 ^ 32) index with
    | none => none
    | some i => (readHash256 hash).map fun h => (h, UInt32.ofNat i)
  | _ => none
/-- `encode_point` (point.cpp:58-63). -/
def writePoint (hash : Bytes) (index : UInt32) : Bytes := writeHash256 hash ++ ascii ":" ++ serialize index.toNat

/-- `operator>>` of `config::script` (src/config/script.cpp:60-71): the whole stream. -/
def readScript (s : Bytes) : Option Script := let sc := scriptFromString s; if sc.valid then some sc else none
/-- `operator<<` (script.cpp:73-77), with all rules. -/
def writeScript (sc : Script) : Bytes := scriptText ⟨true, true, true⟩ sc

/-- `decode_input` and `operator>>` of `config::input` (src/config/input.cpp:37-57, 88-97). -/
def readInput (s : Bytes) : Option ((Bytes × UInt32) × Script × UInt32) :=
  let tokens := splitBy 58 (word s)
  if tokens.length ≠ 3 ∧ tokens.length ≠ 4 then none
  else
    match (if tokens.length = 4 then deserialize (2 ^ 32) (tokens.getD 3 []) else some 0xffffffff) with
    | none => none
    | some sequence =>
      match readPoint (tokens.getD 1 [] ++ ascii ":" ++ tokens.getD 2 []), readScript (tokens.getD 0 []) with
      | some p, some sc => some (p, sc, UInt32.ofNat sequence)
      | _, _ => none
/-- `encode_input` (input.cpp:59-65). -/
def writeInput (hash : Bytes) (index : UInt32) (sc : Script) (sequence : UInt32) : Bytes :=
  writeScript sc ++ writePoint hash index ++ ascii ":" ++ serialize sequence.toNat

/-- `decode_output` and `operator>>` of `config::output` (src/config/output.cpp:37-56, 85-94). `junk` is the value of the variable that is not
initialized. -/
def readOutput (junk : Nat) (s : Bytes) : Option (UInt64 × Script) :=
  match splitBy 58 (word s) with
  | [sc, value] =>
    let r := deserializeOut (2 ^ 64) value
    if !(!r.1) then none
    else (readScript sc).map fun sc => (UInt64.ofNat (r.2.getD junk), sc)
  | _ => none
/-- `encode_output` (output.cpp:58-63). -/
def writeOutput (value : UInt64) (sc : Script) : Bytes := writeScript sc ++ ascii ":" ++ serialize value.toNat

/-! ### Transactions, headers, blocks -/

/-- `operator>>` of `config::transaction` (src/config/transaction.cpp:54-70); an object is valid if the reader is (C08). -/
def readTx (s : Bytes) : Option Tx :=
  (decode16 (word s)).bind fun d => let r := Tx.read true (RS.init d); if r.2.good then some r.1 else none
/-- As above, transaction.cpp:54-70. -/
def writeTx (t : Tx) : Bytes := encode16 (t.toData true)
/-- `operator>>` of `config::header` (src/config/header.cpp:54-69). -/
def readHeader (s : Bytes) : Option Header :=
  (decode16 (word s)).bind fun d => let r := Header.read (RS.init d); if r.2.good then some r.1 else none
/-- As above, header.cpp:54-69. -/
def writeHeader (h : Header) : Bytes := encode16 h.toData
/-- `operator>>` of `config::block` (src/config/block.cpp:59-74). -/
def readBlock (s : Bytes) : Option Block :=
  (decode16 (word s)).bind fun d => let r := Block.read true (RS.init d); if r.2.good then some r.1 else none
/-- As above, block.cpp:59-74. -/
def writeBlock (b : Block) : Bytes := encode16 (b.toData true)

/-! ### Checkpoints -/

/-- `checkpoint` (include/bitcoin/system/chain/checkpoint.hpp). Used for checkpoint.cpp:33-63. -/
structure Checkpoint where
  hash : Bytes
  height : Nat
  deriving DecidableEq

/-- `is_at`, `is_under`, `is_conflict` (src/chain/checkpoint.cpp:33-63). -/
def isAt (l : List Checkpoint) (height : Nat) : Bool := l.any fun c => height == c.height
/-- As above, checkpoint.cpp:33-63. -/
def isUnder (l : List Checkpoint) (height : Nat) : Bool := l.reverse.any fun c => decide (height ≤ c.height)
/-- As above, checkpoint.cpp:33-63. -/
def isConflict (l : List Checkpoint) (hash : Bytes) (height : Nat) : Bool :=
  match l.find? fun c => height == c.height with
  | some c => c.hash != hash
  | none => false

/-- `operator>>` (checkpoint.cpp:129-145). -/
def Checkpoint.read (s : Bytes) : Option Checkpoint :=
  match splitBy 58 (word s) with
  | [hash, height] =>
    match decodeHash 32 hash with
    | none => none
    | some h => (deserialize (2 ^ 64) height).map fun n => ⟨h, n⟩
  | _ => none
/-- `to_string` (checkpoint.cpp:172-175). -/
def Checkpoint.write (c : Checkpoint) : Bytes := encodeHash c.hash ++ ascii ":" ++ serialize c.height
/-- `from_string` (checkpoint.cpp:147-156): the text of the hash; `none` is the default, invalid, checkpoint. -/
def Checkpoint.fromString (hash : Bytes) (height : Nat) : Option Checkpoint := (decodeHash 32 hash).map fun h => ⟨h, height⟩

end Verif.Config
