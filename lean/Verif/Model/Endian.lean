import Verif.Model.BitOps
/-!
# Model of the byte order conversions

Sources: include/bitcoin/system/impl/endian/{integers,integrals,minimal,nominal,swaps,stream,unsafe,batch}.ipp. Integers are `BitVec w` of a
whole number of bytes (`w = 8 * sizeof`), with the signedness where the code depends on it; data are byte lists. The byte order of the machine
is a parameter (`is_little_endian`), and the bytes of an integer in memory are `memory`.
-/
namespace Verif.Endian
open Verif.BitOps

variable {w : Nat}

/-- `value >> byte_bits` of the built in operator: arithmetic for signed types (C++20). -/
def shiftByte (signed : Bool) (value : BitVec w) : BitVec w := if signed then value.sshiftRight 8 else value >>> 8

/-- `possible_narrow_and_sign_cast<uint8_t>`. -/
def low (value : BitVec w) : UInt8 := UInt8.ofBitVec (value.setWidth 8)

/-- Loop of `to_big_data` (integers.ipp:61-65), `byte` counting down. -/
def toBigLoop (signed : Bool) : Nat → Bytes → BitVec w → Bytes
  | 0, data, _ => data
  | byte + 1, data, value => toBigLoop signed byte (data.set byte (low value)) (shiftByte signed value)

/-- Assignment of the front of the data of a one byte integer (integers.ipp:53-56, 76-79). -/
def setFront (data : Bytes) (value : BitVec w) : Bytes :=
  match data with
  | [] => []
  | _ :: rest => low value :: rest

/-- `to_big_data` (integers.ipp:48-69). -/
def toBigData (signed : Bool) (data : Bytes) (value : BitVec w) : Bytes :=
  if w = 8 then setFront data value else toBigLoop signed data.length data value

/-- Loop of `to_little_data` (integers.ipp:86-90), `left` bytes to go from `byte`. -/
def toLittleLoop (signed : Bool) : Nat → Nat → Bytes → BitVec w → Bytes
  | 0, _, data, _ => data
  | left + 1, byte, data, value => toLittleLoop signed left (byte + 1) (data.set byte (low value)) (shiftByte signed value)

/-- `to_little_data` (integers.ipp:71-94). -/
def toLittleData (signed : Bool) (data : Bytes) (value : BitVec w) : Bytes :=
  if w = 8 then setFront data value else toLittleLoop signed data.length 0 data value

/-- `value <<= byte_bits; value |= data[byte]`. Used for integers.ipp:121-165. -/
def pushByte (value : BitVec w) (byte : UInt8) : BitVec w := (value <<< 8) ||| byte.toBitVec.setWidth w

/-- `from_big_array` `from_big_chunk` (integers.ipp:121-165). -/
def fromBigData (w length : Nat) (data : Bytes) : BitVec w :=
  if w = 8 then (data.headD 0).toBitVec.setWidth w
  else (data.take (min length data.length)).foldl pushByte 0

/-- `from_little_array` `from_little_chunk` (integers.ipp:192-236): the loop runs down from the last byte. -/
def fromLittleData (w length : Nat) (data : Bytes) : BitVec w :=
  if w = 8 then (data.headD 0).toBitVec.setWidth w
  else (data.take (min length data.length)).foldr (fun byte value => pushByte value byte) 0

/-- `to_big_endian_size<Size>` (minimal.ipp:36-41). -/
def toBigEndianSize (size : Nat) (signed : Bool) (value : BitVec w) : Bytes := toBigData signed (List.replicate size 0) value

/-- `to_little_endian_size<Size>` (minimal.ipp:43-48). -/
def toLittleEndianSize (size : Nat) (signed : Bool) (value : BitVec w) : Bytes := toLittleData signed (List.replicate size 0) value

/-- `from_big_endian<Integral>` of an array or chunk of any size (nominal.ipp:103-108, 117-122). -/
def fromBigEndian (w : Nat) (data : Bytes) : BitVec w := fromBigData w (w / 8) data

/-- `from_little_endian<Integral>` of an array or chunk of any size (nominal.ipp:110-115, 124-129). -/
def fromLittleEndian (w : Nat) (data : Bytes) : BitVec w := fromLittleData w (w / 8) data

/-- The assignments of the unrolled forms: `data[i + Offset] = byte<f i>(value)` in the order of the text. Used for integrals.ipp:39-76. -/
def assign (offset : Nat) (f : Nat → Nat) (value : BitVec w) : List Nat → Bytes → Bytes
  | [], data => data
  | i :: is, data => assign offset f value is (data.set (i + offset) (byteOf (f i) value))

/-- `to_big<Offset>(data, value)` (integrals.ipp:39-76). -/
def toBig (offset : Nat) (data : Bytes) (value : BitVec w) : Bytes :=
  if w = 64 then assign offset (fun i => [7, 6, 5, 4, 3, 2, 1, 0].getD i 0) value [0, 1, 2, 3, 4, 5, 6, 7] data
  else if w = 32 then assign offset (fun i => [3, 2, 1, 0].getD i 0) value [0, 1, 2, 3] data
  else if w = 16 then assign offset (fun i => [1, 0].getD i 0) value [0, 1] data
  else if w = 8 then assign offset (fun _ => 0) value [0] data
  else data

/-- `to_little<Offset>(data, value)` (integrals.ipp:78-115). -/
def toLittle (offset : Nat) (data : Bytes) (value : BitVec w) : Bytes :=
  if w = 64 then assign offset (fun i => [0, 1, 2, 3, 4, 5, 6, 7].getD i 0) value [0, 1, 2, 3, 4, 5, 6, 7] data
  else if w = 32 then assign offset (fun i => [0, 1, 2, 3].getD i 0) value [0, 1, 2, 3] data
  else if w = 16 then assign offset (fun i => [0, 1].getD i 0) value [0, 1] data
  else if w = 8 then assign offset (fun _ => 0) value [0] data
  else data

/-- `wide_cast(data[i + Offset]) << s` or'ed over the pairs (index, shift) in the order of the text. Used for integrals.ipp:120-161. -/
def gather (w offset : Nat) (data : Bytes) : List (Nat × Nat) → BitVec w
  | [] => 0
  | (i, s) :: rest => (((data.getD (i + offset) 0).toBitVec.setWidth w) <<< s) ||| gather w offset data rest

/-- `from_big<Offset>(value, data)` (integrals.ipp:120-161). -/
def fromBig (w offset : Nat) (data : Bytes) : BitVec w :=
  if w = 64 then gather w offset data [(0, 56), (1, 48), (2, 40), (3, 32), (4, 24), (5, 16), (6, 8), (7, 0)]
  else if w = 32 then gather w offset data [(0, 24), (1, 16), (2, 8), (3, 0)]
  else if w = 16 then gather w offset data [(0, 8), (1, 0)]
  else if w = 8 then gather w offset data [(0, 0)]
  else 0

/-- `from_little<Offset>(value, data)` (integrals.ipp:163-204). -/
def fromLittle (w offset : Nat) (data : Bytes) : BitVec w :=
  if w = 64 then gather w offset data [(0, 0), (1, 8), (2, 16), (3, 24), (4, 32), (5, 40), (6, 48), (7, 56)]
  else if w = 32 then gather w offset data [(0, 0), (1, 8), (2, 16), (3, 24)]
  else if w = 16 then gather w offset data [(0, 0), (1, 8)]
  else if w = 8 then gather w offset data [(0, 0)]
  else 0

/-- The bytes of an integer in the memory of a little or big endian machine (`byte_cast` of an integral). Used for nominal.ipp:67-81. -/
def memory (little : Bool) (value : BitVec w) : Bytes :=
  if little then leBytes (w / 8) value.toNat else beBytes (w / 8) value.toNat

/-- The integer of bytes in the memory (`byte_cast` of an array, `unsafe_byte_cast`): the first `sizeof` bytes. Used for nominal.ipp:35-49. -/
def load (little : Bool) (w : Nat) (data : Bytes) : BitVec w :=
  BitVec.ofNat w (if little then leNat (data.take (w / 8)) else beNat (data.take (w / 8)))

/-- `native_to_big_end` `native_from_big_end` (swaps.ipp:32-40, 51-55). -/
def nativeBig (little : Bool) (value : BitVec w) : BitVec w := if little then byteswap value else value

/-- `native_to_little_end` `native_from_little_end` (swaps.ipp:42-49, 57-61). -/
def nativeLittle (little : Bool) (value : BitVec w) : BitVec w := if !little then byteswap value else value

/-- `to_big_endian(value)` (nominal.ipp:67-81), at compile time and at run time; also what the stream form writes (stream.ipp:68-79) and the
pointer form stores (unsafe.ipp:89-95). -/
def toBigEndian (constant little : Bool) (value : BitVec w) : Bytes :=
  if constant then toBig 0 (List.replicate (w / 8) 0) value else memory little (nativeBig little value)

/-- `to_little_endian(value)` (nominal.ipp:83-97; stream.ipp:81-92; unsafe.ipp:97-103). -/
def toLittleEndian (constant little : Bool) (value : BitVec w) : Bytes :=
  if constant then toLittle 0 (List.replicate (w / 8) 0) value else memory little (nativeLittle little value)

/-- `from_big_endian(data)` of an array of the exact size (nominal.ipp:35-49); the run time form is `unsafe_from_big_endian` of a pointer
(unsafe.ipp:33-39). -/
def fromBigExact (constant little : Bool) (w : Nat) (data : Bytes) : BitVec w :=
  if constant then fromBig w 0 data else nativeBig little (load little w data)

/-- `from_little_endian(data)` (nominal.ipp:51-65; unsafe.ipp:41-47). -/
def fromLittleExact (constant little : Bool) (w : Nat) (data : Bytes) : BitVec w :=
  if constant then fromLittle w 0 data else nativeLittle little (load little w data)

/-- `from_big_endian<Integral>(stream)` (stream.ipp:35-48): the bytes available are read over a zero value; the rest of the stream. -/
def fromBigStream (little : Bool) (w : Nat) (stream : Bytes) : BitVec w × Bytes :=
  (nativeBig little (load little w (stream.take (w / 8) ++ List.replicate (w / 8 - stream.length) 0)), stream.drop (w / 8))

/-- `from_little_endian<Integral>(stream)` (stream.ipp:50-63). -/
def fromLittleStream (little : Bool) (w : Nat) (stream : Bytes) : BitVec w × Bytes :=
  (nativeLittle little (load little w (stream.take (w / 8) ++ List.replicate (w / 8 - stream.length) 0)), stream.drop (w / 8))

/-- `unsafe_from_variable` (unsafe.ipp:52-84): the value and the advanced pointer (the bytes from it); the reads must be in bounds. -/
def unsafeFromVariable (little : Bool) (data : Bytes) : Nat × Bytes :=
  let prefix_ := data.headD 0
  let next := data.drop 1
  if prefix_ = 0xff then ((fromLittleExact false little 64 next).toNat, next.drop 8)
  else if prefix_ = 0xfe then ((fromLittleExact false little 32 next).toNat, next.drop 4)
  else if prefix_ = 0xfd then ((fromLittleExact false little 16 next).toNat, next.drop 2)
  else (prefix_.toNat, next)

/-- The words of bytes in the memory (`array_cast<Integral>`). Used for array_cast.ipp:100-130. -/
def loadWords (little : Bool) (w : Nat) : Nat → Bytes → List (BitVec w)
  | 0, _ => []
  | n + 1, data => load little w data :: loadWords little w n (data.drop (w / 8))

/-- The bytes in memory of an array of words. Used for array_cast.ipp:100-130. -/
def memoryWords (little : Bool) (words : List (BitVec w)) : Bytes := words.flatMap (memory little)

/-- `from_big_endians` `to_big_endians` (batch.ipp:34-49, 68-73, 85-141; the unrolled assignments are the map). -/
def bigEndians (little : Bool) (words : List (BitVec w)) : List (BitVec w) := if little then words.map (nativeBig little) else words

/-- `from_little_endians` `to_little_endians` (batch.ipp:51-66, 75-80, 143-199). -/
def littleEndians (little : Bool) (words : List (BitVec w)) : List (BitVec w) := if !little then words.map (nativeLittle little) else words

end Verif.Endian
