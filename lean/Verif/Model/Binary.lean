import Verif.Model.Pack
/-!
# Model of `binary`, the bit vector

Sources: src/stream/binary.cpp, include/bitcoin/system/impl/math/bits.ipp. Texts are their ASCII bytes.
Not modelled: the stream operators (binary.cpp:159-171), which parse and print the text of these functions.
-/
namespace Verif.Binary
open Verif Verif.Bit Verif.Pack

/-- The two fields of `binary` (binary.hpp). Used for binary.cpp:69-79. -/
structure Binary where
  bits : Nat
  bytes : Bytes
deriving DecidableEq, Repr

/-- `is_base2` (binary.cpp:32-40). -/
def isBase2 (text : Bytes) : Bool := text.all fun c => c == 0x30 || c == 0x31

/-- `ceilinged_divide(bits, byte_bits)` for unsigned operands: the truncated quotient, and one more if there is a remainder
(division.ipp; C40_ceilinged_partial covers it). -/
def byteCount (bits : Nat) : Nat := bits / 8 + (if bits % 8 = 0 then 0 else 1)

/-- `mask_right_into<uint8_t>` (bits.ipp:229-245): `value &= (0xff << bits)`. -/
def maskRight (value : UInt8) (bits : Nat) : UInt8 := value &&& UInt8.ofNat (0xff <<< bits)

/-- `data.resize(size, pad)`. Used for binary.cpp:69-79. -/
def resize (d : Bytes) (size : Nat) : Bytes := d.take size ++ List.replicate (size - d.length) 0

/-- `from_data` (binary.cpp:69-79). `absolute(ceilinged_modulo(bits, 8))` is `(8 - bits % 8) % 8`. -/
def ofData (bits : Nat) (d : Bytes) : Binary :=
  let d := resize d (byteCount bits)
  let d := match d.getLast? with
    | none => d
    | some b => d.dropLast ++ [maskRight b ((8 - bits % 8) % 8)]
  ⟨bits, d⟩

/-- `from_string` (binary.cpp:81-95); the buffer has exactly the size of what is written (`ofString_size`). -/
def ofString (text : Bytes) : Binary :=
  if !isBase2 text then ⟨0, []⟩
  else ⟨text.length, ((text.foldl (fun w c => w.writeBit (c == 0x31)) Writer.init).flush).out⟩

/-- The loop of `encoded` (binary.cpp:106-107), with fuel (`encoded_eq`: it does not run out). -/
def encodedLoop : Nat → Bit.Reader → Bytes
  | 0, _ => []
  | fuel + 1, r => if exhausted r then [] else (if r.readBit.1 then 0x31 else 0x30) :: encodedLoop fuel r.readBit.2

/-- `encoded` (binary.cpp:100-113). -/
def encoded (x : Binary) : Bytes := resize (encodedLoop (8 * x.bytes.length + 1) (Bit.Reader.init x.bytes)) x.bits

/-- `operator[]` (binary.cpp:138-142); `none` is a read outside of the vector. -/
def index (x : Binary) (i : Nat) : Option Bool :=
  let byte := i / 8
  if byte < x.bits then x.bytes[byte]?.map fun b => getLeft b (i % 8) else some false

/-- `operator<` on strings: lexicographic by character. Used for binary.cpp:144-147. -/
def textLess : Bytes → Bytes → Bool
  | _, [] => false
  | [], _ :: _ => true
  | a :: l, b :: r => if a < b then true else if b < a then false else textLess l r

/-- `operator<` (binary.cpp:144-147). -/
def less (x y : Binary) : Bool := textLess (encoded x) (encoded y)

/-- `operator==` (binary.cpp:149-152). -/
def same (x y : Binary) : Bool := encoded x == encoded y

end Verif.Binary
