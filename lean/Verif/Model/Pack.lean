import Verif.Model.Bits
import Verif.Model.Radix
/-!
# Model of base32 and base2048 group packing and base32 text

Sources: src/radix/base_32.cpp, src/radix/base_2048.cpp, src/unicode/ascii.cpp. `uint5_t` and `uint11_t` are naturals below 32 and 2048.
-/
namespace Verif.Pack
open Verif Verif.Bit

/-- `bit_reader::get_exhausted` (bit_reader.ipp:152-160). -/
def exhausted (r : Bit.Reader) : Bool := !r.src.good || (8 - r.offset == 0 && (isExhausted r.src).1)

/-- `while (!source.is_exhausted()) push_back(source.read_bits(k))` (base_32.cpp:145-146, base_2048.cpp:127-128), with fuel
(`groups_fuel`: it does not run out). -/
def groupsLoop (k : Nat) : Nat → Bit.Reader → List Nat
  | 0, _ => []
  | fuel + 1, r => if exhausted r then [] else (r.readBits k).1 :: groupsLoop k fuel (r.readBits k).2

/-- As above, base_2048.cpp:127-128. -/
def groups (k : Nat) (d : Bytes) : List Nat := groupsLoop k (8 * d.length + 1) (Bit.Reader.init d)

/-- The write loop and flush (base_32.cpp:117-120, base_2048.cpp:152-155). -/
def writeGroups (k : Nat) (g : List Nat) : Bytes := (g.foldl (fun w v => w.writeBits v k) Writer.init).flush.out

/-- `base32_pack` (base_32.cpp:111-137). -/
def pack32 (unpacked : List Nat) : Bytes :=
  let packed := writeGroups 5 unpacked
  if unpacked.length * 5 % 8 ≠ 0 then packed.take (if packed.getLastD 0 = 0 then packed.length - 1 else 0) else packed

/-- `base32_unpack` (base_32.cpp:139-152). -/
def unpack32 (packed : Bytes) : List Nat := groups 5 packed

/-- `base2048_pack` (base_2048.cpp:122-145). -/
def pack2048 (unpacked : Bytes) : List Nat :=
  let packed := groups 11 unpacked
  if unpacked.length * 8 % 11 ≠ 0 then packed.take (if packed.getLastD 0 = 0 then packed.length - 1 else 0) else packed

/-- `base2048_unpack` (base_2048.cpp:147-161). -/
def unpack2048 (packed : List Nat) : Bytes := writeGroups 11 packed

/-! ## base32 text -/

/-- `encode` table (base_32.cpp:35). -/
def base32Chars : Bytes := Radix.ascii "qpzry9x8gf2tvdw0s3jn54khce6mua7l"

/-- `decode` table (base_32.cpp:36-54): 128 entries. -/
def base32Table : List UInt8 := [
    0xff, 0xff, 0xff, 0xff, 0xff, 0xff, 0xff, 0xff,
    0xff, 0xff, 0xff, 0xff, 0xff, 0xff, 0xff, 0xff,
    0xff, 0xff, 0xff, 0xff, 0xff, 0xff, 0xff, 0xff,
    0xff, 0xff, 0xff, 0xff, 0xff, 0xff, 0xff, 0xff,
    0xff, 0xff, 0xff, 0xff, 0xff, 0xff, 0xff, 0xff,
    0xff, 0xff, 0xff, 0xff, 0xff, 0xff, 0xff, 0xff,
    15,   0xff, 10,   17,   21,   20,   26,   30,
    7,    5,    0xff, 0xff, 0xff, 0xff, 0xff, 0xff,
    0xff, 29,   0xff, 24,   13,   25,   9,    8,
    23,   0xff, 18,   22,   31,   27,   19,   0xff,
    1,    0,    3,    16,   11,   28,   12,   14,
    6,    4,    2,    0xff, 0xff, 0xff, 0xff, 0xff,
    0xff, 29,   0xff, 24,   13,   25,   9,    8,
    23,   0xff, 18,   22,   31,   27,   19,   0xff,
    1,    0,    3,    16,   11,   28,   12,   14,
    6,    4,    2,    0xff, 0xff, 0xff, 0xff, 0xff]

/-- `encode_base32` of groups (base_32.cpp:58-68). -/
def encodeGroups (g : List Nat) : Bytes := g.map fun v => base32Chars.getD v 0

/-- `encode_base32` of data (base_32.cpp:70-73). -/
def encode32 (d : Bytes) : Bytes := encodeGroups (unpack32 d)

/-- Result of a function that may read out of the bounds of an array. Used for base_32.cpp:86-94. -/
inductive Out (α : Type) where
  | undefined
  | fail
  | ok (a : α)
deriving DecidableEq

/-- `has_mixed_ascii_case` (src/unicode/ascii.cpp:88-101). -/
def mixedCase (s : Bytes) : Bool := s.any (fun c => 97 ≤ c && c ≤ 122) && s.any (fun c => 65 ≤ c && c ≤ 90)

/-- The loop of `decode_base32` (base_32.cpp:86-94); an index above the table is an out of bounds read. -/
def decodeLoop : Bytes → List Nat → Out (List Nat)
  | [], out => .ok out
  | c :: s, out =>
    match base32Table[c.toNat]? with
    | none => .undefined
    | some v => if v = 0xff then .fail else decodeLoop s (out ++ [v.toNat])

/-- `decode_base32` to groups (base_32.cpp:77-97). -/
def decodeGroups (s : Bytes) : Out (List Nat) := if mixedCase s then .fail else decodeLoop s []

/-- `decode_base32` to data (base_32.cpp:99-107). -/
def decode32 (s : Bytes) : Out Bytes :=
  match decodeGroups s with
  | .undefined => .undefined
  | .fail => .fail
  | .ok g => .ok (pack32 g)

end Verif.Pack
