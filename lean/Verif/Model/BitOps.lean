import Verif.Model.Stream
/-!
# Model of the bit operations

Sources: include/bitcoin/system/impl/math/{bits,bytes,rotate,byteswap}.ipp, include/bitcoin/system/math/bits.hpp,
include/bitcoin/system/intrinsics/{rotate,byte_swap}.hpp. A `Value` of `w` bits is a `BitVec w`. The signed overloads transit the unsigned
value (bits.ipp:313-326, 343-357), so they are the same functions on the bits; where signed and unsigned code differ both are modelled.
-/
namespace Verif.BitOps

variable {w : Nat}

/-- `shift_left` `shift_left_into` (bits.ipp:298-326; `overflow` is true by default, bits.hpp:171-182). -/
def shiftLeft (value : BitVec w) (shift : Nat) (overflow : Bool := true) : BitVec w :=
  if overflow && decide (shift ≥ w) then 0 else value <<< (shift % w)

/-- `shift_right` `shift_right_into` (bits.ipp:328-357; bits.hpp:187-198): logical for signed values too. -/
def shiftRight (value : BitVec w) (shift : Nat) (overflow : Bool := true) : BitVec w :=
  if overflow && decide (shift ≥ w) then 0 else value >>> (shift % w)

/-- `bit_right` (bits.ipp:144-153) of `bit_lo` (bits.hpp:87). -/
def bitRight (w offset : Nat) : BitVec w := shiftLeft 1 offset

/-- `bit_left` (bits.ipp:129-142). -/
def bitLeft (w offset : Nat) : BitVec w := if offset ≥ w then 0 else bitRight w (w - offset - 1)

/-- `get_left` (bits.ipp:158-162). -/
def getLeft (value : BitVec w) (offset : Nat) : Bool := value &&& bitLeft w offset != 0

/-- `get_right` (bits.ipp:164-168). -/
def getRight (value : BitVec w) (offset : Nat) : Bool := value &&& bitRight w offset != 0

/-- `set_left` `set_left_into` (bits.ipp:173-185). -/
def setLeft (target : BitVec w) (offset : Nat) (state : Bool) : BitVec w :=
  if state then target ||| bitLeft w offset else target &&& ~~~ bitLeft w offset

/-- `set_right` `set_right_into` (bits.ipp:187-199). -/
def setRight (target : BitVec w) (offset : Nat) (state : Bool) : BitVec w :=
  if state then target ||| bitRight w offset else target &&& ~~~ bitRight w offset

/-- `mask_left` (bits.ipp:211-227) of `bit_all` (bits.hpp:84). -/
def maskLeft (value : BitVec w) (bits : Nat) : BitVec w := value &&& shiftRight (BitVec.allOnes w) bits true

/-- `mask_right` (bits.ipp:229-245). -/
def maskRight (value : BitVec w) (bits : Nat) : BitVec w := value &&& shiftLeft (BitVec.allOnes w) bits true

/-- `unmask_left` (bits.ipp:250-266). -/
def unmaskLeft (value : BitVec w) (bits : Nat) : BitVec w := ~~~ shiftRight (BitVec.allOnes w) bits true &&& value

/-- `unmask_right` (bits.ipp:268-284). -/
def unmaskRight (value : BitVec w) (bits : Nat) : BitVec w := ~~~ shiftLeft (BitVec.allOnes w) bits true &&& value

/-- `std::rotr` and `std::rotl` of the standard library for an `int` distance (C++20 [bit.rotate]: with `N` the width and `r = s % N`, the
value, the two shifts, or the opposite rotation by `-r`), one step of the mutual definition unfolded. -/
def stdRotl (value : BitVec w) (s : Int) : BitVec w :=
  let r := s.tmod w
  if r = 0 then value
  else if 0 < r then (value <<< r.toNat) ||| (value >>> (w - r.toNat))
  else (value >>> (-r).toNat) ||| (value <<< (w - (-r).toNat))

/-- As above. Used for bits.ipp:397-428. -/
def stdRotr (value : BitVec w) (s : Int) : BitVec w :=
  let r := s.tmod w
  if r = 0 then value
  else if 0 < r then (value >>> r.toNat) ||| (value <<< (w - r.toNat))
  else (value <<< (-r).toNat) ||| (value >>> (w - (-r).toNat))

/-- `possible_narrow_sign_cast<int>` of a `size_t`: the low 32 bits as a signed number. -/
def toInt32 (shift : Nat) : Int := (BitVec.ofNat 32 shift).toInt

/-- `rotate_left` `rotate_left_into` (bits.ipp:364-395), unsigned and signed values. -/
def rotateLeft (signed : Bool) (value : BitVec w) (shift : Nat) : BitVec w :=
  if !signed then stdRotl value (toInt32 shift)
  else shiftLeft value (shift % w) ||| shiftRight value (w - shift % w)

/-- `rotate_right` `rotate_right_into` (bits.ipp:397-428). -/
def rotateRight (signed : Bool) (value : BitVec w) (shift : Nat) : BitVec w :=
  if !signed then stdRotr value (toInt32 shift)
  else shiftRight value (shift % w) ||| shiftLeft value (w - shift % w)

/-- The width at which a built in shift of a `w` bit unsigned value takes place (integral promotion to `int`). Used for rotate.hpp:29-37. -/
def promoted (w : Nat) : Nat := max w 32

/-- `rotl_nominal(value, shift)` (intrinsics/rotate.hpp:29-37): `none` where the built in shifts have a distance outside of the promoted width
(undefined behaviour), including the wrapped `span - shift` of a shift over the span. -/
def rotlNominal (value : BitVec w) (shift : Nat) : Option (BitVec w) :=
  if shift < promoted w ∧ shift ≤ w ∧ w - shift < promoted w then some ((value <<< shift) ||| (value >>> (w - shift))) else none

/-- `rotr_nominal(value, shift)` (intrinsics/rotate.hpp:39-47). -/
def rotrNominal (value : BitVec w) (shift : Nat) : Option (BitVec w) :=
  if shift < promoted w ∧ shift ≤ w ∧ w - shift < promoted w then some ((value >>> shift) ||| (value <<< (w - shift))) else none

/-- `rotl<Shift>(value)` (rotate.ipp:97-111, intrinsics/rotate.hpp:49-60); the run time branch calls the function above with the cycle. -/
def rotlConst (value : BitVec w) (shift : Nat) : Option (BitVec w) :=
  if shift % w = 0 then some value else rotlNominal value (shift % w)

/-- `rotr<Shift>(value)` (rotate.ipp:113-127, intrinsics/rotate.hpp:62-73). -/
def rotrConst (value : BitVec w) (shift : Nat) : Option (BitVec w) :=
  if shift % w = 0 then some value else rotrNominal value (shift % w)

/-- `possible_narrow_and_sign_cast<To>(from)`: truncation, or extension by the sign of the source type. Used for bits.ipp:468-478. -/
def castTo (v : Nat) (signed : Bool) (value : BitVec w) : BitVec v := if signed then value.signExtend v else value.setWidth v

/-- `hi_word<To>` (bits.ipp:441-447). -/
def hiWord (v : Nat) (value : BitVec w) : BitVec v := (shiftRight value v).setWidth v

/-- `lo_word<To>` (bits.ipp:457-463). -/
def loWord (v : Nat) (value : BitVec w) : BitVec v := value.setWidth v

/-- `pack_word<To>(high, low)` (bits.ipp:468-478). -/
def packWord (v : Nat) (signed : Bool) (high low : BitVec w) : BitVec v :=
  shiftLeft (castTo v signed high) (v / 2) ||| unmaskRight (castTo v signed low) (v / 2)

/-- `unpack_word<To>(value)` (bits.ipp:480-492). -/
def unpackWord (v : Nat) (signed : Bool) (value : BitVec w) : BitVec v × BitVec v :=
  (castTo v signed (shiftRight value (w / 2)), castTo v signed (unmaskRight value (w / 2)))

/-- `byte_swap16_nominal` (intrinsics/byte_swap.hpp:33-38); the value is promoted, shifted and cut back. -/
def swap16 (value : BitVec 16) : BitVec 16 := (value <<< 8) ||| (value >>> 8)

/-- `byte_swap32_nominal` (byte_swap.hpp:40-47). -/
def swap32 (value : BitVec 32) : BitVec 32 :=
  (value <<< 24) ||| ((value <<< 8) &&& 0x00ff0000#32) ||| ((value >>> 8) &&& 0x0000ff00#32) ||| (value >>> 24)

/-- `byte_swap64_nominal` (byte_swap.hpp:49-60). -/
def swap64 (value : BitVec 64) : BitVec 64 :=
  (value <<< 56) ||| ((value <<< 40) &&& 0xff000000000000#64) ||| ((value <<< 24) &&& 0x00ff0000000000#64) |||
  ((value <<< 8) &&& 0x0000ff00000000#64) ||| ((value >>> 8) &&& 0x000000ff000000#64) ||| ((value >>> 24) &&& 0x00000000ff0000#64) |||
  ((value >>> 40) &&& 0x0000000000ff00#64) ||| (value >>> 56)

/-- `byteswap` (byteswap.ipp:34-78) by the width of the type (the intrinsics of the platforms are documented to be the same function). -/
def byteswap (value : BitVec w) : BitVec w :=
  if w = 16 then (swap16 (value.setWidth 16)).setWidth w
  else if w = 32 then (swap32 (value.setWidth 32)).setWidth w
  else if w = 64 then (swap64 (value.setWidth 64)).setWidth w
  else value

/-- `byte<Index>` (bytes.ipp:70-79). -/
def byteOf (index : Nat) (value : BitVec w) : UInt8 :=
  UInt8.ofBitVec ((shiftRight value (8 * index) &&& unmaskRight (BitVec.allOnes w) 8).setWidth 8)

end Verif.BitOps
