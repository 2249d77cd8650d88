import Verif.Model.Stream
import Verif.Model.Compact
/-!
# Model of `machine::number` (script numbers and booleans)

Sources: include/bitcoin/system/impl/machine/number_{chunk,integer,boolean}.ipp,
include/bitcoin/system/impl/math/bytes.ipp, include/bitcoin/system/impl/endian/minimal.ipp.
`int64_t`/`int32_t` values are `Int`; two's complement reinterpretation is written out.
-/
namespace Verif.Num

/-- `negative_sign_byte`, `positive_sign_byte` (include/bitcoin/system/machine/number.hpp:30-31). -/
def negativeSign : UInt8 := 0x80
@[inherit_doc negativeSign] def positiveSign : UInt8 := 0x00

/-- `to_little_endian_size(value, excess)` (minimal.ipp:66-78): `byte_width(value)` bytes (the excess is capacity only). -/
def toLittleEndianSize (value : Nat) : Bytes := leBytes (byteWidth value) value

/-- `chunk::from_bool` (number_chunk.ipp:34-40). -/
def chunkFromBool (b : Bool) : Bytes := if b then [1] else []

/-- `chunk::from_integer` (number_chunk.ipp:42-70). The minimum `int64_t` is excluded by an assertion there. -/
def chunkFromInteger (x : Int) : Bytes :=
  if x = 0 then []
  else
    let value := x.natAbs
    let negated := isNegated value
    let negative := decide (x < 0)
    let bytes := toLittleEndianSize value
    if negated && negative then bytes ++ [negativeSign]
    else if negated then bytes ++ [positiveSign]
    else if negative then bytes.dropLast ++ [bytes.getLastD 0 ||| 0x80]
    else bytes

/-- Reinterpret `width` bits as signed (two's complement). Used for bits.ipp:189-194. -/
def toSigned (width u : Nat) : Int := if u < 2 ^ (width - 1) then (u : Int) else (u : Int) - 2 ^ width

/-- `bit_width` of a signed value (bits.ipp:46-51). -/
def bitWidthS (width : Nat) (v : Int) : Nat := if v < 0 then width else bitWidth v.toNat

/-- `is_negated` of a signed value (bytes.ipp:88-93). -/
def isNegatedS (width : Nat) (v : Int) : Bool := v != 0 && bitWidthS width v % 8 + 1 == 1

/-- `set_right(value, offset, false)` (bits.ipp:189-194). -/
def clearRight (width : Nat) (v : Int) (offset : Nat) : Int :=
  let u := (v % 2 ^ width).toNat
  toSigned width (if u.testBit offset then u - 2 ^ offset else u)

/-- `to_unnegated` (bytes.ipp:101-107). -/
def toUnnegated (width : Nat) (v : Int) : Int :=
  if !isNegatedS width v then v else -(clearRight width v (bitWidthS width v - 1))

/-- `integer<Size>::from_chunk` (number_integer.ipp:54-75); `width` is the bit width of `signed_type<Size>`
(32 for four bytes, 64 for five). `none` is a false return. -/
def integerFromChunk (size width : Nat) (vary : Bytes) : Option Int :=
  if vary = [] then some 0
  else if vary.length > size then none
  else
    let out := toSigned width (leNat vary)
    some (if isNegated (vary.getLastD 0).toNat then toUnnegated width out else out)

/-- `integer<Size>::from_integer` (number_integer.ipp:46-52) with `is_overflow` (92-98) and
`bitcoin_min/max<Size>` (include/bitcoin/system/math/limits.hpp:98-114). -/
def integerFromInteger (size : Nat) (x : Int) : Option Int :=
  if x < -(2 ^ (8 * size - 1) - 1) ∨ x > 2 ^ (8 * size - 1) - 1 then none else some x

/-- `boolean::from_integer` (number_boolean.ipp:33-38). -/
def booleanFromInteger (x : Int) : Bool := x != 0

/-- `boolean::from_chunk` (number_boolean.ipp:40-60), `is_sign_byte` (102-107). -/
def booleanFromChunk (vary : Bytes) : Bool :=
  if vary = [] then false
  else if !(vary.getLastD 0 == positiveSign || vary.getLastD 0 == negativeSign) then true
  else vary.dropLast.any (fun b => b != 0)

/-- `boolean::from_integer(value, vary)` (number_boolean.ipp:62-70): minimal form, `none` is a false return. -/
def minimalBoolFromInteger (x : Int) : Option Bool := if x = 0 ∨ x = 1 then some (x != 0) else none

/-- `boolean::from_chunk(value, vary)` (number_boolean.ipp:72-86). -/
def minimalBoolFromChunk (vary : Bytes) : Option Bool :=
  if vary = [] then some false
  else if vary.length = 1 ∧ vary.headD 0 = 1 then some (booleanFromChunk vary) else none

/-- `boolean::from_chunk_strict` (number_boolean.ipp:88-93). -/
def booleanFromChunkStrict (vary : Bytes) : Bool := !(vary == [])

end Verif.Num
