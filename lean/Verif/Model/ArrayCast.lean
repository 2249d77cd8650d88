import Verif.Model.Endian
/-!
# Array casts

include/bitcoin/system/impl/data/array_cast.ipp, byte_cast.ipp. A cast array is a view of the same memory: what is read is what the bytes of the
memory hold, and what is written changes them. The rules of C++ on aliasing, which the code disables, are not modelled. `w` is the width of an
integral in bits (8, 16, 32 or 64), `little` the byte order of the machine.
-/
namespace Verif.ArrayCast
open Verif Verif.Endian

/-- `is_portional` (array_cast.ipp:54-61) without the overflows: the guard of a cast to part of an array. -/
def isPortional (w w' toCount fromCount : Nat) : Bool := toCount * (w' / 8) ≤ fromCount * (w / 8)

/-- `is_proportional` (array_cast.ipp:63-68): the guard of a cast of a whole array, to `proportion` elements. -/
def isProportional (w w' fromCount : Nat) : Bool := fromCount * (w / 8) % (w' / 8) = 0
/-- As above, array_cast.ipp:63-68. -/
def proportion (w w' fromCount : Nat) : Nat := fromCount * (w / 8) / (w' / 8)

/-- `array_cast<To, ToCount, FromOffset>` as a value (array_cast.ipp:100-130); `none` does not compile. -/
def castPart (little : Bool) (w' toCount offset : Nat) (values : List (BitVec w)) : Option (List (BitVec w')) :=
  if offset < values.length ∧ isPortional w w' toCount (values.length - offset) then
    some (loadWords little w' toCount (memoryWords little (values.drop offset)))
  else none

/-- `array_cast<To>` as a value (array_cast.ipp:73-95). -/
def castAll (little : Bool) (w' : Nat) (values : List (BitVec w)) : Option (List (BitVec w')) :=
  if isProportional w w' values.length then some (loadWords little w' (proportion w w' values.length) (memoryWords little values)) else none

/-- The array after an assignment to its cast (the reference of array_cast.ipp:100-109). -/
def assignPart (little : Bool) (offset : Nat) (values : List (BitVec w)) (new : List (BitVec w')) : List (BitVec w) :=
  let memory := memoryWords little values
  let written := memoryWords little new
  loadWords little w values.length (memory.take (offset * (w / 8)) ++ written ++ memory.drop (offset * (w / 8) + written.length))

/-- `byte_cast` of an integral, and of an array of bytes of its size (byte_cast.ipp:30-113). -/
def toBytes (little : Bool) (value : BitVec w) : Bytes := memory little value
/-- As above, byte_cast.ipp:30-113. -/
def fromBytes (little : Bool) (w : Nat) (data : Bytes) : BitVec w := load little w data

/-- `unsafe_vector_cast` as values (array_cast.ipp:177-214): `count` arrays of `inner` integrals of width `w'`, of a pointer to integrals of
width `w` in memory from there; the pointer advances by as many of its own elements as the array has bytes. -/
def vectorCast (little : Bool) (w w' inner : Nat) : Nat → Bytes → List (List (BitVec w'))
  | 0, _ => []
  | count + 1, data => loadWords little w' inner data :: vectorCast little w w' inner count (data.drop (inner * (w' / 8) * (w / 8)))

end Verif.ArrayCast
