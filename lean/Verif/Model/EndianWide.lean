import Verif.Model.Endian
/-!
# Integers wider than 64 bits

include/bitcoin/system/impl/endian/uintx_t.ipp, minimal.ipp. The fixed width integers of Boost (`uintx_t`) are bit vectors, the unbounded one
(`uintx`) is a natural number; its operations are those of its documentation.
-/
namespace Verif.Endian
open Verif

/-- `from_uintx` (uintx_t.ipp:33-38). -/
def fromUintx (bytes : Nat) (value : BitVec (8 * bytes)) : Bytes := toLittleEndianSize bytes false value

/-- `to_uintx`, `uintx_from_little_endian_array` (uintx_t.ipp:40-45, 57-62). -/
def toUintx (bytes : Nat) (data : Bytes) : BitVec (8 * bytes) := fromLittleData (8 * bytes) bytes data

/-- `uintx_from_big_endian_array` (uintx_t.ipp:50-55). -/
def toUintxBig (bytes : Nat) (data : Bytes) : BitVec (8 * bytes) := fromBigData (8 * bytes) bytes data

/-- `from_big_endian` of a chunk as `uintx` (minimal.ipp:83-86, integers.ipp:145-165): `value <<= 8; value |= byte`. -/
def fromBigUnbounded (data : Bytes) : Nat := data.foldl (fun value byte => (value <<< 8) ||| byte.toNat) 0

/-- `from_little_endian` of a chunk as `uintx` (minimal.ipp:88-91, integers.ipp:216-236): the loop runs down from the last byte. -/
def fromLittleUnbounded (data : Bytes) : Nat := data.foldr (fun byte value => (value <<< 8) ||| byte.toNat) 0

end Verif.Endian
