/-!
# Pseudo random numbers and durations

src/crypto/pseudo_random.cpp, include/bitcoin/system/crypto/pseudo_random.hpp. What `std::uniform_int_distribution` of the thread's
`std::mt19937` gives for a range is a parameter (`Lawful` is its contract). Not modelled: the seed, `shuffle`.
-/
namespace Verif.Random

/-- A draw from a range `[begin, end]`. Used for pseudo_random.hpp:78-88. -/
abbrev Draw := Int → Int → Int

/-- The contract of `std::uniform_int_distribution` ([rand.dist.uni.int]); a begin above the end is undefined. -/
def Lawful (draw : Draw) : Prop := ∀ a b, a ≤ b → a ≤ draw a b ∧ draw a b ≤ b

/-- `next(begin, end)` of an integer type (pseudo_random.hpp:78-88). -/
def next (draw : Draw) (first last : Int) : Int := if first > last then 0 else draw first last

/-- `next(begin, end)` of a byte (pseudo_random.cpp:53-57): drawn from 16 bits, `none` is undefined. -/
def nextByte (draw : Draw) (first last : UInt8) : Option UInt8 :=
  if first > last then none else some (UInt8.ofNat (draw first.toNat last.toNat).toNat)

/-- `fill` (pseudo_random.hpp:50-58, pseudo_random.cpp:40-51): a draw for each byte. -/
def fill (draws : Nat → Draw) (size : Nat) : List (Option UInt8) := (List.range size).map fun i => nextByte (draws i) 0 255

/-- A value converted to `uint64_t`. -/
def toU64 (x : Int) : Int := x % 2 ^ 64
/-- A `uint64_t` converted to `int64_t`. -/
def toI64 (x : Int) : Int := if x < 2 ^ 63 then x else x - 2 ^ 64

/-- `milliseconds(expires)` as nanoseconds, the period of `steady_clock` in libstdc++; `none` is an overflow of `int64_t`, which is undefined. -/
def millisToNanos (ms : Int) : Option Int := if -2 ^ 63 ≤ ms * 1000000 ∧ ms * 1000000 < 2 ^ 63 then some (ms * 1000000) else none

/-- `duration` (pseudo_random.cpp:74-100), of nanoseconds. -/
def duration (draw : Draw) (expiration : Int) (ratio : UInt8) : Option Int :=
  if ratio = 0 then some expiration
  else
    let maxExpire := expiration.tdiv 1000000
    let limit := maxExpire.tdiv ratio.toNat
    if limit = 0 then some expiration
    else millisToNanos (toI64 (toU64 (toU64 maxExpire - next draw 0 (toU64 limit))))

end Verif.Random
