import Mathlib.Tactic.ByContra
/-!
# Model of the integer helpers in `include/bitcoin/system/impl/math`

A C++ integer type is a signedness and a bit width; a value of the type is an `Int` in its range.
A cast to a type keeps the value modulo `2^bits` (two's complement, required by C++20).
`promote`/`depromote` (cast.ipp:29-58) widen the operands to 64 bits and cast the result back, so a native
operation is the exact integer operation followed by one cast.
-/
namespace Verif.Arith

/-- A C++ integral type: `std::is_signed`, and its width in bits. Used for overflow.ipp:29-31. -/
structure Ty where
  signed : Bool
  bits : Nat
  pos : 0 < bits
deriving DecidableEq

namespace Ty
/-- `std::numeric_limits<Integral>::min()` (overflow.ipp:29-31). -/
def min (t : Ty) : Int := if t.signed then -(2 ^ (t.bits - 1)) else 0
/-- `std::numeric_limits<Integral>::max()` (overflow.ipp:32-33). -/
def max (t : Ty) : Int := if t.signed then 2 ^ (t.bits - 1) - 1 else 2 ^ t.bits - 1
/-- Conversion to the type: the value in range congruent modulo `2^bits` (static_cast in cast.ipp). -/
def cast (t : Ty) (x : Int) : Int := (x - t.min) % 2 ^ t.bits + t.min
/-- The unsigned type of the same width (`to_unsigned_type`). Used for sign.ipp:114-133. -/
def toUnsigned (t : Ty) : Ty := { t with signed := false }
/-- The signed type of the same width (`to_signed_type`). Used for division.ipp:71-80. -/
def toSigned (t : Ty) : Ty := { t with signed := true }
end Ty

/-- `is_negative` (sign.ipp:100-112): constant false for unsigned types. -/
def isNegative (t : Ty) (x : Int) : Bool := t.signed && decide (x < 0)

/-- `is_negate_overflow` (overflow.ipp:53-57), signed only. -/
def isNegateOverflow (t : Ty) (x : Int) : Bool := x == t.min

/-- `is_add_overflow` (overflow.ipp:59-73), signed and unsigned overloads. -/
def isAddOverflow (t : Ty) (l r : Int) : Bool :=
  if t.signed then
    r != 0 && (!isNegative t r || decide (l < t.min - r)) && (isNegative t r || decide (l > t.max - r))
  else decide (r > t.max - l)

/-- `is_subtract_overflow` (overflow.ipp:75-89), signed and unsigned overloads. -/
def isSubtractOverflow (t : Ty) (l r : Int) : Bool :=
  if t.signed then
    r != 0 && (!isNegative t r || decide (l > t.max + r)) && (isNegative t r || decide (l < t.min + r))
  else decide (r > l)

/-- `is_multiply_overflow` (overflow.ipp:94-98), unsigned only. -/
def isMultiplyOverflow (t : Ty) (l r : Int) : Bool := r != 0 && decide (l > t.max.tdiv r)

/-- `add`/`subtract` single type (addition.ipp:35-41, 80-86). -/
def add (t : Ty) (l r : Int) : Int := t.cast (l + r)
@[inherit_doc add] def subtract (t : Ty) (l r : Int) : Int := t.cast (l - r)

/-- `ceilinged_add` (addition.ipp:124-137). -/
def ceilingedAdd (t : Ty) (l r : Int) : Int :=
  if isAddOverflow t l r then (if isNegative t r then t.min else t.max) else add t l r

/-- `floored_subtract` (addition.ipp:173-187). -/
def flooredSubtract (t : Ty) (l r : Int) : Int :=
  if isSubtractOverflow t l r then (if isNegative t r then t.max else t.min) else subtract t l r

/-- `ceilinged_multiply` (multiplication.ipp:43-48), unsigned only. -/
def ceilingedMultiply (t : Ty) (l r : Int) : Int :=
  if isMultiplyOverflow t l r then t.max else t.cast (l * r)

/-- `safe_negate`/`safe_add`/`safe_subtract`/`safe_multiply` (overflow.ipp:152-197); `none` is the throw. -/
def safeNegate (t : Ty) (x : Int) : Option Int := if isNegateOverflow t x then none else some (t.cast (-x))
@[inherit_doc safeNegate] def safeAdd (t : Ty) (l r : Int) : Option Int :=
  if isAddOverflow t l r then none else some (t.cast (l + r))
@[inherit_doc safeNegate] def safeSubtract (t : Ty) (l r : Int) : Option Int :=
  if isSubtractOverflow t l r then none else some (t.cast (l - r))
@[inherit_doc safeNegate] def safeMultiply (t : Ty) (l r : Int) : Option Int :=
  if isMultiplyOverflow t l r then none else some (t.cast (l * r))

/-- `is_greater` (sign.ipp:114-133): the three overloads by signedness of the operand types. -/
def isGreater (tl tr : Ty) (l r : Int) : Bool :=
  if tl.signed = tr.signed then decide (l > r)
  else if tl.signed then !isNegative tl l && decide (r < tl.toUnsigned.cast l)
  else isNegative tr r || decide (l > tr.toUnsigned.cast r)

/-- `is_lesser` (sign.ipp:135-154). -/
def isLesser (tl tr : Ty) (l r : Int) : Bool :=
  if tl.signed = tr.signed then decide (l < r)
  else if tl.signed then isNegative tl l || decide (tl.toUnsigned.cast l < r)
  else !isNegative tr r && decide (tr.toUnsigned.cast r > l)

/-- `is_limited` (limits.ipp:46-51): value of type `t`, bounds of type `by_`. -/
def isLimited (t by_ : Ty) (x lo hi : Int) : Bool := isLesser t by_ x lo || isGreater t by_ x hi

/-- `limit` (limits.ipp:69-76): value of type `t`, bounds and result of type `res`. -/
def limit (t res : Ty) (x lo hi : Int) : Int :=
  if isLesser t res x lo then lo else if isGreater t res x hi then hi else res.cast x

/-- `negate` signed (sign.ipp:60-64). -/
def negate (t : Ty) (x : Int) : Int := t.cast (-x)

/-- `absolute` signed (sign.ipp:45-51). -/
def absolute (t : Ty) (x : Int) : Int := t.toUnsigned.cast (if isNegative t x then negate t x else x)

/-- `floored_negate` (sign.ipp:74-82): unsigned value, signed result type. -/
def flooredNegate (res : Ty) (x : Int) : Int :=
  if x > res.max then res.min else negate res (res.cast x)

/-- `delta` for unsigned operands (addition.ipp:241-250), both already of the wider operand type `t`. -/
def deltaUnsigned (t res : Ty) (l r : Int) : Int :=
  if l < r then flooredNegate res (subtract t r l) else limit t res (subtract t l r) res.min res.max

/-- `delta` for signed operands (addition.ipp:252-261); `wider` is the widest of the three types. -/
def deltaSigned (wider res : Ty) (l r : Int) : Int :=
  limit wider res (flooredSubtract wider (wider.cast l) (wider.cast r)) res.min res.max

/-- `is_multiple` (multiplication.ipp:29-33) (native `%` truncates). -/
def isMultiple (product value : Int) : Bool := if value ≠ 0 then product.tmod value == 0 else product == 0

/-- `is_product` (multiplication.ipp:35-41). -/
def isProduct (product l r : Int) : Bool :=
  if l = 0 ∨ r = 0 then product == 0 else product.tmod l == 0 && product.tdiv l == r

/-- `is_negative_` (division.ipp:31-36). -/
def signsDiffer (t : Ty) (a b : Int) : Bool := isNegative t a != isNegative t b
/-- `is_ceilinged_` (division.ipp:45-50). -/
def isCeilinged (t : Ty) (a b : Int) : Bool := signsDiffer t a b || a.tmod b == 0
/-- `is_floored_` (division.ipp:52-57). -/
def isFloored (t : Ty) (a b : Int) : Bool := !signsDiffer t a b || a.tmod b == 0

/-- `truncated_divide`, `truncated_modulo` (division.ipp:100-114): native `/` and `%`.
Operands of one type; mixed types first convert to the common type in C++. -/
def truncatedDivide (t : Ty) (a b : Int) : Int := t.cast (a.tdiv b)
@[inherit_doc truncatedDivide] def truncatedModulo (t : Ty) (a b : Int) : Int := t.cast (a.tmod b)
/-- `ceilinged_divide` (division.ipp:62-69). -/
def ceilingedDivide (t : Ty) (a b : Int) : Int :=
  t.cast (truncatedDivide t a b + (if isCeilinged t a b then 0 else 1))
/-- `ceilinged_modulo` (division.ipp:71-80): the result type is signed. -/
def ceilingedModulo (t : Ty) (a b : Int) : Int :=
  t.toSigned.cast (truncatedModulo t a b - (if isCeilinged t a b then 0 else b))
/-- `floored_divide` (division.ipp:82-89). -/
def flooredDivide (t : Ty) (a b : Int) : Int :=
  t.cast (truncatedDivide t a b - (if isFloored t a b then 0 else 1))
/-- `floored_modulo` (division.ipp:91-98). -/
def flooredModulo (t : Ty) (a b : Int) : Int :=
  t.cast (truncatedModulo t a b + (if isFloored t a b then 0 else b))

/-- Loop of `power_` (power.ipp:46-48): `fuel` is the exponent. -/
def powerLoop (t : Ty) (base : Int) : Nat → Int → Int
  | 0, product => product
  | e + 1, product => powerLoop t base e (t.cast (product * t.cast base))

/-- `power_` (power.ipp:37-51): zero for `0^0`. -/
def power (t : Ty) (base : Int) (exponent : Nat) : Int :=
  if base = 0 ∧ exponent = 0 then 0 else powerLoop t base exponent 1

/-- Loop of `floored_log_` (logarithm.ipp:78-80): `while ((value /= base) > 0) ++exponent`. -/
def flooredLogLoop (base : Nat) (h : 2 ≤ base) (value exponent : Nat) : Nat :=
  if hv : 0 < value / base then flooredLogLoop base h (value / base) (exponent + 1) else exponent
termination_by value
decreasing_by exact Nat.div_lt_self (by by_contra hc; simp at hc; simp [hc] at hv) h

/-- `floored_log_` (logarithm.ipp:61-82). -/
def flooredLog (base value : Nat) : Nat :=
  if h : base < 2 ∨ value < 1 then 0 else flooredLogLoop base (by omega) value 0

/-- Loop of `ceilinged_log_` (logarithm.ipp:55-57): `while (value > 1) { ++exponent; value /= base; }`. -/
def ceilingedLogLoop (base : Nat) (h : 2 ≤ base) (value exponent : Nat) : Nat :=
  if hv : 1 < value then ceilingedLogLoop base h (value / base) (exponent + 1) else exponent
termination_by value
decreasing_by exact Nat.div_lt_self (by omega) h

/-- `ceilinged_log_` (logarithm.ipp:38-59). -/
def ceilingedLog (base value : Nat) : Nat :=
  if h : base < 2 ∨ value < 1 then 0 else ceilingedLogLoop base (by omega) value 0

/-- `std::bit_width`. Used for logarithm.ipp:118-129. -/
def bitWidth (n : Nat) : Nat := if n = 0 then 0 else Nat.log2 n + 1

/-- `ceilinged_log2` integral (logarithm.ipp:118-129). -/
def ceilingedLog2 (n : Nat) : Nat := if n < 1 then 0 else bitWidth (n - 1)

/-- `floored_log2` integral (logarithm.ipp:224-235). -/
def flooredLog2 (n : Nat) : Nat := if n < 1 then 0 else bitWidth n - 1

/-- `ceilinged_log256` for a 64 bit type (logarithm.ipp:147-181). -/
def ceilingedLog256 (n : Nat) : Nat :=
  if n < 1 then 0
  else if n > 0x0100000000000000 then 8
  else if n > 0x0001000000000000 then 7
  else if n > 0x0000010000000000 then 6
  else if n > 0x0000000100000000 then 5
  else if n > 0x01000000 then 4
  else if n > 0x00010000 then 3
  else if n > 0x0100 then 2
  else if n > 0x01 then 1 else 0

/-- `floored_log256` for a 64 bit type (logarithm.ipp:252-285). -/
def flooredLog256 (n : Nat) : Nat :=
  if n < 1 then 0
  else if n > 0x00ffffffffffffff then 7
  else if n > 0x0000ffffffffffff then 6
  else if n > 0x000000ffffffffff then 5
  else if n > 0x00ffffffff then 4
  else if n > 0x0000ffffff then 3
  else if n > 0xffff then 2
  else if n > 0xff then 1 else 0

/-- `byte_width` unsigned 64 bit (bytes.ipp:36-42). -/
def byteWidth (n : Nat) : Nat := if n = 0 then 0 else flooredLog256 n + 1

end Verif.Arith
