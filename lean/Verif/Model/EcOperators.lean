import Verif.Model.Secp
/-!
# `ec_scalar` and `ec_point`

Source: src/wallet/keys/ec_scalar.cpp and src/wallet/keys/ec_point.cpp. A scalar is its 32 bytes, a point its 33 bytes; the default
objects are zeros.
-/
namespace Verif.Ec
open Verif
variable {P : Type} [AddCommGroup P] [DecidableEq P] (C : Curve P)

/-- `ec_scalar()` (ec_scalar.cpp:34-37). -/
def Scalar.zero : Bytes := List.replicate 32 0
/-- `operator-()` (ec_scalar.cpp:114-121). -/
def Scalar.neg (a : Bytes) : Bytes := (negSecret C a).getD Scalar.zero
/-- `operator+` (ec_scalar.cpp:126-133). -/
def Scalar.add (a c : Bytes) : Bytes := (addSecret C a c).getD Scalar.zero
/-- `operator-` (ec_scalar.cpp:135-138). -/
def Scalar.sub (a c : Bytes) : Bytes := Scalar.add C a (Scalar.neg C c)
/-- `operator*` (ec_scalar.cpp:140-147). -/
def Scalar.mul (a c : Bytes) : Bytes := (mulSecret C a c).getD Scalar.zero
/-- `from_int64` (ec_scalar.cpp:69-88): the magnitude, as an unsigned 64 bit number, in the last eight bytes; negated if negative. -/
def Scalar.ofInt (v : Int) : Bytes :=
  if v = 0 then Scalar.zero
  else
    let s := List.replicate 24 0 ++ beBytes 8 v.natAbs
    if 0 < v then s else Scalar.neg C s
/-- `operator bool` (ec_scalar.cpp:188-192). -/
def Scalar.nonzero (a : Bytes) : Bool := a != Scalar.zero

/-- `ec_point()` (ec_point.cpp:44-47). -/
def Point.none : Bytes := List.replicate 33 0
/-- `is_valid` (ec_point.cpp:35-39). -/
def Point.valid (a : Bytes) : Bool := a.head? != some 0
/-- `operator-()` (ec_point.cpp:107-117). -/
def Point.neg (a : Bytes) : Bytes := if !Point.valid a then Point.none else (negPoint C a).getD Point.none
/-- `operator+` (ec_point.cpp:122-132). -/
def Point.add (a c : Bytes) : Bytes := if !Point.valid a || !Point.valid c then Point.none else (addPoints C a c).getD Point.none
/-- `operator-` (ec_point.cpp:134-140). -/
def Point.sub (a c : Bytes) : Bytes := if !Point.valid a || !Point.valid c then Point.none else Point.add C a (Point.neg C c)
/-- `operator*` (ec_point.cpp:142-157). -/
def Point.mul (a s : Bytes) : Bytes := if !Point.valid a || !Scalar.nonzero s then Point.none else (mulPoint C a s).getD Point.none
/-- `operator+=`, `operator-=`, `operator*=` (ec_point.cpp:77-102): unchanged if invalid, otherwise the operator's result. -/
def Point.addTo (a c : Bytes) : Bytes := if !Point.valid a then a else Point.add C a c
/-- As above, ec_point.cpp:77-102. -/
def Point.subFrom (a c : Bytes) : Bytes := if !Point.valid a then a else Point.sub C a c
/-- As above, ec_point.cpp:77-102. -/
def Point.mulBy (a s : Bytes) : Bytes := if !Point.valid a then a else Point.mul C a s

/-- `ec_sum` (src/crypto/secp256k1/math.cpp:127-142) of any number of points. -/
def sumPoints (points : List Bytes) : Option Bytes :=
  if points = [] then Option.none
  else match points.mapM C.parse with
    | Option.none => Option.none
    | some ps => if ps.sum ≠ 0 then some (C.compressed ps.sum) else Option.none

end Verif.Ec
