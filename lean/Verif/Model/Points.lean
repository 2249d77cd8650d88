import Verif.Model.Chain
/-!
# Selection of coins

Sources: src/wallet/points_value.cpp, src/wallet/point_value.cpp. `std::partition` and `std::sort` are free in the order of what they do not
distinguish, so they are parameters, of which only what the standard says is assumed (`Std`). The output object is not the input object.
-/
namespace Verif.Points
open Verif

/-- A valued point (wallet/point_value.hpp:30-63): the point and a uint64_t. -/
structure PointValue where
  point : Point
  value : UInt64
deriving DecidableEq

/-- `std::partition` and `std::sort` by a comparison of values. Used for points_value.cpp:31-92. -/
structure Library where
  partition : (PointValue → Bool) → List PointValue → List PointValue × List PointValue
  sort : (PointValue → PointValue → Bool) → List PointValue → List PointValue

/-- `points_value::value` (points_value.cpp:140-148). -/
def value (points : List PointValue) : Nat := points.foldl (fun total p => cadd total p.value.toNat) 0

/-- `std::min_element`: the first that no other is less than. Used for points_value.cpp:31-92. -/
def minElement (less : PointValue → PointValue → Bool) : List PointValue → Option PointValue
  | [] => none
  | p :: l => some (l.foldl (fun best q => if less q best then q else best) p)

/-- The loop over the points in descending order (points_value.cpp:85-91), `out` what was taken. -/
def take (minimum : UInt64) (out : List PointValue) : List PointValue → List PointValue
  | [] => out
  | p :: l => if value (out ++ [p]) ≥ minimum.toNat then out ++ [p] else take minimum (out ++ [p]) l

/-- `points_value::greedy` (points_value.cpp:31-92). -/
def greedy (lib : Library) (unspent : List PointValue) (minimum : UInt64) : List PointValue :=
  if value unspent < minimum.toNat then []
  else match unspent with
    | [p] => [p]
    | _ =>
      let parts := lib.partition (fun p => p.value < minimum) unspent
      match minElement (fun a b => a.value < b.value) parts.2 with
      | some p => [p]
      | none => take minimum [] (lib.sort (fun a b => a.value > b.value) (parts.1 ++ parts.2))

/-- `points_value::individual` (points_value.cpp:94-117). -/
def individual (lib : Library) (unspent : List PointValue) (minimum : UInt64) : List PointValue :=
  lib.sort (fun a b => a.value < b.value) (unspent.filter fun p => p.value ≥ minimum)

/-- `points_value::select` (points_value.cpp:119-133). -/
def select (lib : Library) (unspent : List PointValue) (minimum : UInt64) (one : Bool) : List PointValue :=
  if one then individual lib unspent minimum else greedy lib unspent minimum

end Verif.Points
