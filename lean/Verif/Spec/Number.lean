import Verif.Model.Stream
/-!
# Specification of script numbers (independent of the model)

A byte string is a little-endian sign-and-magnitude number: the top bit of the last byte is the sign.
-/
namespace Verif.Spec

/-- The integer a byte string denotes. -/
def scriptNum (b : Bytes) : Int :=
  if b = [] then 0
  else if 2 ^ (8 * b.length - 1) ≤ leNat b then -((leNat b : Int) - 2 ^ (8 * b.length - 1))
  else leNat b

/-- No shorter string denotes the same number: the last byte carries magnitude bits, or is a sign byte required by the
top bit of the byte before it. -/
def MinimalNum (b : Bytes) : Prop :=
  b = [] ∨ ∃ init last, b = init ++ [last] ∧
    (last ≠ 0 ∧ last ≠ 0x80 ∨ ∃ init' prev, init = init' ++ [prev] ∧ 0x80 ≤ prev)

end Verif.Spec
