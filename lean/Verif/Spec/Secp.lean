import Mathlib.Algebra.Group.Basic
import Mathlib.Data.Nat.Prime.Basic
import Verif.Model.Stream
/-!
# What is assumed of libsecp256k1

The curve arithmetic is in an external library that is not in the repository. Its documented contract is stated here over any
commutative group `P` of prime order with a generator, together with encodings of the points other than zero in 33 bytes
(`0x02`/`0x03`) and 65 bytes (`0x04`). Theorems take a `Curve` as a parameter; `Toy.curve` (Lemmas/ToyCurve.lean) shows that there is one.
-/
namespace Verif

/-- The group of the curve with its encodings. -/
structure Curve (P : Type) [AddCommGroup P] where
  order : Nat
  generator : P
  compressed : P → Bytes
  uncompressed : P → Bytes
  /-- `secp256k1_ec_pubkey_parse`. -/
  parse : Bytes → Option P
  prime : order.Prime
  small : order < 2 ^ 256
  cyclic : ∀ k : Nat, k • generator = 0 ↔ order ∣ k
  generated : ∀ p : P, ∃ k : Nat, p = k • generator
  compressed_form : ∀ p, ∃ s x, compressed p = s :: x ∧ (s = 2 ∨ s = 3) ∧ x.length = 32
  uncompressed_form : ∀ p, ∃ x, uncompressed p = 4 :: x ∧ x.length = 64
  parse_compressed : ∀ p, p ≠ 0 → parse (compressed p) = some p
  parse_uncompressed : ∀ p, p ≠ 0 → parse (uncompressed p) = some p
  parse_ne : ∀ b p, parse b = some p → p ≠ 0
  parse_size : ∀ b p, parse b = some p → b.length = 33 ∨ b.length = 65
  /-- The compressed encoding of a point is unique, and so is the uncompressed one. -/
  parse_33 : ∀ b p, parse b = some p → b.length = 33 → b = compressed p
  parse_65 : ∀ b p, parse b = some p → b.head? = some 4 → b = uncompressed p

end Verif
