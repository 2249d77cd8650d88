import Mathlib.Data.Nat.ModEq
import Verif.Spec.Secp
import Verif.Spec.Der
/-!
# ECDSA

The signature scheme over the group of the curve, and what is assumed of the ECDSA functions of libsecp256k1 (which is not in the
repository): they are this scheme, with the smaller of the two values of `s`.
-/
namespace Verif
variable {P : Type} [AddCommGroup P]

/-- `(r, s)` is a signature with some nonce `k` of the digest `z` by the secret `d`: `k s = ± (z + r d)`, where `r` is the x coordinate
of `k G`. -/
def IsSignature (C : Curve P) (x : P → Nat) (d z r s : Nat) : Prop :=
  ∃ k, 0 < k ∧ k < C.order ∧ r = x (k • C.generator) % C.order ∧ 0 < r ∧ 0 < s ∧ s < C.order ∧
    (k * s ≡ z + r * d [MOD C.order] ∨ k * s + (z + r * d) ≡ 0 [MOD C.order])

/-- `(r, s)` verifies for the digest `z` and the public key `q`: with `w` the inverse of `s`, the x coordinate of
`w z G + w r Q` is `r`. -/
def Verifies (C : Curve P) (x : P → Nat) (q : P) (z r s : Nat) : Prop :=
  0 < r ∧ r < C.order ∧ 0 < s ∧ s < C.order ∧ ∃ w, w * s ≡ 1 [MOD C.order] ∧
    (w * z) • C.generator + (w * r) • q ≠ 0 ∧ x ((w * z) • C.generator + (w * r) • q) % C.order = r

/-- The ECDSA functions of libsecp256k1. A `secp256k1_ecdsa_signature` is its two numbers. -/
structure Ecdsa (C : Curve P) where
  x : P → Nat
  x_neg : ∀ p, x (-p) = x p
  /-- `secp256k1_ecdsa_sign` of a secret and a digest, with the nonce function of RFC 6979. -/
  sign : Bytes → Bytes → Option (Nat × Nat)
  /-- `secp256k1_ecdsa_verify`. -/
  verify : P → Bytes → Nat × Nat → Bool
  /-- `secp256k1_ecdsa_signature_serialize_der`. -/
  der : Nat × Nat → Bytes
  sign_valid : ∀ s d, 0 < beNat s → beNat s < C.order → ∃ r t, sign s d = some (r, t) ∧ 2 * t ≤ C.order ∧ IsSignature C x (beNat s) (beNat d) r t
  sign_invalid : ∀ s d, ¬ (0 < beNat s ∧ beNat s < C.order) → sign s d = none
  verify_iff : ∀ q d r s, verify q d (r, s) = true ↔ 2 * s ≤ C.order ∧ Verifies C x q (beNat d) r s
  der_eq : ∀ r s, r < C.order → s < C.order → der (r, s) = Der.Spec.encode r s
  /-- The order is that of secp256k1 (not more is used than that the numbers fit it). -/
  order_le : C.order ≤ Der.order

end Verif
