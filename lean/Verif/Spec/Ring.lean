import Verif.Spec.Secp
import Verif.Spec.Hash
/-!
# Borromean ring signatures

Maxwell and Poelstra, "Borromean Ring Signatures" (2015), with the challenges, indexes and order of the hashed fields of the header
(include/bitcoin/system/crypto/ring_signature.hpp). `m` is the digest of the message, `e0` the challenge of the signature, and for ring `i`
there is one number `s` for each key.
-/
namespace Verif.Spec.Ring
open Verif
variable {P : Type} [AddCommGroup P] (C : Curve P)

/-- A number that may multiply a point: neither zero nor as large as the order. -/
def Usable (k : Nat) : Prop := 0 < k ∧ k < C.order

/-- The challenge for key `j` of ring `i` after `R`. -/
def challenge (m R : Bytes) (i j : Nat) : Nat := beNat (Hash.sha256.digest (R ++ m ++ beBytes 4 i ++ beBytes 4 j))

/-- The walk around ring `i`, from key `j` and challenge `e` to the last point: each point is `s G + e Q`. -/
inductive Walk (m : Bytes) (i : Nat) : Nat → Nat → List Bytes → List Bytes → P → Prop
  | last {j e : Nat} {key s : Bytes} {Q : P} : Usable C e → Usable C (beNat s) → C.parse key = some Q →
      beNat s • C.generator + e • Q ≠ 0 → challenge m (C.compressed (beNat s • C.generator + e • Q)) i (j + 1) ≠ 0 →
      Walk m i j e [key] [s] (beNat s • C.generator + e • Q)
  | step {j e : Nat} {key s : Bytes} {Q R : P} {keys ss : List Bytes} : Usable C e → Usable C (beNat s) → C.parse key = some Q →
      beNat s • C.generator + e • Q ≠ 0 →
      Walk m i (j + 1) (challenge m (C.compressed (beNat s • C.generator + e • Q)) i (j + 1)) keys ss R →
      Walk m i j e (key :: keys) (s :: ss) R

/-- The signature closes every ring: the walks that begin with the challenge end in points that hash, with the message, to the challenge. -/
def Accepts (rings : List (List Bytes)) (m e0 : Bytes) (proofs : List (List Bytes)) : Prop :=
  ∃ ends : List P, ends.length = rings.length ∧ proofs.length = rings.length ∧
    (∀ i ring ss R, rings[i]? = some ring → proofs[i]? = some ss → ends[i]? = some R → Walk C m i 0 (challenge m e0 i 0) ring ss R) ∧
    e0 = Hash.sha256.digest (ends.flatMap C.compressed ++ m)

/-- The challenges that are met on the way around ring `i`: going on from key `j` with challenge `e` one comes to `j'` with `e'`. -/
inductive Met (m : Bytes) (i : Nat) : Nat → Nat → List Bytes → List Bytes → Nat → Nat → Prop
  | here {j e : Nat} {keys ss : List Bytes} : Met m i j e keys ss j e
  | next {j e j' e' : Nat} {key s : Bytes} {Q : P} {keys ss : List Bytes} : C.parse key = some Q →
      Met m i (j + 1) (challenge m (C.compressed (beNat s • C.generator + e • Q)) i (j + 1)) keys ss j' e' →
      Met m i j e (key :: keys) (s :: ss) j' e'

/-- Sizes of the arguments: 33 byte keys, and one 32 byte proof for each key. -/
structure Shape (rings proofs : List (List Bytes)) : Prop where
  keys : ∀ ring ∈ rings, ∀ k ∈ ring, k.length = 33
  count : proofs.length = rings.length
  each : ∀ (i : Nat) (ring ss : List Bytes), rings[i]? = some ring → proofs[i]? = some ss → ss.length = ring.length
  bytes : ∀ ss ∈ proofs, ∀ s ∈ ss, s.length = 32

/-- There is a secret for some key of every ring, and every secret is one. -/
def CanSign (rings : List (List Bytes)) (secrets : List Bytes) : Prop :=
  (∀ x ∈ secrets, Usable C (beNat x)) ∧ ∀ ring ∈ rings, ∃ x ∈ secrets, C.compressed (beNat x • C.generator) ∈ ring

end Verif.Spec.Ring
