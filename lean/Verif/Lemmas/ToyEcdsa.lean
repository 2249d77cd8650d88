import Verif.Lemmas.ToyCurve
import Verif.Lemmas.Ecdsa
/-!
# An `Ecdsa`

An instance of the assumed contract of the ECDSA functions over `Toy.curve`, to show that it can be met: the x coordinate of a number
is the smaller of it and its negative.
-/
namespace Verif.Toy
open Verif

def x (a : ZMod prime) : Nat := min a.val (-a).val

theorem x_neg (a : ZMod prime) : x (-a) = x a := by
  unfold x; rw [neg_neg, Nat.min_comm]

theorem prime_big : 4 < prime := by decide

theorem x_small (k : Nat) (h0 : 0 < k) (h : 2 * k ≤ prime) : x (k • (1 : ZMod prime)) % prime = k := by
  have e : (k • (1 : ZMod prime)).val = k := by
    rw [nsmul_one]
    exact ZMod.val_cast_of_lt (by omega)
  have e2 : (-(k • (1 : ZMod prime))).val = prime - k := by
    rw [ZMod.neg_val, if_neg, e]
    intro hz
    rw [hz, ZMod.val_zero] at e
    omega
  unfold x
  rw [e, e2, Nat.min_eq_left (by omega), Nat.mod_eq_of_lt (by omega)]

theorem exists_signature (d z : Nat) (h0 : 0 < d) (h1 : d < prime) : ∃ r s, IsSignature curve x d z r s := by
  have hb := prime_big
  by_cases hz : (z + d) % prime = 0
  · obtain ⟨w, hw⟩ := Curve.inverse curve (s := 2) (by decide) (show 2 < prime by omega)
    refine ⟨2, w * d % prime, 2, by decide, show 2 < prime by omega, (x_small 2 (by decide) (by omega)).symm, by decide, ?_, Nat.mod_lt _ (by omega), .inl ?_⟩
    · refine Nat.pos_of_ne_zero fun hm => ?_
      have hd := Nat.dvd_of_mod_eq_zero hm
      have h2 : d ≡ 0 [MOD prime] := by
        calc d = d * 1 := by ring
          _ ≡ d * (w * 2) [MOD prime] := (Nat.ModEq.symm hw).mul_left d
          _ = 2 * (w * d) := by ring
          _ ≡ 2 * 0 [MOD prime] := (Nat.modEq_zero_iff_dvd.2 hd).mul_left 2
          _ = 0 := by ring
      have := Nat.le_of_dvd h0 (Nat.modEq_zero_iff_dvd.1 h2)
      omega
    · show 2 * (w * d % prime) ≡ z + 2 * d [MOD prime]
      calc 2 * (w * d % prime) ≡ 2 * (w * d) [MOD prime] := (Nat.mod_modEq _ _).mul_left 2
        _ = d * (w * 2) := by ring
        _ ≡ d * 1 [MOD prime] := Nat.ModEq.mul_left d hw
        _ = 0 + d := by ring
        _ ≡ (z + d) + d [MOD prime] := (show 0 ≡ z + d [MOD prime] from (by unfold Nat.ModEq; rw [hz]; rfl)).add_right d
        _ = z + 2 * d := by ring
  · refine ⟨1, (z + d) % prime, 1, by decide, show 1 < prime by omega, (x_small 1 (by decide) (by omega)).symm, by decide, Nat.pos_of_ne_zero hz, Nat.mod_lt _ (by omega), .inl ?_⟩
    show 1 * ((z + d) % prime) ≡ z + 1 * d [MOD prime]
    rw [one_mul, one_mul]
    exact Nat.mod_modEq _ _

theorem exists_low (d z : Nat) (h0 : 0 < d) (h1 : d < prime) : ∃ rs : Nat × Nat, 2 * rs.2 ≤ prime ∧ IsSignature curve x d z rs.1 rs.2 := by
  obtain ⟨r, s, h⟩ := exists_signature d z h0 h1
  by_cases hs : 2 * s ≤ prime
  · exact ⟨(r, s), hs, h⟩
  · refine ⟨(r, prime - s), by show 2 * (prime - s) ≤ prime; omega, ?_⟩
    have := (verifies_iff curve x x_neg d z r s).2 h
    exact (verifies_iff curve x x_neg d z r _).1 (verifies_flip curve x x_neg this)

open Classical in
/-- An instance of `Ecdsa`. -/
noncomputable def ecdsa : Ecdsa curve where
  x := x
  x_neg := x_neg
  sign s h := if v : 0 < beNat s ∧ beNat s < prime then some (exists_low (beNat s) (beNat h) v.1 v.2).choose else none
  verify q h rs := decide (2 * rs.2 ≤ prime ∧ Verifies curve x q (beNat h) rs.1 rs.2)
  der rs := Der.Spec.encode rs.1 rs.2
  sign_valid s h h0 h1 := by
    refine ⟨_, _, dif_pos ⟨h0, h1⟩, ?_⟩
    exact (exists_low (beNat s) (beNat h) h0 h1).choose_spec
  sign_invalid s h hv := dif_neg hv
  verify_iff q h r s := by simp only [decide_eq_true_eq]; rfl
  der_eq r s _ _ := rfl
  order_le := by decide

end Verif.Toy
