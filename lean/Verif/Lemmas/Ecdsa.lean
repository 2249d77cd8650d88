import Mathlib.Data.Nat.GCD.Basic
import Mathlib.Data.Int.GCD
import Mathlib.Algebra.Group.Basic
import Mathlib.Tactic.Ring
import Mathlib.Tactic.Abel
import Verif.Spec.Ecdsa
/-!
# ECDSA over a group of prime order
-/
namespace Verif
variable {P : Type} [AddCommGroup P] (C : Curve P)

theorem Curve.order_smul (p : P) : C.order • p = 0 := by
  obtain ⟨k, rfl⟩ := C.generated p
  rw [← mul_nsmul, Nat.mul_comm]
  rw [mul_nsmul, (C.cyclic _).2 (Nat.dvd_refl _), nsmul_zero]

theorem Curve.smul_mod (a : Nat) (p : P) : (a % C.order) • p = a • p := by
  conv_rhs => rw [← Nat.mod_add_div a C.order, add_nsmul, mul_nsmul, C.order_smul, nsmul_zero, add_zero]

theorem Curve.smul_congr {a b : Nat} (h : a ≡ b [MOD C.order]) (p : P) : a • p = b • p := by
  rw [← C.smul_mod a, ← C.smul_mod b, h]

theorem Curve.smul_neg_of {a b : Nat} (h : a + b ≡ 0 [MOD C.order]) (p : P) : a • p = -(b • p) := by
  have := C.smul_congr h p
  rw [add_nsmul, zero_nsmul] at this
  exact eq_neg_of_add_eq_zero_left this

theorem Curve.gen_congr {a b : Nat} (h : a • C.generator = b • C.generator) : a ≡ b [MOD C.order] := by
  have key : ∀ a b : Nat, a ≤ b → a • C.generator = b • C.generator → a ≡ b [MOD C.order] := by
    intro a b hab h
    have h2 : (b - a) • C.generator = 0 := by
      have h3 : (b - a + a) • C.generator = b • C.generator := by rw [Nat.sub_add_cancel hab]
      rw [add_nsmul, ← h] at h3
      simpa using h3
    exact (Nat.modEq_iff_dvd' hab).2 ((C.cyclic _).1 h2)
  rcases Nat.le_total a b with hab | hab
  · exact key a b hab h
  · exact (key b a hab h.symm).symm

theorem Curve.inverse {s : Nat} (h0 : 0 < s) (h1 : s < C.order) : ∃ w, w * s ≡ 1 [MOD C.order] := by
  have hc : Nat.Coprime s C.order := ((Nat.Prime.coprime_iff_not_dvd C.prime).2 fun h => by have := Nat.le_of_dvd h0 h; omega).symm
  have h2 := C.prime.one_lt
  obtain ⟨w, -, hw⟩ := Nat.exists_mul_mod_eq_one_of_coprime hc h2
  refine ⟨w, ?_⟩
  unfold Nat.ModEq
  rw [Nat.mul_comm, hw, Nat.mod_eq_of_lt h2]

/-- The point a verification computes, for the key of a secret. -/
theorem point_eq (d w z r : Nat) : (w * z) • C.generator + (w * r) • (d • C.generator) = (w * (z + r * d)) • C.generator := by
  rw [← mul_nsmul', ← add_nsmul]
  congr 1
  ring

/-- What verifies with the key of a secret is what the scheme can make with that secret. -/
theorem verifies_iff (x : P → Nat) (hx : ∀ p, x (-p) = x p) (d z r s : Nat) :
    Verifies C x (d • C.generator) z r s ↔ IsSignature C x d z r s := by
  unfold Verifies IsSignature
  have hn := C.prime.pos
  constructor
  · rintro ⟨h1, h2, h3, h4, w, hw, hne, hxr⟩
    rw [point_eq] at hne hxr
    refine ⟨w * (z + r * d) % C.order, Nat.pos_of_ne_zero ?_, Nat.mod_lt _ hn, ?_, h1, h3, h4, .inl ?_⟩
    · intro h0
      exact hne ((C.cyclic _).2 (Nat.dvd_of_mod_eq_zero h0))
    · rw [C.smul_mod]; exact hxr.symm
    · calc w * (z + r * d) % C.order * s ≡ w * (z + r * d) * s [MOD C.order] := (Nat.mod_modEq _ _).mul_right s
        _ = (z + r * d) * (w * s) := by ring
        _ ≡ (z + r * d) * 1 [MOD C.order] := hw.mul_left _
        _ = z + r * d := by ring
  · rintro ⟨k, h1, h2, hr, hr0, hs0, hs1, hk⟩
    obtain ⟨w, hw⟩ := C.inverse hs0 hs1
    have hkg : k • C.generator ≠ 0 := by
      intro h0
      have := Nat.le_of_dvd h1 ((C.cyclic _).1 h0)
      omega
    refine ⟨hr0, by rw [hr]; exact Nat.mod_lt _ hn, hs0, hs1, w, hw, ?_⟩
    rw [point_eq]
    rcases hk with hk | hk
    · have : (w * (z + r * d)) • C.generator = k • C.generator := by
        apply C.smul_congr
        calc w * (z + r * d) ≡ w * (k * s) [MOD C.order] := (hk.mul_left w).symm
          _ = k * (w * s) := by ring
          _ ≡ k * 1 [MOD C.order] := hw.mul_left _
          _ = k := by ring
      rw [this]
      exact ⟨hkg, hr.symm⟩
    · have : (w * (z + r * d)) • C.generator = -(k • C.generator) := by
        apply C.smul_neg_of
        calc w * (z + r * d) + k = w * (z + r * d) + k * 1 := by ring
          _ ≡ w * (z + r * d) + k * (w * s) [MOD C.order] := (hw.symm.mul_left _).add_left _
          _ = w * (k * s + (z + r * d)) := by ring
          _ ≡ w * 0 [MOD C.order] := hk.mul_left w
          _ = 0 := by ring
      rw [this, hx]
      exact ⟨neg_ne_zero.2 hkg, hr.symm⟩

/-- The two values of `s`. -/
theorem verifies_flip (x : P → Nat) (hx : ∀ p, x (-p) = x p) {q : P} {z r s : Nat} (h : Verifies C x q z r s) : Verifies C x q z r (C.order - s) := by
  obtain ⟨d, rfl⟩ := C.generated q
  rw [verifies_iff C x hx] at h ⊢
  obtain ⟨k, h1, h2, hr, hr0, hs0, hs1, hk⟩ := h
  refine ⟨k, h1, h2, hr, hr0, by omega, by omega, ?_⟩
  have e : k * (C.order - s) + k * s ≡ 0 [MOD C.order] := by
    rw [← Nat.mul_add, Nat.sub_add_cancel (by omega)]
    exact (Nat.modEq_zero_iff_dvd.2 (Nat.dvd_mul_left _ _))
  rcases hk with hk | hk
  · exact .inr ((hk.symm.add_left _).trans e)
  · refine .inl (Nat.ModEq.add_right_cancel' (k * s) (e.trans ?_))
    rw [Nat.add_comm]
    exact hk.symm

end Verif
