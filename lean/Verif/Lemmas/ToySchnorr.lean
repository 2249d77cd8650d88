import Verif.Lemmas.ToyEcdsa
import Verif.Spec.Taproot
/-!
# A `Schnorr`

An instance of the assumed contract of the Schnorr functions over `Toy.curve`, to show that it can be met: a number is odd if it is larger
than its negative.
-/
namespace Verif.Toy
open Verif

def odd (a : ZMod prime) : Bool := decide ((-a).val < a.val)

theorem val_neg {a : ZMod prime} (h : a ≠ 0) : (-a).val = prime - a.val ∧ 0 < a.val ∧ a.val < prime := by
  refine ⟨by rw [ZMod.neg_val, if_neg h], Nat.pos_of_ne_zero fun h0 => h ((ZMod.val_eq_zero a).1 h0), ZMod.val_lt a⟩

theorem prime_odd : prime % 2 = 1 := by decide

def xonly (a : ZMod prime) : Bytes := beBytes 32 (x a)

def lift (b : Bytes) : Option (ZMod prime) :=
  if b.length = 32 ∧ 0 < beNat b ∧ 2 * beNat b < prime then some ((beNat b : Nat) : ZMod prime) else none

theorem x_lt (a : ZMod prime) : x a < 256 ^ 32 := by
  have h1 : x a ≤ a.val := Nat.min_le_left _ _
  have h2 := ZMod.val_lt a
  have h3 : prime < 256 ^ 32 := by decide
  omega

theorem lift_xonly (a : ZMod prime) (h : a ≠ 0) : lift (xonly a) = some (if odd a then -a else a) := by
  obtain ⟨h1, h2, h3⟩ := val_neg h
  have h4 := prime_odd
  have hx : beNat (xonly a) = x a := Der.beNat_beBytes (x_lt a)
  have hc : ((x a : Nat) : ZMod prime) = if odd a then -a else a := by
    by_cases g : prime - a.val < a.val
    · have e : x a = (-a).val := by unfold x; rw [h1]; exact Nat.min_eq_right (by omega)
      have o : odd a = true := by unfold odd; rw [h1]; exact decide_eq_true g
      rw [e, o, if_pos rfl, ZMod.natCast_zmod_val]
    · have e : x a = a.val := by unfold x; rw [h1]; exact Nat.min_eq_left (by omega)
      have o : odd a = false := by unfold odd; rw [h1]; exact decide_eq_false g
      rw [e, o, if_neg (by decide), ZMod.natCast_zmod_val]
  have hb : 0 < x a ∧ 2 * x a < prime := by unfold x; rw [h1]; omega
  unfold lift
  rw [hx, if_pos ⟨by simp [xonly], hb⟩, hc]

theorem lift_some (b : Bytes) (p : ZMod prime) (h : lift b = some p) : p ≠ 0 ∧ odd p = false ∧ xonly p = b := by
  unfold lift at h
  split at h
  · rename_i g
    obtain ⟨g1, g2, g3⟩ := g
    cases h
    have hv : ((beNat b : Nat) : ZMod prime).val = beNat b := ZMod.val_cast_of_lt (by omega)
    have hne : ((beNat b : Nat) : ZMod prime) ≠ 0 := by
      intro hz; rw [hz, ZMod.val_zero] at hv; omega
    obtain ⟨h1, -, -⟩ := val_neg hne
    refine ⟨hne, ?_, ?_⟩
    · unfold odd; rw [h1, hv]; simp; omega
    · unfold xonly x
      rw [h1, hv, Nat.min_eq_left (by omega)]
      apply Der.beNat_inj (by simp [g1])
      exact Der.beNat_beBytes (by have : prime < 256 ^ 32 := by decide
                                  omega)
  · cases h

/-- Signing with the nonce 1. -/
def schnorrSign (d : Nat) (m : Bytes) : Bytes :=
  let r := xonly (1 • curve.generator)
  let k' := if odd (1 • curve.generator) then curve.order - 1 else 1
  let d' := if odd (d • curve.generator) then curve.order - d else d
  r ++ beBytes 32 ((k' + beNat (r ++ xonly (d • curve.generator) ++ m) * d') % curve.order)

open Classical in
/-- An instance of `Schnorr`. -/
noncomputable def schnorr : Schnorr curve where
  xonly := xonly
  odd := odd
  lift := lift
  xonly_length p := by simp [xonly]
  xonly_neg p := by unfold xonly; rw [x_neg]
  odd_neg p h := by
    obtain ⟨h1, h2, h3⟩ := val_neg h
    have h4 := prime_odd
    unfold odd
    rw [neg_neg, h1]
    rw [Bool.eq_iff_iff]
    simp
    omega
  lift_xonly := lift_xonly
  lift_some := lift_some
  challenge := beNat
  sign s m _ := if 0 < beNat s ∧ beNat s < prime then some (schnorrSign (beNat s) m) else none
  sign_valid s m a h0 h1 := ⟨_, if_pos ⟨h0, h1⟩, 1, by decide, by decide, rfl⟩
  sign_invalid s m a h := if_neg h
  verify q m sig := decide (Bip340 curve xonly odd beNat q m sig)
  verify_iff q m sig _ := by simp
  tweakCheck q t out par := decide (beNat t < curve.order ∧ q + beNat t • curve.generator ≠ 0 ∧ xonly (q + beNat t • curve.generator) = out ∧
    odd (q + beNat t • curve.generator) = par)
  tweak_iff q t out par := by simp

end Verif.Toy
