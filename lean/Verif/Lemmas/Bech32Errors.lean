import Verif.Lemmas.Bech32Field
import Mathlib.Data.List.Basic
/-! # Few errors never cancel -/
namespace Verif.Bech32
open Verif

theorem absent_iff : ∀ (c : Nat) (l : List Nat), absent c l = true ↔ c ∉ l
  | c, [] => by simp [absent]
  | c, d :: l => by
    unfold absent
    have h : Nat.beq c d = decide (c = d) := by rw [Bool.eq_iff_iff, Nat.beq_eq, decide_eq_true_iff]
    rw [h]
    by_cases hc : c = d
    · simp [hc]
    · rw [decide_eq_false hc, cond_false, absent_iff c l, List.mem_cons]
      simp [hc]

/-- What the check establishes. -/
structure Facts (t1 u1 t2 w2 : Nat) (l : List Nat) : Prop where
  l1 : t1 < 6
  l2 : t2 < 6
  c1 : coord t1 u1 ≠ 0
  c2 : coord t2 w2 ≠ 0
  ne : ∀ v ∈ l, elim t2 w2 (elim t1 u1 v) ≠ 0
  pair : l.Pairwise fun v w => norm (elim t2 w2 (elim t1 u1 v)) ≠ norm (elim t2 w2 (elim t1 u1 w))

theorem apart_sound (t1 u1 t2 u2 : Nat) : ∀ (l seen : List Nat), apart t1 u1 t2 u2 l seen = true →
    (∀ v ∈ l, elim t2 u2 (elim t1 u1 v) ≠ 0 ∧ norm (elim t2 u2 (elim t1 u1 v)) ∉ seen) ∧
    l.Pairwise fun v w => norm (elim t2 u2 (elim t1 u1 v)) ≠ norm (elim t2 u2 (elim t1 u1 w))
  | [], _, _ => by simp
  | v :: l, seen, h => by
    unfold apart at h
    rw [force_eq, force_eq] at h
    have hb : Nat.beq (elim t2 u2 (elim t1 u1 v)) 0 = false := by
      cases hb : Nat.beq (elim t2 u2 (elim t1 u1 v)) 0 with
      | false => rfl
      | true => rw [hb] at h; cases h
    rw [hb, cond_false] at h
    have ha : absent (norm (elim t2 u2 (elim t1 u1 v))) seen = true := by
      cases ha : absent (norm (elim t2 u2 (elim t1 u1 v))) seen with
      | true => rfl
      | false => rw [ha] at h; cases h
    rw [ha, cond_true] at h
    obtain ⟨h1, h2⟩ := apart_sound t1 u1 t2 u2 l _ h
    refine ⟨?_, List.Pairwise.cons ?_ h2⟩
    · intro w hw
      rcases List.mem_cons.1 hw with rfl | hw
      · refine ⟨?_, (absent_iff _ _).1 ha⟩
        intro h0
        rw [h0] at hb
        cases hb
      · refine ⟨(h1 w hw).1, fun hm => (h1 w hw).2 (List.mem_cons_of_mem _ hm)⟩
    · intro w hw he
      exact (h1 w hw).2 (he ▸ List.mem_cons_self)

theorem cond_of {b : Bool} {x : Bool} (h : (bif b then x else false) = true) : b = true ∧ x = true := by
  cases b <;> simp_all

theorem cond_of' {b : Bool} {x : Bool} (h : (bif b then false else x) = true) : b = false ∧ x = true := by
  cases b <;> simp_all

theorem beq_ne {a b : Nat} (h : Nat.beq a b = false) : a ≠ b := by
  intro e
  rw [e, Nat.beq_refl] at h
  cases h

theorem check_sound {u1 u2 : Nat} {l : List Nat} (h : check u1 u2 l = true) : ∃ t1 t2, Facts t1 u1 t2 (elim t1 u1 u2) l := by
  unfold check at h
  rw [force_eq, force_eq, force_eq] at h
  obtain ⟨h1, h⟩ := cond_of h
  obtain ⟨h2, h⟩ := cond_of h
  obtain ⟨h3, h⟩ := cond_of' h
  obtain ⟨h4, h⟩ := cond_of' h
  obtain ⟨h5, h6⟩ := apart_sound _ _ _ _ _ _ h
  have h1' := Nat.le_of_ble_eq_true h1
  have h2' := Nat.le_of_ble_eq_true h2
  exact ⟨place 6 u1, place 6 (elim (place 6 u1) u1 u2), ⟨h1', h2', beq_ne h3, beq_ne h4, fun v hv => (h5 v hv).1, h6⟩⟩

section
variable {t1 u1 t2 u2 : Nat} {l : List Nat} (F : Facts t1 u1 t2 (elim t1 u1 u2) l) (h1 : u1 < 2 ^ 30) (h2 : u2 < 2 ^ 30)
include F h1

theorem indep_one {a : Nat} (ha : a < 32) (h : smul 6 a u1 = 0) : a = 0 :=
  smul_eq_zero ha h1 (fun h0 => F.c1 (by rw [h0, coord_zero])) h

theorem elim_first (a x : Nat) : elim t1 u1 (smul 6 a u1 ^^^ x) = elim t1 u1 x := by
  rw [elim_xor, elim_smul F.l1, elim_self h1 F.c1, smul_zero, Nat.zero_xor]

include h2

theorem indep_two {a b : Nat} (hb : b < 32) (h : smul 6 a u1 ^^^ smul 6 b u2 = 0) : b = 0 := by
  have h3 := congrArg (elim t1 u1) h
  rw [elim_first F h1, elim_smul F.l1] at h3
  have h0 : elim t1 u1 0 = 0 := by
    have := elim_xor t1 u1 0 0
    rwa [Nat.xor_self, Nat.xor_self] at this
  rw [h0] at h3
  exact smul_eq_zero hb (elim_lt h2) (fun h0 => F.c2 (by rw [h0, coord_zero])) h3

theorem elim_both (a b x : Nat) : elim t2 (elim t1 u1 u2) (elim t1 u1 (smul 6 a u1 ^^^ (smul 6 b u2 ^^^ x))) =
    elim t2 (elim t1 u1 u2) (elim t1 u1 x) := by
  rw [elim_first F h1, elim_xor, elim_smul F.l1, elim_xor, elim_smul F.l2, elim_self (elim_lt h2) F.c2, smul_zero, Nat.zero_xor]

theorem elim_zero (t u : Nat) : elim t u 0 = 0 := by
  have := elim_xor t u 0 0
  rwa [Nat.xor_self, Nat.xor_self] at this

theorem indep_three {a b c v : Nat} (hv : v ∈ l) (hvl : v < 2 ^ 30) (hc : c < 32) (h : smul 6 a u1 ^^^ (smul 6 b u2 ^^^ smul 6 c v) = 0) : c = 0 := by
  have h3 := congrArg (fun x => elim t2 (elim t1 u1 u2) (elim t1 u1 x)) h
  rw [elim_both F h1 h2, elim_smul F.l1, elim_smul F.l2, elim_zero F h1 h2, elim_zero F h1 h2] at h3
  exact smul_eq_zero hc (elim_lt (elim_lt hvl)) (F.ne v hv) h3

theorem indep_four {a b c d i j : Nat} (hi : i < l.length) (hj : j < l.length) (hij : i ≠ j) (hvl : ∀ v ∈ l, v < 2 ^ 30) (hc : c < 32) (hd : d < 32) (hc0 : c ≠ 0) (hd0 : d ≠ 0)
    (h : smul 6 a u1 ^^^ (smul 6 b u2 ^^^ (smul 6 c l[i] ^^^ smul 6 d l[j])) = 0) : False := by
  have h3 := congrArg (fun x => elim t2 (elim t1 u1 u2) (elim t1 u1 x)) h
  rw [elim_both F h1 h2, elim_xor, elim_xor, elim_smul F.l1, elim_smul F.l2, elim_smul F.l1, elim_smul F.l2, elim_zero F h1 h2, elim_zero F h1 h2] at h3
  have h4 := congrArg norm (xor_eq_zero h3)
  have li := hvl _ (List.getElem_mem hi)
  have lj := hvl _ (List.getElem_mem hj)
  rw [norm_smul hc hc0 (elim_lt (elim_lt li)) (F.ne _ (List.getElem_mem hi)), norm_smul hd hd0 (elim_lt (elim_lt lj)) (F.ne _ (List.getElem_mem hj))] at h4
  rcases Nat.lt_or_gt_of_ne hij with hlt | hlt
  · exact (List.pairwise_iff_getElem.1 F.pair) i j hi hj hlt h4
  · exact (List.pairwise_iff_getElem.1 F.pair) j i hj hi hlt h4.symm
end

/-! ## Powers of the step -/

theorem coord_ext : ∀ (n x y : Nat), x < 32 ^ n → y < 32 ^ n → (∀ t < n, coord t x = coord t y) → x = y
  | 0, x, y, hx, hy, _ => by simp at hx hy; omega
  | n + 1, x, y, hx, hy, h => by
    have h0 : x % 32 = y % 32 := by simpa [coord] using h 0 (by omega)
    have hd : x / 32 = y / 32 := by
      rw [Nat.pow_succ] at hx hy
      refine coord_ext n _ _ (Nat.div_lt_of_lt_mul (by omega)) (Nat.div_lt_of_lt_mul (by omega)) fun t ht => ?_
      rw [← coord_succ, ← coord_succ]
      exact h (t + 1) (by omega)
    omega

theorem smul_feedback : ∀ a < 32, ∀ k < 32, smul 6 a (feedback k) = feedback (gmul a k) := by decide +kernel

theorem coord_mod (t c : Nat) (h : t < 5) : coord t (c % 2 ^ 25) = coord t c := by
  unfold coord
  rw [Nat.shiftRight_eq_div_pow, Nat.shiftRight_eq_div_pow]
  have : t = 0 ∨ t = 1 ∨ t = 2 ∨ t = 3 ∨ t = 4 := by omega
  rcases this with rfl | rfl | rfl | rfl | rfl <;> simp only [Nat.reduceMul, Nat.reducePow] <;> omega

theorem smul_shift (a c : Nat) : smul 6 a (shift c) = shift (smul 6 a c) := by
  rw [shift_eq, shift_eq]
  refine coord_ext 6 _ _ (smul_lt _ _ _) (by simp only [Nat.reducePow]; omega) fun t ht => ?_
  rw [coord_smul _ _ _ _ ht]
  cases t with
  | zero =>
    have h : ∀ x : Nat, coord 0 (x * 32) = 0 := by intro x; unfold coord; simp
    rw [h, h, gmul_zero]
  | succ t =>
    rw [coord_succ, coord_succ, Nat.mul_div_cancel _ (by decide), Nat.mul_div_cancel _ (by decide), coord_mod _ _ (by omega), coord_mod _ _ (by omega),
      coord_smul _ _ _ _ (by omega)]

theorem high_coord {c : Nat} (h : c < 2 ^ 30) : c >>> 25 = coord 5 c := by
  unfold coord
  rw [Nat.shiftRight_eq_div_pow]; omega

theorem step_smul {a c : Nat} (ha : a < 32) (h : c < 2 ^ 30) : step (smul 6 a c) = smul 6 a (step c) := by
  unfold step
  rw [smul_xor, smul_shift, high_coord h, high_coord (smul_lt 6 a c), coord_smul _ _ _ _ (by decide), smul_feedback a ha _ (coord_lt _ _)]

theorem iter_lt {c : Nat} (h : c < 2 ^ 30) (n : Nat) : iter n c < 2 ^ 30 :=
  run_lt _ _ h (by simp)

theorem iter_smul {a : Nat} (ha : a < 32) : ∀ (n c : Nat), c < 2 ^ 30 → iter n (smul 6 a c) = smul 6 a (iter n c)
  | 0, _, _ => rfl
  | n + 1, c, h => by rw [iter_succ, iter_succ, step_smul ha h, iter_smul ha n _ (step_lt h)]

theorem smul_unit : ∀ a < 32, smul 6 a 1 = a := by decide +kernel

theorem iter_eq {a : Nat} (ha : a < 32) (n : Nat) : iter n a = smul 6 a (iter n 1) := by
  conv_lhs => rw [← smul_unit a ha]
  exact iter_smul ha n 1 (by decide)

theorem iter_xor (n a b : Nat) : iter n (a ^^^ b) = iter n a ^^^ iter n b := by
  have := run_xor (List.replicate n 0) (List.replicate n 0) a b rfl
  rw [List.zipWith_replicate] at this
  simpa [iter] using this

theorem iter_eq_zero {n c : Nat} (hc : c < 2 ^ 30) (h : iter n c = 0) : c = 0 := by
  by_contra h0
  exact run_zeros_ne n c hc h0 h

theorem powers_eq : powers = (List.range 89).map fun i => iter i 1 := by decide +kernel

theorem powers_get (i : Nat) (h : i < powers.length) : powers[i] = iter i 1 := by
  simp [powers_eq]

theorem checkFrom_get : ∀ (l : List Nat), checkFrom l = true → ∀ i (h : i < l.length), check 1 l[i] (l.drop (i + 1)) = true
  | [], _, _, h => absurd h (Nat.not_lt_zero _)
  | p :: l, hl, 0, _ => by unfold checkFrom at hl; exact (cond_of hl).1
  | p :: l, hl, i + 1, h => by
    unfold checkFrom at hl
    exact checkFrom_get l (cond_of hl).2 i (by simpa using h)

theorem checkTo_get (d : Nat) : ∀ (l before : List Nat), checkTo d l before = true →
    ∀ i (h : i < l.length), check d l[i] ((l.take i).reverse ++ before) = true
  | [], _, _, _, h => absurd h (Nat.not_lt_zero _)
  | p :: l, before, hl, 0, _ => by unfold checkTo at hl; simpa using (cond_of hl).1
  | p :: l, before, hl, i + 1, h => by
    unfold checkTo at hl
    have := checkTo_get d l (p :: before) (cond_of hl).2 i (by simpa using h)
    simpa using this

end Verif.Bech32
