import Verif.Model.Compact
/-! Helper lemmas: compact difficulty arithmetic. -/
namespace Verif

theorem clog2_le (n : Nat) (h : 2 ≤ n) : n ≤ 2 ^ clog2 n := by
  unfold clog2
  rw [if_neg (by omega)]
  have := Nat.lt_log2_self (n := n - 1)
  omega

theorem clog2_lt (n : Nat) (h : 2 ≤ n) : 2 ^ (clog2 n - 1) < n := by
  unfold clog2
  rw [if_neg (by omega)]
  have := Nat.log2_self_le (n := n - 1) (by omega)
  simp only [Nat.add_sub_cancel]
  omega

theorem pow256 (k : Nat) : 256 ^ k = 2 ^ (8 * k) := by rw [Nat.pow_mul]

theorem clog256_bounds (n : Nat) (h : 2 ≤ n) : 1 ≤ clog256 n ∧ 256 ^ (clog256 n - 1) < n ∧ n ≤ 256 ^ clog256 n := by
  have h1 := clog2_le n h
  have h2 := clog2_lt n h
  have hpos : 1 ≤ clog2 n := by
    cases hc : clog2 n with
    | zero => rw [hc] at h1; omega
    | succ => omega
  unfold clog256
  refine ⟨by omega, ?_, ?_⟩
  · rw [pow256]
    refine Nat.lt_of_le_of_lt (Nat.pow_le_pow_right (by omega) ?_) h2
    omega
  · rw [pow256]
    refine Nat.le_trans h1 (Nat.pow_le_pow_right (by omega) ?_)
    omega

/-- The mantissa of `n` at exponent `e`. -/
def sig (e n : Nat) : Nat := if 3 < e then n / 256 ^ (e - 3) else n * 256 ^ (3 - e)

/-- The number with exponent `e` and mantissa `m`. -/
def floatVal (e m : Nat) : Nat := if 3 < e then m * 256 ^ (e - 3) else m / 256 ^ (3 - e)

theorem shl_or (e m : Nat) (h : m < 2 ^ 24) : e <<< 24 ||| m = e * 2 ^ 24 + m := by
  rw [Nat.shiftLeft_eq, Nat.mul_comm, Nat.two_pow_add_eq_or_of_lt h]

theorem dec_exp (e m : Nat) (h : m < 2 ^ 24) : (e * 2 ^ 24 + m) >>> 24 = e := by
  rw [Nat.shiftRight_eq_div_pow]; omega

theorem dec_man (e m : Nat) (h : m < 2 ^ 24) : (e * 2 ^ 24 + m) % 2 ^ 24 = m := by omega

theorem dec_neg (e m : Nat) (h : m < 2 ^ 24) : (e * 2 ^ 24 + m).testBit 23 = decide (2 ^ 23 ≤ m) := by
  rw [Nat.testBit_eq_decide_div_mod_eq]
  congr 1
  apply propext
  omega

theorem base256Compress_eq (n : Nat) (h2 : n < 2 ^ 256) (h0 : 0 < n) (hp : ∀ k, n ≠ 256 ^ k) :
    1 ≤ clog256 n ∧ clog256 n ≤ 32 ∧ base256Compress n = clog256 n * 2 ^ 24 + sig (clog256 n) n ∧
    2 ^ 16 ≤ sig (clog256 n) n ∧ sig (clog256 n) n < 2 ^ 24 := by
  have hn : 2 ≤ n := by have := hp 0; simp at this; omega
  obtain ⟨b1, b2, b3⟩ := clog256_bounds n hn
  have b4 : n < 256 ^ clog256 n := Nat.lt_of_le_of_ne b3 (hp _)
  have hb : base256Compress n = (((8 * clog256 n) / 8) <<< 24 |||
      (if 8 * clog256 n > 24 then n >>> (8 * clog256 n - 24) else n <<< (24 - 8 * clog256 n)) % 2 ^ 32) % 2 ^ 32 := by
    unfold base256Compress
    rw [if_neg (by omega)]
  generalize clog256 n = k at *
  have hk : k ≤ 32 := by
    apply Nat.le_of_not_lt
    intro hk
    have : 256 ^ 32 ≤ 256 ^ (k - 1) := Nat.pow_le_pow_right (by omega) (by omega)
    have : (256 : Nat) ^ 32 = 2 ^ 256 := by decide
    omega
  have hs : 2 ^ 16 ≤ sig k n ∧ sig k n < 2 ^ 24 := by
    unfold sig
    split
    · rename_i h
      have e1 : 256 ^ (k - 1) = 2 ^ 16 * 256 ^ (k - 3) := by
        rw [show k - 1 = 2 + (k - 3) by omega, Nat.pow_add]
      have e2 : 256 ^ k = 2 ^ 24 * 256 ^ (k - 3) := by
        conv => lhs; rw [show k = 3 + (k - 3) by omega, Nat.pow_add]
      have hpos : 0 < 256 ^ (k - 3) := Nat.pow_pos (by omega)
      refine ⟨(Nat.le_div_iff_mul_le hpos).mpr (by omega), (Nat.div_lt_iff_lt_mul hpos).mpr (by omega)⟩
    · rename_i h
      have : k = 1 ∨ k = 2 ∨ k = 3 := by omega
      rcases this with rfl | rfl | rfl <;> simp at b2 b4 ⊢ <;> omega
  refine ⟨b1, hk, ?_, hs⟩
  have hm : (if 8 * k > 24 then n >>> (8 * k - 24) else n <<< (24 - 8 * k)) = sig k n := by
    unfold sig
    by_cases h : 3 < k
    · rw [if_pos (by omega), if_pos h, Nat.shiftRight_eq_div_pow, pow256]
      congr 2; omega
    · rw [if_neg (by omega), if_neg h, Nat.shiftLeft_eq, pow256]
      congr 2; omega
  rw [hb, hm, Nat.mod_eq_of_lt (a := sig k n) (by omega), Nat.mul_div_cancel_left k (by omega), shl_or k _ hs.2]
  omega

theorem sig_succ (k n : Nat) : sig k n / 256 = sig (k + 1) n := by
  unfold sig
  by_cases h : 3 < k
  · rw [if_pos h, if_pos (by omega), Nat.div_div_eq_div_mul, ← Nat.pow_succ]
    congr 2; omega
  · rw [if_neg h]
    by_cases h3 : k = 3
    · subst h3; simp
    · rw [if_neg (by omega), show 3 - k = (3 - (k + 1)) + 1 by omega, Nat.pow_succ, ← Nat.mul_assoc,
        Nat.mul_div_cancel _ (by omega)]

theorem compress_spec (n : Nat) (h2 : n < 2 ^ 256) (h0 : 0 < n) (hp : ∀ k, n ≠ 256 ^ k) :
    ∃ e m, compress n = e * 2 ^ 24 + m ∧ 1 ≤ e ∧ e ≤ 33 ∧ 2 ^ 15 ≤ m ∧ m < 2 ^ 23 ∧ m = sig e n ∧
      (e = 33 → m < 2 ^ 16) := by
  obtain ⟨h1, h3, hc, hs1, hs2⟩ := base256Compress_eq n h2 h0 hp
  unfold compress
  rw [hc]
  simp only [dec_exp _ _ hs2, dec_man _ _ hs2, dec_neg _ _ hs2, decide_eq_true_eq]
  split
  · rename_i h
    refine ⟨clog256 n + 1, sig (clog256 n + 1) n, ?_, by omega, by omega, ?_, ?_, rfl, ?_⟩
    · rw [Nat.shiftRight_eq_div_pow, show (2 : Nat) ^ 8 = 256 from rfl, sig_succ, shl_or _ _ (by rw [← sig_succ]; omega)]
    · rw [← sig_succ]; omega
    · rw [← sig_succ]; omega
    · intro _; rw [← sig_succ]; omega
  · rename_i h
    exact ⟨_, _, shl_or _ _ hs2, h1, by omega, by omega, by omega, rfl, by omega⟩

theorem base256Expand_eq (e m : Nat) (hm : m < 2 ^ 24) : base256Expand (e * 2 ^ 24 + m) =
    if 32 < e then 0 else floatVal e m := by
  unfold base256Expand floatVal
  simp only [dec_exp _ _ hm, dec_man _ _ hm]
  by_cases h : 32 < e
  · rw [if_pos (by omega), if_pos h]
  · rw [if_neg (by omega), if_neg h]
    by_cases h3 : 3 < e
    · rw [if_pos (by omega), if_pos h3, Nat.shiftLeft_eq, show 8 * e - 24 = 8 * (e - 3) by omega, ← pow256]
      apply Nat.mod_eq_of_lt
      have : 256 ^ (e - 3) ≤ 256 ^ 29 := Nat.pow_le_pow_right (by omega) (by omega)
      calc m * 256 ^ (e - 3) < 2 ^ 24 * 256 ^ (e - 3) := Nat.mul_lt_mul_of_pos_right hm (Nat.pow_pos (by omega))
        _ ≤ 2 ^ 24 * 256 ^ 29 := Nat.mul_le_mul_left _ this
        _ = 2 ^ 256 := by decide
    · rw [if_neg (by omega), if_neg h3, Nat.shiftRight_eq_div_pow, pow256]
      congr 2; omega

theorem negated16 (m : Nat) (hm : m < 2 ^ 24) :
    (isNegated m = true ∧ byteWidth m = 2) ↔ (2 ^ 15 ≤ m ∧ m < 2 ^ 16) := by
  unfold isNegated byteWidth bitWidth
  by_cases h0 : m = 0
  · subst h0; simp
  · simp only [h0, if_false, Bool.and_eq_true, bne_iff_ne, ne_eq, not_false_eq_true, true_and, beq_iff_eq]
    have hl : ∀ k, 2 ^ k ≤ m → m < 2 ^ (k + 1) → m.log2 = k := by
      intro k a b
      have h1 : k ≤ m.log2 := (Nat.le_log2 h0).mpr a
      have h2 : m.log2 < k + 1 := (Nat.log2_lt h0).mpr b
      omega
    constructor
    · rintro ⟨a, b⟩
      have : m.log2 = 15 := by omega
      have l1 := Nat.log2_self_le h0
      have l2 := Nat.lt_log2_self (n := m)
      rw [this] at l1 l2
      exact ⟨l1, l2⟩
    · rintro ⟨a, b⟩
      have := hl 15 a b
      omega

/-- Meaning of `expand` on every 32-bit word with exponent `e` and mantissa field `m`. -/
theorem expand_eq (e m : Nat) (hm : m < 2 ^ 24) : expand (e * 2 ^ 24 + m) =
    if 2 ^ 23 ≤ m then 0
    else if e ≤ 32 then floatVal e m
    else if e = 33 ∧ 2 ^ 15 ≤ m ∧ m < 2 ^ 16 then m * 256 ^ 30
    else 0 := by
  unfold expand
  simp only [dec_exp _ _ hm, dec_man _ _ hm, dec_neg _ _ hm, decide_eq_true_eq, negated16 m hm]
  by_cases h : 2 ^ 23 ≤ m
  · rw [if_pos h, if_pos h]
  · rw [if_neg h, if_neg h]
    by_cases h33 : e = 33 ∧ 2 ^ 15 ≤ m ∧ m < 2 ^ 16
    · rw [if_pos h33, if_neg (by omega), if_pos h33]
      obtain ⟨rfl, a, b⟩ := h33
      rw [Nat.shiftLeft_eq m, show m * 2 ^ 8 = m * 256 from rfl, shl_or _ _ (by omega), base256Expand_eq _ _ (by omega)]
      simp only [floatVal]
      have : (256 : Nat) ^ 30 = 256 * 256 ^ 29 := by decide
      rw [this, ← Nat.mul_assoc]
      rfl
    · rw [if_neg h33, shl_or _ _ hm, base256Expand_eq _ _ hm]
      by_cases h32 : e ≤ 32
      · rw [if_neg (by omega), if_pos h32]
      · rw [if_pos (by omega), if_neg h32, if_neg h33]

theorem floatVal_sig (e n : Nat) (hm : 2 ^ 15 ≤ sig e n) : floatVal e (sig e n) ≤ n ∧
    (n - floatVal e (sig e n)) * 2 ^ 15 < n := by
  unfold floatVal sig at *
  by_cases h : 3 < e
  · simp only [h, if_true] at hm ⊢
    have hpos : 0 < 256 ^ (e - 3) := Nat.pow_pos (by omega)
    generalize 256 ^ (e - 3) = P at *
    have h1 := Nat.div_add_mod n P
    have h2 := Nat.mod_lt n hpos
    have h3 : 2 ^ 15 * P ≤ n / P * P := Nat.mul_le_mul_right _ hm
    rw [Nat.mul_comm] at h1
    constructor <;> omega
  · simp only [h, if_false] at hm ⊢
    rw [Nat.mul_div_cancel _ (Nat.pow_pos (by omega))]
    have : n ≠ 0 := by rintro rfl; simp at hm
    omega

theorem expand_compress (n : Nat) (h2 : n < 2 ^ 256) (h0 : 0 < n) (hp : ∀ k, n ≠ 256 ^ k) :
    ∃ e m, compress n = e * 2 ^ 24 + m ∧ 1 ≤ e ∧ e ≤ 33 ∧ 2 ^ 15 ≤ m ∧ m < 2 ^ 23 ∧ m = sig e n ∧
      expand (compress n) = floatVal e m := by
  obtain ⟨e, m, hc, h1, h33, hm1, hm2, hs, hsm⟩ := compress_spec n h2 h0 hp
  refine ⟨e, m, hc, h1, h33, hm1, hm2, hs, ?_⟩
  rw [hc, expand_eq e m (by omega), if_neg (by omega)]
  by_cases h : e ≤ 32
  · rw [if_pos h]
  · have : e = 33 := by omega
    subst this
    rw [if_neg h, if_pos ⟨rfl, hm1, hsm rfl⟩]
    unfold floatVal; simp

/-- The exponent is determined by the mantissa window. -/
theorem sig_unique (e e' n : Nat) (h : 2 ^ 15 ≤ sig e n) (h' : sig e' n < 2 ^ 23) : e ≤ e' := by
  apply Nat.le_of_not_lt
  intro hlt
  have step : ∀ d, sig (e' + d) n * 256 ^ d ≤ sig e' n := by
    intro d
    induction d with
    | zero => simp
    | succ d ih =>
      rw [show e' + (d + 1) = (e' + d) + 1 by omega, ← sig_succ]
      refine Nat.le_trans ?_ ih
      rw [Nat.pow_succ, Nat.mul_comm (256 ^ d) 256, ← Nat.mul_assoc]
      exact Nat.mul_le_mul_right _ (Nat.div_mul_le_self _ _)
  have := step (e - e')
  rw [show e' + (e - e') = e by omega] at this
  have h2 : 256 ^ 1 ≤ 256 ^ (e - e') := Nat.pow_le_pow_right (by omega) (by omega)
  have h3 : 2 ^ 15 * 256 ^ 1 ≤ sig e n * 256 ^ (e - e') := Nat.mul_le_mul h h2
  omega

theorem sig_mono (e : Nat) {n n' : Nat} (h : n ≤ n') : sig e n ≤ sig e n' := by
  unfold sig
  split
  · exact Nat.div_le_div_right h
  · exact Nat.mul_le_mul_right _ h

theorem sig_floatVal (e m n : Nat) (h : m = sig e n) : sig e (floatVal e m) = m := by
  unfold sig floatVal at *
  by_cases h3 : 3 < e
  · simp only [h3, if_true] at h ⊢
    exact Nat.mul_div_cancel _ (Nat.pow_pos (by omega))
  · simp only [h3, if_false] at h ⊢
    rw [h, Nat.mul_div_cancel _ (Nat.pow_pos (by omega))]

end Verif
