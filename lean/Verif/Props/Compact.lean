import Verif.Lemmas.Compact
/-!
# Properties C12, C13: compact difficulty and block work

`compress`/`expand` are `chain::compact::compress`/`expand`; a compact word is `exponent * 2^24 + mantissa`.
The library's `compress` is wrong exactly on the powers of 256 (its exponent is `ceil(log256 n)`, one less than
the byte count there), so the positive theorems exclude those and the failure is exhibited.
-/
namespace Verif

/-- The number a compact word denotes on paper: mantissa times `256^(exponent - 3)`, rounded down. -/
def compactMeaning (exponent mantissa : Nat) : Nat := mantissa * 256 ^ exponent / 256 ^ 3

theorem floatVal_meaning (e m : Nat) : floatVal e m = compactMeaning e m := by
  unfold floatVal compactMeaning
  split
  · rename_i h
    rw [show 256 ^ e = 256 ^ (e - 3) * 256 ^ 3 by rw [← Nat.pow_add]; congr 1; omega, ← Nat.mul_assoc,
      Nat.mul_div_cancel _ (by decide)]
  · rename_i h
    rw [show (256 : Nat) ^ 3 = 256 ^ (3 - e) * 256 ^ e by rw [← Nat.pow_add]; congr 1; omega,
      Nat.mul_div_mul_right _ _ (Nat.pow_pos (by omega))]

/-- What every compact word expands to: zero when the sign bit is set or the exponent is out of range, otherwise its
meaning. (Exponent 33 is in range exactly for two-byte mantissas with their top bit set.) -/
theorem C12_expand_meaning (exponent mantissa : Nat) (hm : mantissa < 2 ^ 24) :
    expand (exponent * 2 ^ 24 + mantissa) =
      if mantissa < 2 ^ 23 ∧ (exponent ≤ 32 ∨ (exponent = 33 ∧ 0x8000 ≤ mantissa ∧ mantissa ≤ 0xffff))
      then compactMeaning exponent mantissa else 0 := by
  rw [expand_eq _ _ hm]
  by_cases h : 2 ^ 23 ≤ mantissa
  · rw [if_pos h, if_neg (by omega)]
  · rw [if_neg h]
    by_cases h1 : exponent ≤ 32
    · rw [if_pos h1, if_pos (by omega), floatVal_meaning]
    · rw [if_neg h1]
      by_cases h2 : exponent = 33 ∧ 2 ^ 15 ≤ mantissa ∧ mantissa < 2 ^ 16
      · rw [if_pos h2, if_pos (by omega), ← floatVal_meaning, h2.1]
        simp [floatVal]
      · rw [if_neg h2, if_neg (by omega)]

/-- Zero is returned exactly on: sign bit set, exponent out of range, or nothing left of the mantissa. -/
theorem C12_expand_zero_iff (exponent mantissa : Nat) (hm : mantissa < 2 ^ 24) :
    expand (exponent * 2 ^ 24 + mantissa) = 0 ↔
      (2 ^ 23 ≤ mantissa ∨ 33 < exponent ∨ (exponent = 33 ∧ ¬ (0x8000 ≤ mantissa ∧ mantissa ≤ 0xffff)) ∨
        mantissa * 256 ^ exponent < 256 ^ 3) := by
  rw [C12_expand_meaning _ _ hm]
  split
  · rename_i h
    unfold compactMeaning
    rw [Nat.div_eq_zero_iff]
    constructor
    · rintro (h | h)
      · simp at h
      · exact .inr (.inr (.inr h))
    · rintro (h1 | h1 | h1 | h1)
      · omega
      · omega
      · omega
      · exact .inr h1
  · rename_i h
    simp only [true_iff]
    omega

/-- Every target fits in 256 bits, and is below `2^256 - 1`. -/
theorem C12_expand_bounded (b : Nat) : expand b + 1 < 2 ^ 256 := by
  have hb : b = (b / 2 ^ 24) * 2 ^ 24 + b % 2 ^ 24 := by omega
  rw [hb, C12_expand_meaning _ _ (Nat.mod_lt _ (by decide))]
  generalize b / 2 ^ 24 = e
  have hm : b % 2 ^ 24 < 2 ^ 24 := Nat.mod_lt _ (by decide)
  generalize b % 2 ^ 24 = m at *
  split
  · rename_i h
    obtain ⟨h1, h2⟩ := h
    have hp : ∀ x y c : Nat, x ≤ y → m ≤ c → c * 256 ^ y + 256 ^ 3 < 2 ^ 256 * 256 ^ 3 →
        m * 256 ^ x / 256 ^ 3 + 1 < 2 ^ 256 := by
      intro x y c hxy hc hlt
      have : m * 256 ^ x ≤ c * 256 ^ y := Nat.mul_le_mul hc (Nat.pow_le_pow_right (by omega) hxy)
      have h4 : m * 256 ^ x / 256 ^ 3 * 256 ^ 3 ≤ m * 256 ^ x := Nat.div_mul_le_self _ _
      have h5 : (m * 256 ^ x / 256 ^ 3 + 1) * 256 ^ 3 < 2 ^ 256 * 256 ^ 3 := by rw [Nat.add_mul]; omega
      exact Nat.lt_of_mul_lt_mul_right h5
    unfold compactMeaning
    rcases h2 with h2 | ⟨h2, h3, h4⟩
    · exact hp e 32 (2 ^ 23) h2 (by omega) (by decide)
    · exact hp e 33 0xffff (by omega) h4 (by decide)
  · decide

/-- Compressing never raises the number and loses less than one part in `2^15` (all numbers but powers of 256). -/
theorem C12_compress_loss_partial (n : Nat) (hn : 0 < n) (h256 : n < 2 ^ 256) (hp : ∀ k, n ≠ 256 ^ k) :
    expand (compress n) ≤ n ∧ (n - expand (compress n)) * 2 ^ 15 < n := by
  obtain ⟨e, m, hc, h1, h33, hm1, hm2, hs, he⟩ := expand_compress n h256 hn hp
  rw [he, hs]
  exact floatVal_sig e n (hs ▸ hm1)

/-- Compressed words never have the sign bit set, are 32 bits wide and never denote zero. -/
theorem C12_compress_wellformed_partial (n : Nat) (hn : 0 < n) (h256 : n < 2 ^ 256) (hp : ∀ k, n ≠ 256 ^ k) :
    compress n < 2 ^ 32 ∧ (compress n).testBit 23 = false ∧ expand (compress n) ≠ 0 := by
  obtain ⟨e, m, hc, h1, h33, hm1, hm2, hs, he⟩ := expand_compress n h256 hn hp
  refine ⟨by rw [hc]; omega, by rw [hc, dec_neg _ _ (by omega)]; simp; omega, ?_⟩
  have := (C12_compress_loss_partial n hn h256 hp).2
  intro h0
  rw [h0] at this
  omega

/-- Compression is monotone (numbers other than powers of 256). -/
theorem C12_compress_monotone_partial (a b : Nat) (ha : 0 < a) (hab : a ≤ b) (hb : b < 2 ^ 256)
    (hpa : ∀ k, a ≠ 256 ^ k) (hpb : ∀ k, b ≠ 256 ^ k) : compress a ≤ compress b := by
  obtain ⟨e, m, hc, h1, h33, hm1, hm2, hs, _⟩ := expand_compress a (by omega) ha hpa
  obtain ⟨e', m', hc', h1', h33', hm1', hm2', hs', _⟩ := expand_compress b hb (by omega) hpb
  rw [hc, hc']
  have hle : e ≤ e' := by
    refine sig_unique e e' a (hs ▸ hm1) ?_
    exact Nat.lt_of_le_of_lt (sig_mono e' hab) (hs' ▸ hm2')
  rcases Nat.lt_or_eq_of_le hle with h | h
  · have : (e + 1) * 2 ^ 24 ≤ e' * 2 ^ 24 := Nat.mul_le_mul_right _ h
    omega
  · subst h
    have : m ≤ m' := by rw [hs, hs']; exact sig_mono e hab
    omega

/-- Compressing an expanded compressed word gives the word back, unless the word denotes a power of 256. -/
theorem C12_compress_stable_partial (n : Nat) (hn : 0 < n) (h256 : n < 2 ^ 256) (hp : ∀ k, n ≠ 256 ^ k)
    (hq : ∀ k, expand (compress n) ≠ 256 ^ k) : compress (expand (compress n)) = compress n := by
  obtain ⟨e, m, hc, h1, h33, hm1, hm2, hs, he⟩ := expand_compress n h256 hn hp
  have hle := (C12_compress_loss_partial n hn h256 hp).1
  have hne := (C12_compress_wellformed_partial n hn h256 hp).2.2
  obtain ⟨e', m', hc', h1', h33', hm1', hm2', hs', _⟩ := expand_compress (expand (compress n)) (by omega) (by omega) hq
  have hsig : sig e (expand (compress n)) = m := by rw [he]; exact sig_floatVal e m n hs
  have he' : e = e' := by
    apply Nat.le_antisymm
    · exact sig_unique e e' _ (by rw [hsig]; exact hm1) (hs' ▸ hm2')
    · exact sig_unique e' e _ (hs' ▸ hm1') (by rw [hsig]; exact hm2)
  subst he'
  rw [hsig] at hs'
  rw [hc', hc, hs']

/-- On powers of 256 the compressed word denotes zero: the full claims of C12 are false of the code. -/
theorem C12_power_counterexample : ∀ k ≤ 31, expand (compress (256 ^ k)) = 0 := by decide

/-- The stability claim is also false for words the library itself produces. -/
theorem C12_stable_counterexample : compress (256 ^ 5 + 1) = 0x06010000 ∧ expand 0x06010000 = 256 ^ 5 ∧
    compress (expand (compress (256 ^ 5 + 1))) = 0x05000000 := by decide

/-- Non-vacuity: mainnet and regtest limits. -/
example : compress (expand 0x1d00ffff) = 0x1d00ffff ∧ expand 0x1d00ffff = 0xffff * 256 ^ 26 ∧
    compress (expand 0x207fffff) = 0x207fffff ∧ compress (2 ^ 256 - 1) = 0x2100ffff := by decide

/-! ## C13 -/

/-- The work of a block is `2^256 / (target + 1)` rounded down when the target is valid and zero otherwise;
the 256-bit computation never overflows or divides by zero. -/
theorem C13_proof_value (bits : Nat) :
    headerProof bits = if expand bits = 0 then 0 else 2 ^ 256 / (expand bits + 1) := by
  have hb := C12_expand_bounded bits
  unfold headerProof
  simp only
  split
  · rfl
  · rename_i h
    generalize expand bits = t at *
    rw [Nat.mod_eq_of_lt hb]
    have e : (2 ^ 256 - 1 - t) / (t + 1) + 1 = 2 ^ 256 / (t + 1) := by
      rw [← Nat.add_div_right _ (by omega)]
      congr 1; omega
    rw [e]
    apply Nat.mod_eq_of_lt
    apply Nat.div_lt_of_lt_mul
    have : 2 * 2 ^ 256 ≤ (t + 1) * 2 ^ 256 := Nat.mul_le_mul_right _ (by omega)
    have : (0 : Nat) < 2 ^ 256 := by decide
    omega

/-- Among valid targets, a smaller target never has less work, and work is always positive. -/
theorem C13_proof_antitone (a b : Nat) (ha : expand a ≠ 0) (hab : expand a ≤ expand b) :
    headerProof b ≤ headerProof a ∧ 0 < headerProof b := by
  have hb : expand b ≠ 0 := by omega
  have := C12_expand_bounded b
  rw [C13_proof_value, C13_proof_value, if_neg ha, if_neg hb]
  exact ⟨Nat.div_le_div_left (by omega) (by omega), Nat.div_pos (by omega) (by omega)⟩

example : headerProof 0x1d00ffff = 0x100010001 ∧ headerProof 0x207fffff = 2 := by decide

end Verif
