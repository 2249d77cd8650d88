import Verif.Model.Settings
import Verif.Props.Validate

/-! # C17: the amount of money -/

namespace Verif.Settings
open Verif Verif.Validate Finset

theorem sum_halving (s : Nat) : ∀ K, ∑ k ∈ range (K + 1), s / 2 ^ k = s + ∑ k ∈ range K, s / 2 / 2 ^ k := by
  intro K
  rw [sum_range_succ', pow_zero, Nat.div_one, Nat.add_comm]
  congr 1
  apply sum_congr rfl
  intro k _
  rw [Nat.div_div_eq_div_mul, pow_succ, Nat.mul_comm]

/-- The recursion is the sum of all halvings, unless that does not fit 64 bits. -/
theorem total_eq (K : Nat) : ∀ s, s < 2 ^ K → total s = (if ∑ k ∈ range K, s / 2 ^ k < 2 ^ 64 then some (∑ k ∈ range K, s / 2 ^ k) else none) := by
  induction K with
  | zero =>
    intro s hs
    have : s = 0 := by simpa using hs
    subst this
    rw [total]; simp
  | succ K ih =>
    intro s hs
    rw [sum_halving, total]
    by_cases h0 : s = 0
    · subst h0; simp
    · rw [dif_neg h0, ih (s / 2) (by rw [pow_succ] at hs; omega)]
      generalize ∑ k ∈ range K, s / 2 / 2 ^ k = x
      by_cases h1 : x < 2 ^ 64
      · rw [if_pos h1]; rfl
      · rw [if_neg h1, if_neg (by omega)]; rfl

/-- **C17 (all money).** For any initial subsidy and interval of 64 bits, the amount of money computed is exactly the sum of the subsidies of all
blocks from any height on at which they have ended, whatever the number of blocks after; no number of blocks has more; and
it is computed just when it fits 64 bits. -/
theorem C17_max_money (initial interval : Nat) (hi : 0 < interval) (hs : initial < 2 ^ 64) (m : Nat) :
    maxMoney initial interval = some m ↔ m < 2 ^ 64 ∧ (∀ N, 64 * interval ≤ N → ∑ h ∈ range N, subsidy h interval initial true = m) := by
  have e : ∀ h, subsidy h interval initial true = initial / 2 ^ (h / interval) := fun h => C17_halving h _ _ hs
  have hz : ∀ k, 64 ≤ k → initial / 2 ^ k = 0 := fun k hk => Nat.div_eq_of_lt (lt_of_lt_of_le hs (Nat.pow_le_pow_right (by omega) hk))
  have hsum : ∀ N, 64 * interval ≤ N → ∑ h ∈ range N, subsidy h interval initial true = (∑ k ∈ range 64, initial / 2 ^ k) * interval := by
    intro N hN
    simp only [e]
    apply le_antisymm
    · rw [Nat.mul_comm]
      exact sum_le_intervals (fun k => initial / 2 ^ k) interval hi 64 hz N
    · rw [Nat.mul_comm, ← sum_intervals (fun k => initial / 2 ^ k) interval hi 64]
      exact sum_le_sum_of_subset (range_mono (by rw [Nat.mul_comm]; exact hN))
  unfold maxMoney
  rw [total_eq 64 initial hs]
  generalize ∑ k ∈ range 64, initial / 2 ^ k = x at hsum
  have hx : x ≤ x * interval := Nat.le_mul_of_pos_right x hi
  by_cases h1 : x < 2 ^ 64
  · rw [if_pos h1, Option.bind_some]
    by_cases h2 : x * interval < 2 ^ 64
    · rw [if_pos h2]
      constructor
      · intro h; cases h; exact ⟨h2, hsum⟩
      · intro h; rw [← h.2 _ (le_refl _), hsum _ (le_refl _)]
    · rw [if_neg h2]
      exact ⟨fun h => (by cases h), fun h => by have := h.2 _ (le_refl _); rw [hsum _ (le_refl _)] at this; omega⟩
  · rw [if_neg h1]
    exact ⟨fun h => (by cases h), fun h => by have := h.2 _ (le_refl _); rw [hsum _ (le_refl _)] at this; omega⟩

/-- **C17 (bound).** No number of blocks has more. -/
theorem C17_max_money_bound (initial interval : Nat) (hi : 0 < interval) (hs : initial < 2 ^ 64) (m : Nat) (hm : maxMoney initial interval = some m) (N : Nat) :
    ∑ h ∈ range N, subsidy h interval initial true ≤ m := by
  have h := ((C17_max_money initial interval hi hs m).1 hm).2 (64 * interval + N) (by omega)
  rw [← h]
  exact sum_le_sum_of_subset (range_mono (by omega))

/-- **C17 (units).** The subsidy of the first block in satoshis: 10^8 for each bitcoin, and no result (not a wrapped one) exactly if that has more
than 64 bits. -/
theorem C17_initial_subsidy (bitcoin : Nat) :
    (∀ n, initialSubsidy bitcoin = some n ↔ n = 10 ^ 8 * bitcoin ∧ n < 2 ^ 64) ∧ (initialSubsidy bitcoin = none ↔ 2 ^ 64 ≤ 10 ^ 8 * bitcoin) := by
  unfold initialSubsidy
  have e : 10 ^ 8 * bitcoin = bitcoin * 100000000 := by omega
  rw [e]
  by_cases h : bitcoin * 100000000 < 2 ^ 64
  · rw [if_pos h]
    constructor
    · intro n
      constructor
      · intro hh; injection hh with hh; omega
      · rintro ⟨rfl, _⟩; rfl
    · constructor
      · intro hh; cases hh
      · intro hh; omega
  · rw [if_neg h]
    constructor
    · intro n
      constructor
      · intro hh; cases hh
      · intro hh; omega
    · constructor
      · intro _; omega
      · intro _; rfl

/-- **C17 (main network).** -/
theorem C17_max_money_mainnet : (initialSubsidy 50).bind (fun s => maxMoney s 210000) = some 2099999997690000 := by
  have : initialSubsidy 50 = some 5000000000 := by decide
  rw [this, Option.bind_some]
  refine (C17_max_money 5000000000 210000 (by decide) (by decide) _).2 ⟨by decide, fun N hN => (C17_mainnet N).2 (by omega)⟩

example : maxMoney (2 ^ 63) 210000 = none := by
  cases h : maxMoney (2 ^ 63) 210000 with
  | none => rfl
  | some m =>
    have h1 := ((C17_max_money (2 ^ 63) 210000 (by decide) (by decide) m).1 h).1
    have h2 := C17_max_money_bound (2 ^ 63) 210000 (by decide) (by decide) m h 3
    have : ∑ h ∈ range 3, subsidy h 210000 (2 ^ 63) true = 3 * 2 ^ 63 := by decide
    omega

end Verif.Settings
