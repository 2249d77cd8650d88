import Verif.Model.Random
/-!
# C107: pseudo random values are in their ranges
-/
namespace Verif.Random

/-- **C107** A random duration is at most the given one, and less than it by at most the given part of it, up to a millisecond. -/
theorem C107_duration (draw : Draw) (hd : Lawful draw) (expiration : Int) (h0 : 0 ≤ expiration) (h63 : expiration < 2 ^ 63) (ratio : UInt8) :
    ∃ r, duration draw expiration ratio = some r ∧ r ≤ expiration ∧
      (ratio ≠ 0 → expiration - expiration / ratio.toNat - 1000000 < r) ∧ (ratio = 0 → r = expiration) := by
  unfold duration
  by_cases hr : ratio = 0
  · exact ⟨expiration, by rw [if_pos hr], Int.le_refl _, fun h => absurd hr h, fun _ => rfl⟩
  · rw [if_neg hr]
    have hrp : 0 < ratio.toNat := by
      rcases Nat.eq_zero_or_pos ratio.toNat with h | h
      · exact absurd (UInt8.toNat_inj.1 h) hr
      · exact h
    have e1 : expiration.tdiv 1000000 = expiration / 1000000 := Int.tdiv_eq_ediv_of_nonneg h0
    have hm0 : 0 ≤ expiration / 1000000 := Int.ediv_nonneg h0 (by decide)
    have e2 : (expiration / 1000000).tdiv ratio.toNat = expiration / 1000000 / ratio.toNat := Int.tdiv_eq_ediv_of_nonneg hm0
    dsimp only
    rw [e1, e2]
    generalize hm : expiration / 1000000 = m at *
    have hl0 : 0 ≤ m / (ratio.toNat : Int) := Int.ediv_nonneg hm0 (by omega)
    have hlm : m / (ratio.toNat : Int) ≤ m := Int.ediv_le_self _ hm0
    have hmul : m / (ratio.toNat : Int) * 1000000 ≤ expiration / (ratio.toNat : Int) := by
      rw [Int.le_ediv_iff_mul_le (by omega)]
      have := Int.ediv_mul_le m (b := (ratio.toNat : Int)) (by omega)
      calc m / (ratio.toNat : Int) * 1000000 * ratio.toNat = (m / (ratio.toNat : Int) * ratio.toNat) * 1000000 := by
              rw [Int.mul_assoc, Int.mul_comm 1000000, ← Int.mul_assoc]
        _ ≤ m * 1000000 := Int.mul_le_mul_of_nonneg_right this (by decide)
        _ ≤ expiration := by omega
    generalize hl : m / (ratio.toNat : Int) = l at *
    by_cases hlz : l = 0
    · rw [if_pos hlz]
      refine ⟨expiration, rfl, Int.le_refl _, fun _ => ?_, fun _ => rfl⟩
      have : 0 ≤ expiration / (ratio.toNat : Int) := Int.ediv_nonneg h0 (by omega)
      omega
    · rw [if_neg hlz]
      have el : toU64 l = l := Int.emod_eq_of_lt hl0 (by omega)
      have em : toU64 m = m := Int.emod_eq_of_lt hm0 (by omega)
      have hn : next draw 0 l = draw 0 l := if_neg (by omega)
      have := hd 0 l hl0
      rw [el, em, hn]
      generalize draw 0 l = x at *
      have ex : toU64 (m - x) = m - x := Int.emod_eq_of_lt (by omega) (by omega)
      have ei : toI64 (m - x) = m - x := if_pos (by omega)
      rw [ex, ei]
      refine ⟨(m - x) * 1000000, if_pos ⟨by omega, by omega⟩, by omega, fun _ => by omega, fun h => absurd h hr⟩

/-- Every millisecond of the range is given by some draw. -/
theorem C107_reaches (expiration : Int) (h0 : 0 ≤ expiration) (h63 : expiration < 2 ^ 63) (ratio : UInt8) (hr : ratio ≠ 0) (k : Int) (hk : 0 ≤ k)
    (hk2 : k ≤ expiration / 1000000 / ratio.toNat) (hne : expiration / 1000000 / ratio.toNat ≠ 0) :
    ∃ draw, Lawful draw ∧ duration draw expiration ratio = some ((expiration / 1000000 - k) * 1000000) := by
  refine ⟨fun a b => if a ≤ k ∧ k ≤ b then k else a, fun a b h => by dsimp only; split <;> omega, ?_⟩
  unfold duration
  rw [if_neg hr]
  have e1 : expiration.tdiv 1000000 = expiration / 1000000 := Int.tdiv_eq_ediv_of_nonneg h0
  have hm0 : 0 ≤ expiration / 1000000 := Int.ediv_nonneg h0 (by decide)
  have e2 : (expiration / 1000000).tdiv ratio.toNat = expiration / 1000000 / ratio.toNat := Int.tdiv_eq_ediv_of_nonneg hm0
  dsimp only
  rw [e1, e2, if_neg hne]
  generalize hm : expiration / 1000000 = m at *
  have hlm : m / (ratio.toNat : Int) ≤ m := Int.ediv_le_self _ hm0
  generalize hl : m / (ratio.toNat : Int) = l at *
  have el : toU64 l = l := Int.emod_eq_of_lt (by omega) (by omega)
  have em : toU64 m = m := Int.emod_eq_of_lt hm0 (by omega)
  rw [el, em]
  unfold next
  rw [if_neg (by omega)]
  show millisToNanos (toI64 (toU64 (m - (if 0 ≤ k ∧ k ≤ l then k else 0)))) = _
  rw [if_pos ⟨hk, hk2⟩]
  have ex : toU64 (m - k) = m - k := Int.emod_eq_of_lt (by omega) (by omega)
  have ei : toI64 (m - k) = m - k := if_pos (by omega)
  rw [ex, ei]
  exact if_pos ⟨by omega, by omega⟩

/-- A random integer is in its range, and zero if the range is empty; a random byte is in its range, if that is not empty. -/
theorem C107_next (draw : Draw) (hd : Lawful draw) (first last : Int) (a b : UInt8) :
    (first ≤ last → first ≤ next draw first last ∧ next draw first last ≤ last) ∧ (last < first → next draw first last = 0) ∧
    (a ≤ b → ∃ c, nextByte draw a b = some c ∧ a ≤ c ∧ c ≤ b) ∧ (b < a → nextByte draw a b = none) := by
  refine ⟨fun h => ?_, fun h => if_pos h, fun h => ?_, fun h => if_pos h⟩
  · unfold next
    rw [if_neg (by omega)]
    exact hd _ _ h
  · have h' : a.toNat ≤ b.toNat := UInt8.le_iff_toNat_le.1 h
    have := hd a.toNat b.toNat (by omega)
    have hb := b.toNat_lt
    refine ⟨_, if_neg (fun hh => ?_), ?_, ?_⟩
    · have := UInt8.lt_iff_toNat_lt.1 hh; omega
    · rw [UInt8.le_iff_toNat_le, UInt8.toNat_ofNat', Nat.mod_eq_of_lt (by omega)]; omega
    · rw [UInt8.le_iff_toNat_le, UInt8.toNat_ofNat', Nat.mod_eq_of_lt (by omega)]; omega

/-- `fill` keeps the size and every byte is defined. -/
theorem C107_fill (draws : Nat → Draw) (hd : ∀ i, Lawful (draws i)) (size : Nat) :
    (fill draws size).length = size ∧ ∀ x ∈ fill draws size, x ≠ none := by
  unfold fill
  refine ⟨by simp, fun x hx => ?_⟩
  obtain ⟨i, -, rfl⟩ := List.mem_map.1 hx
  obtain ⟨c, h, -⟩ := (C107_next (draws i) (hd i) 0 0 0 255).2.2.1 (by decide)
  rw [h]
  exact Option.some_ne_none _

/-- Finding 99: of a negative duration the offset is drawn from nearly all of 64 bits: the result is greater than the duration, or overflows. -/
theorem C107_negative_counterexample :
    (∃ draw, Lawful draw ∧ duration draw (-10000000000) 4 = none) ∧ (∃ draw, Lawful draw ∧ duration draw (-10000000000) 4 = some (9000000000)) := by
  refine ⟨⟨fun a b => if a ≤ 2 ^ 62 ∧ 2 ^ 62 ≤ b then 2 ^ 62 else a, fun a b h => by dsimp only; split <;> omega, by decide +kernel⟩,
    ⟨fun a b => if a ≤ 2 ^ 64 - 19000 ∧ 2 ^ 64 - 19000 ≤ b then 2 ^ 64 - 19000 else a, fun a b h => by dsimp only; split <;> omega, by decide +kernel⟩⟩

-- Ten seconds and a ratio of four: between seven and a half and ten seconds.
example : Lawful (fun a _ => a) ∧ duration (fun a _ => a) 10000000000 4 = some 10000000000 :=
  ⟨fun a b h => ⟨Int.le_refl a, h⟩, by decide +kernel⟩
example : Lawful (fun _ b => b) ∧ duration (fun _ b => b) 10000000000 4 = some 7500000000 :=
  ⟨fun a b h => ⟨h, Int.le_refl b⟩, by decide +kernel⟩

end Verif.Random
