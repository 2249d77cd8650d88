import Verif.Model.Arith
import Mathlib.Algebra.Order.Round
import Mathlib.Algebra.Order.Floor.Ring
import Mathlib.Data.Rat.Floor
import Mathlib.Data.Nat.Log
import Mathlib.Data.Int.ModEq
import Mathlib.Tactic.Linarith
import Mathlib.Tactic.Ring
import Mathlib.Tactic.NormNum
import Mathlib.Tactic.Positivity
import Mathlib.Tactic.FieldSimp
/-!
# Properties C40, C49: saturating and checked arithmetic is exact

Every statement is for an arbitrary C++ integral type `t` (signed or unsigned, any width).
-/
namespace Verif.Arith

/-- `x` is a value of type `t`. -/
def Ty.Has (t : Ty) (x : Int) : Prop := t.min ≤ x ∧ x ≤ t.max

/-- The mathematical clamp of an unbounded result into a type. -/
def Ty.clamp (t : Ty) (x : Int) : Int := Max.max t.min (Min.min t.max x)

def u64 : Ty := ⟨false, 64, by decide⟩
def i64 : Ty := ⟨true, 64, by decide⟩
def i8 : Ty := ⟨true, 8, by decide⟩
def u8 : Ty := ⟨false, 8, by decide⟩

theorem Ty.two_pow (t : Ty) : (2 : Int) ^ t.bits = 2 * 2 ^ (t.bits - 1) := by
  obtain ⟨k, hk⟩ : ∃ k, t.bits = k + 1 := ⟨t.bits - 1, by have := t.pos; omega⟩
  rw [hk, Nat.add_sub_cancel, pow_succ, mul_comm]

theorem Ty.half_pos (t : Ty) : (0 : Int) < 2 ^ (t.bits - 1) := by positivity

theorem Ty.range (t : Ty) : t.max = t.min + 2 ^ t.bits - 1 := by
  have := t.two_pow
  unfold Ty.max Ty.min
  split <;> omega

theorem Ty.min_le_zero (t : Ty) : t.min ≤ 0 := by
  have := t.half_pos
  unfold Ty.min; split <;> omega

theorem Ty.zero_le_max (t : Ty) : 0 ≤ t.max := by
  have := t.half_pos
  have := t.two_pow
  unfold Ty.max; split <;> omega

theorem Ty.cast_of_has {t : Ty} {x : Int} (h : t.Has x) : t.cast x = x := by
  have h1 := t.range
  obtain ⟨h2, h3⟩ := h
  unfold Ty.cast
  rw [Int.emod_eq_of_lt (by omega) (by omega)]
  omega

/-- A cast always gives a value of the type. -/
theorem Ty.has_cast (t : Ty) (x : Int) : t.Has (t.cast x) := by
  have h1 := t.range
  have hp : (0 : Int) < 2 ^ t.bits := by positivity
  have h2 := Int.emod_nonneg (x - t.min) (Int.ne_of_gt hp)
  have h3 := Int.emod_lt_of_pos (x - t.min) hp
  unfold Ty.Has Ty.cast
  omega

/-- `is_add_overflow` says exactly whether the true sum leaves the type. -/
theorem C40_add_overflow (t : Ty) (l r : Int) (hl : t.Has l) (hr : t.Has r) :
    isAddOverflow t l r = true ↔ ¬ t.Has (l + r) := by
  obtain ⟨h1, h2⟩ := hl
  obtain ⟨h3, h4⟩ := hr
  unfold isAddOverflow isNegative Ty.Has
  cases hs : t.signed
  · have : t.min = 0 := by simp [Ty.min, hs]
    simp
    omega
  · have := t.min_le_zero
    have := t.zero_le_max
    simp
    omega

theorem C40_subtract_overflow (t : Ty) (l r : Int) (hl : t.Has l) (hr : t.Has r) :
    isSubtractOverflow t l r = true ↔ ¬ t.Has (l - r) := by
  obtain ⟨h1, h2⟩ := hl
  obtain ⟨h3, h4⟩ := hr
  unfold isSubtractOverflow isNegative Ty.Has
  cases hs : t.signed
  · have : t.min = 0 := by simp [Ty.min, hs]
    simp
    omega
  · have := t.min_le_zero
    have := t.zero_le_max
    simp
    omega

theorem C40_multiply_overflow (t : Ty) (hu : t.signed = false) (l r : Int) (hl : t.Has l) (hr : t.Has r) :
    isMultiplyOverflow t l r = true ↔ ¬ t.Has (l * r) := by
  obtain ⟨h1, h2⟩ := hl
  obtain ⟨h3, h4⟩ := hr
  have h0 : t.min = 0 := by simp [Ty.min, hu]
  have hm := t.zero_le_max
  unfold isMultiplyOverflow Ty.Has
  rw [h0] at h1 h3 ⊢
  by_cases hz : r = 0
  · subst hz; simp; exact hm
  · have hr0 : 0 < r := by omega
    rw [Int.tdiv_eq_ediv_of_nonneg hm]
    simp only [bne_iff_ne, ne_eq, hz, not_false_eq_true, Bool.and_eq_true, decide_eq_true_eq, true_and, gt_iff_lt,
      Int.ediv_lt_iff_lt_mul hr0]
    have : 0 ≤ l * r := Int.mul_nonneg h1 h3
    omega

theorem C40_negate_overflow (t : Ty) (hs : t.signed = true) (x : Int) (hx : t.Has x) :
    isNegateOverflow t x = true ↔ ¬ t.Has (-x) := by
  obtain ⟨h1, h2⟩ := hx
  have := t.half_pos
  unfold isNegateOverflow Ty.Has
  simp [Ty.min, Ty.max, hs] at *
  omega

/-- `ceilinged_add` is the clamp of the true sum. -/
theorem C40_ceilinged_add (t : Ty) (l r : Int) (hl : t.Has l) (hr : t.Has r) :
    ceilingedAdd t l r = t.clamp (l + r) := by
  have h := C40_add_overflow t l r hl hr
  unfold ceilingedAdd
  split
  · rename_i hc
    have h5 := h.1 hc
    obtain ⟨h1, h2⟩ := hl
    obtain ⟨h3, h4⟩ := hr
    have := t.min_le_zero
    have := t.zero_le_max
    unfold Ty.Has at h5
    unfold isNegative Ty.clamp
    cases hs : t.signed
    · have h0 : t.min = 0 := by simp [Ty.min, hs]
      simp; omega
    · simp; split <;> omega
  · rename_i hc
    have h5 : t.Has (l + r) := by
      by_contra hn; exact hc (h.2 hn)
    unfold add
    rw [Ty.cast_of_has h5]
    unfold Ty.Has at h5; unfold Ty.clamp; omega

/-- `floored_subtract` is the clamp of the true difference. -/
theorem C40_floored_subtract (t : Ty) (l r : Int) (hl : t.Has l) (hr : t.Has r) :
    flooredSubtract t l r = t.clamp (l - r) := by
  have h := C40_subtract_overflow t l r hl hr
  unfold flooredSubtract
  split
  · rename_i hc
    have h5 := h.1 hc
    obtain ⟨h1, h2⟩ := hl
    obtain ⟨h3, h4⟩ := hr
    have := t.min_le_zero
    have := t.zero_le_max
    unfold Ty.Has at h5
    unfold isNegative Ty.clamp
    cases hs : t.signed
    · have h0 : t.min = 0 := by simp [Ty.min, hs]
      simp; omega
    · simp; split <;> omega
  · rename_i hc
    have h5 : t.Has (l - r) := by
      by_contra hn; exact hc (h.2 hn)
    unfold subtract
    rw [Ty.cast_of_has h5]
    unfold Ty.Has at h5; unfold Ty.clamp; omega

/-- `ceilinged_multiply` is the clamp of the true product. -/
theorem C40_ceilinged_multiply (t : Ty) (hu : t.signed = false) (l r : Int) (hl : t.Has l) (hr : t.Has r) :
    ceilingedMultiply t l r = t.clamp (l * r) := by
  have h := C40_multiply_overflow t hu l r hl hr
  unfold ceilingedMultiply
  split
  · rename_i hc
    have h5 := h.1 hc
    have h0 : t.min = 0 := by simp [Ty.min, hu]
    have hm := t.zero_le_max
    unfold Ty.Has at h5 hl hr
    rw [h0] at hl hr h5
    have : 0 ≤ l * r := Int.mul_nonneg hl.1 hr.1
    unfold Ty.clamp; rw [h0]; omega
  · rename_i hc
    have h5 : t.Has (l * r) := by
      by_contra hn; exact hc (h.2 hn)
    rw [Ty.cast_of_has h5]
    unfold Ty.Has at h5; unfold Ty.clamp; omega

/-- The safe operations throw exactly on overflow and are otherwise exact. -/
theorem C40_safe_add (t : Ty) (l r : Int) (hl : t.Has l) (hr : t.Has r) :
    (t.Has (l + r) ∧ safeAdd t l r = some (l + r)) ∨ (¬ t.Has (l + r) ∧ safeAdd t l r = none) := by
  have h := C40_add_overflow t l r hl hr
  unfold safeAdd
  by_cases hc : t.Has (l + r)
  · left; refine ⟨hc, ?_⟩; rw [if_neg (by tauto), Ty.cast_of_has hc]
  · right; exact ⟨hc, by rw [if_pos (h.2 hc)]⟩

theorem C40_safe_subtract (t : Ty) (l r : Int) (hl : t.Has l) (hr : t.Has r) :
    (t.Has (l - r) ∧ safeSubtract t l r = some (l - r)) ∨ (¬ t.Has (l - r) ∧ safeSubtract t l r = none) := by
  have h := C40_subtract_overflow t l r hl hr
  unfold safeSubtract
  by_cases hc : t.Has (l - r)
  · left; refine ⟨hc, ?_⟩; rw [if_neg (by tauto), Ty.cast_of_has hc]
  · right; exact ⟨hc, by rw [if_pos (h.2 hc)]⟩

theorem C40_safe_multiply (t : Ty) (hu : t.signed = false) (l r : Int) (hl : t.Has l) (hr : t.Has r) :
    (t.Has (l * r) ∧ safeMultiply t l r = some (l * r)) ∨ (¬ t.Has (l * r) ∧ safeMultiply t l r = none) := by
  have h := C40_multiply_overflow t hu l r hl hr
  unfold safeMultiply
  by_cases hc : t.Has (l * r)
  · left; refine ⟨hc, ?_⟩; rw [if_neg (by tauto), Ty.cast_of_has hc]
  · right; exact ⟨hc, by rw [if_pos (h.2 hc)]⟩

theorem C40_safe_negate (t : Ty) (hs : t.signed = true) (x : Int) (hx : t.Has x) :
    (t.Has (-x) ∧ safeNegate t x = some (-x)) ∨ (¬ t.Has (-x) ∧ safeNegate t x = none) := by
  have h := C40_negate_overflow t hs x hx
  unfold safeNegate
  by_cases hc : t.Has (-x)
  · left; refine ⟨hc, ?_⟩; rw [if_neg (by tauto), Ty.cast_of_has hc]
  · right; exact ⟨hc, by rw [if_pos (h.2 hc)]⟩

theorem has_toUnsigned {t : Ty} {x : Int} (h : t.Has x) (h0 : 0 ≤ x) : t.toUnsigned.Has x := by
  have h1 := t.range
  have := t.min_le_zero
  refine ⟨by simp [Ty.min, Ty.toUnsigned]; exact h0, ?_⟩
  have : x ≤ t.max := h.2
  simp only [Ty.max, Ty.toUnsigned]
  simp
  omega

/-- Mixed-sign comparison is integer comparison. -/
theorem C40_is_greater (tl tr : Ty) (l r : Int) (hl : tl.Has l) (hr : tr.Has r) :
    isGreater tl tr l r = true ↔ l > r := by
  unfold isGreater
  split
  · simp
  · rename_i hne
    have nn : ∀ (t : Ty) (x : Int), t.signed = false → t.Has x → 0 ≤ x := fun t x hs h => by
      have := h.1; simpa [Ty.min, hs] using this
    cases hsl : tl.signed <;> cases hsr : tr.signed <;> simp [hsl, hsr] at hne ⊢
    · have h0 := nn tl l hsl hl
      simp only [isNegative, hsr, Bool.true_and, decide_eq_true_eq]
      by_cases hn : r < 0
      · omega
      · rw [Ty.cast_of_has (has_toUnsigned hr (by omega))]; omega
    · have h0 := nn tr r hsr hr
      simp only [isNegative, hsl, Bool.true_and, decide_eq_false_iff_not]
      by_cases hn : l < 0
      · omega
      · rw [Ty.cast_of_has (has_toUnsigned hl (by omega))]; omega

theorem C40_is_lesser (tl tr : Ty) (l r : Int) (hl : tl.Has l) (hr : tr.Has r) :
    isLesser tl tr l r = true ↔ l < r := by
  unfold isLesser
  split
  · simp
  · rename_i hne
    have nn : ∀ (t : Ty) (x : Int), t.signed = false → t.Has x → 0 ≤ x := fun t x hs h => by
      have := h.1; simpa [Ty.min, hs] using this
    cases hsl : tl.signed <;> cases hsr : tr.signed <;> simp [hsl, hsr] at hne ⊢
    · have h0 := nn tl l hsl hl
      simp only [isNegative, hsr, Bool.true_and, decide_eq_false_iff_not]
      by_cases hn : r < 0
      · omega
      · rw [Ty.cast_of_has (has_toUnsigned hr (by omega))]; omega
    · have h0 := nn tr r hsr hr
      simp only [isNegative, hsl, Bool.true_and, decide_eq_true_eq]
      by_cases hn : l < 0
      · omega
      · rw [Ty.cast_of_has (has_toUnsigned hl (by omega))]; omega

/-- `is_limited` is "outside the closed interval", across types. -/
theorem C40_is_limited (t b : Ty) (x lo hi : Int) (hx : t.Has x) (hlo : b.Has lo) (hhi : b.Has hi) :
    isLimited t b x lo hi = true ↔ x < lo ∨ hi < x := by
  unfold isLimited
  rw [Bool.or_eq_true, C40_is_lesser _ _ _ _ hx hlo, C40_is_greater _ _ _ _ hx hhi]

/-- `limit` clamps to the bounds, across types. -/
theorem C40_limit (t res : Ty) (x lo hi : Int) (hx : t.Has x) (hlo : res.Has lo) (hhi : res.Has hi)
    (hle : lo ≤ hi) : limit t res x lo hi = Max.max lo (Min.min hi x) := by
  unfold limit
  simp only [C40_is_lesser _ _ _ _ hx hlo, C40_is_greater _ _ _ _ hx hhi]
  split
  · omega
  · split
    · omega
    · rw [Ty.cast_of_has ⟨by have := hlo.1; omega, by have := hhi.2; omega⟩]; omega

theorem has_min (t : Ty) : t.Has t.min := ⟨le_refl _, by have := t.min_le_zero; have := t.zero_le_max; omega⟩
theorem has_max (t : Ty) : t.Has t.max := ⟨by have := t.min_le_zero; have := t.zero_le_max; omega, le_refl _⟩

/-- `absolute` is the absolute value, also of the minimum. -/
theorem C40_absolute (t : Ty) (hs : t.signed = true) (x : Int) (hx : t.Has x) : absolute t x = |x| := by
  have hp := t.half_pos
  have h2 := t.two_pow
  obtain ⟨h3, h4⟩ := hx
  simp only [Ty.min, Ty.max, hs, if_true] at h3 h4
  have huu : ∀ y : Int, 0 ≤ y → y ≤ 2 ^ (t.bits - 1) → t.toUnsigned.cast y = y := fun y h0 h1 => by
    apply Ty.cast_of_has
    refine ⟨by simp [Ty.min, Ty.toUnsigned]; exact h0, ?_⟩
    simp only [Ty.max, Ty.toUnsigned]
    simp
    omega
  unfold absolute isNegative negate
  simp only [hs, Bool.true_and, decide_eq_true_eq]
  split
  · rename_i hn
    rw [abs_of_neg hn]
    by_cases hm : x = -(2 ^ (t.bits - 1))
    · subst hm
      have : t.cast (- -(2 ^ (t.bits - 1))) = -(2 ^ (t.bits - 1)) := by
        unfold Ty.cast
        simp only [Ty.min, hs, if_true]
        rw [show (- -(2 : Int) ^ (t.bits - 1) - -2 ^ (t.bits - 1)) = 2 ^ t.bits by omega]
        simp
      rw [this]
      unfold Ty.cast
      simp only [Ty.min, Ty.toUnsigned]
      simp only [Bool.false_eq_true, if_false, sub_zero, add_zero]
      rw [show (-(2 : Int) ^ (t.bits - 1)) = 2 ^ (t.bits - 1) - 2 ^ t.bits by omega]
      rw [Int.sub_emod, Int.emod_self, sub_zero, Int.emod_emod,
        Int.emod_eq_of_lt (by omega) (by omega)]
      omega
    · rw [Ty.cast_of_has (t := t) ⟨by simp [Ty.min, hs]; omega, by simp [Ty.max, hs]; omega⟩, huu _ (by omega) (by omega)]
  · rename_i hn
    rw [abs_of_nonneg (by omega), huu _ (by omega) (by omega)]

theorem floored_negate_eq (res : Ty) (hs : res.signed = true) (x : Int) (hx : 0 ≤ x) :
    flooredNegate res x = res.clamp (-x) := by
  have hp := res.half_pos
  have h1 : res.min = -(2 ^ (res.bits - 1)) := by simp [Ty.min, hs]
  have h2 : res.max = 2 ^ (res.bits - 1) - 1 := by simp [Ty.max, hs]
  unfold flooredNegate Ty.clamp
  split
  · omega
  · unfold negate
    rw [Ty.cast_of_has (x := x) ⟨by omega, by omega⟩, Ty.cast_of_has ⟨by omega, by omega⟩]
    omega

/-- `floored_negate` is the clamped negation. -/
theorem C40_floored_negate (res : Ty) (hs : res.signed = true) (x : Int) (hx : 0 ≤ x) :
    flooredNegate res x = res.clamp (-x) := floored_negate_eq res hs x hx

/-- `delta` of unsigned operands is the clamped difference. -/
theorem C40_delta_unsigned (t res : Ty) (hu : t.signed = false) (hs : res.signed = true) (l r : Int)
    (hl : t.Has l) (hr : t.Has r) : deltaUnsigned t res l r = res.clamp (l - r) := by
  have h0 : t.min = 0 := by simp [Ty.min, hu]
  obtain ⟨h1, h2⟩ := hl
  obtain ⟨h3, h4⟩ := hr
  unfold deltaUnsigned subtract
  split
  · rw [Ty.cast_of_has (t := t) (x := r - l) ⟨by omega, by omega⟩, floored_negate_eq _ hs _ (by omega)]
    congr 1; omega
  · have hh : t.Has (l - r) := ⟨by omega, by omega⟩
    rw [Ty.cast_of_has hh, C40_limit _ _ _ _ _ hh (has_min _) (has_max _) (has_max _).1]
    rfl

/-- `delta` of signed operands is the clamped difference; `wider` covers the result type. -/
theorem C40_delta_signed (wider res : Ty) (hw : wider.signed = true) (hs : res.signed = true)
    (hb : res.bits ≤ wider.bits) (l r : Int) (hl : wider.Has l) (hr : wider.Has r) :
    deltaSigned wider res l r = res.clamp (l - r) := by
  unfold deltaSigned
  rw [Ty.cast_of_has hl, Ty.cast_of_has hr, C40_floored_subtract _ _ _ hl hr]
  have hc : wider.Has (wider.clamp (l - r)) := by
    have := (has_min wider).2; unfold Ty.clamp Ty.Has; omega
  rw [C40_limit _ _ _ _ _ hc (has_min _) (has_max _) (has_max _).1]
  have hpp : (2 : Int) ^ (res.bits - 1) ≤ 2 ^ (wider.bits - 1) :=
    pow_le_pow_right₀ (by norm_num) (by omega)
  have h1 : res.min = -(2 ^ (res.bits - 1)) := by simp [Ty.min, hs]
  have h2 : res.max = 2 ^ (res.bits - 1) - 1 := by simp [Ty.max, hs]
  have h3 : wider.min = -(2 ^ (wider.bits - 1)) := by simp [Ty.min, hw]
  have h4 : wider.max = 2 ^ (wider.bits - 1) - 1 := by simp [Ty.max, hw]
  have := res.half_pos
  unfold Ty.clamp
  omega

theorem C40_is_multiple (p v : Int) : isMultiple p v = true ↔ ∃ k, p = v * k := by
  unfold isMultiple
  split
  · rw [beq_iff_eq, ← Int.dvd_iff_tmod_eq_zero]; rfl
  · rename_i h; simp at h; subst h; simp

theorem C40_is_product (p l r : Int) : isProduct p l r = true ↔ p = l * r := by
  unfold isProduct
  split
  · rename_i h
    rcases h with h | h <;> simp [h]
  · rename_i h
    push Not at h
    simp only [Bool.and_eq_true, beq_iff_eq]
    constructor
    · rintro ⟨h1, h2⟩
      have := Int.mul_tdiv_add_tmod p l
      rw [h1, h2] at this; omega
    · rintro rfl
      exact ⟨by simp, Int.mul_tdiv_cancel_left _ h.1⟩

/-! ### Division laws -/

theorem tmod_nonpos' {a : Int} (b : Int) (h : a ≤ 0) : a.tmod b ≤ 0 := by
  have := Int.tmod_nonneg (a := -a) b (by omega)
  rw [Int.neg_tmod] at this; omega

theorem tdiv_has (t : Ty) (a b : Int) (ha : t.Has a) (hb : t.Has b) (hd : ¬ (a = t.min ∧ b = -1)) :
    t.Has (a.tdiv b) ∧ t.Has (a.tmod b) := by
  obtain ⟨h1, h2⟩ := ha
  obtain ⟨h3, h4⟩ := hb
  have hm := t.min_le_zero
  have hM := t.zero_le_max
  have hmod : a.tmod b ≤ a.natAbs ∧ -(a.natAbs : Int) ≤ a.tmod b ∧ (0 ≤ a → 0 ≤ a.tmod b) ∧ (a ≤ 0 → a.tmod b ≤ 0) := by
    refine ⟨?_, ?_, fun h => Int.tmod_nonneg b h, fun h => tmod_nonpos' b h⟩
    · have := Int.natAbs_tmod a b
      have h := Nat.mod_le a.natAbs b.natAbs
      omega
    · have := Int.natAbs_tmod a b
      have h := Nat.mod_le a.natAbs b.natAbs
      omega
  refine ⟨?_, ?_⟩
  · have hq : (a.tdiv b).natAbs = a.natAbs / b.natAbs := Int.natAbs_tdiv a b
    have hle := Nat.div_le_self a.natAbs b.natAbs
    cases hs : t.signed
    · have h0 : t.min = 0 := by simp [Ty.min, hs]
      have : 0 ≤ a.tdiv b := Int.tdiv_nonneg (by omega) (by omega)
      exact ⟨by omega, by omega⟩
    · have e1 : t.min = -(2 ^ (t.bits - 1)) := by simp [Ty.min, hs]
      have e2 : t.max = 2 ^ (t.bits - 1) - 1 := by simp [Ty.max, hs]
      refine ⟨by omega, ?_⟩
      by_cases ha : a = t.min
      · by_cases hb0 : b = 0
        · subst hb0; simp; omega
        · by_cases hb1 : b = 1
          · subst hb1; simp; omega
          · have h2b : 2 ≤ b.natAbs := by omega
            have : a.natAbs / b.natAbs ≤ a.natAbs / 2 := Nat.div_le_div_left h2b (by omega)
            have := t.half_pos
            omega
      · omega
  · cases hs : t.signed
    · have h0 : t.min = 0 := by simp [Ty.min, hs]
      exact ⟨by omega, by omega⟩
    · by_cases ha0 : 0 ≤ a
      · exact ⟨by omega, by omega⟩
      · exact ⟨by omega, by omega⟩

theorem neg_iff (t : Ty) (a : Int) (ha : t.Has a) : isNegative t a = decide (a < 0) := by
  unfold isNegative
  cases hs : t.signed
  · have := ha.1
    simp [Ty.min, hs] at this
    simp; exact this
  · simp

/-- Native division truncates toward zero, with the remainder law. -/
theorem C40_truncated (t : Ty) (a b : Int) (ha : t.Has a) (hb : t.Has b) (hz : b ≠ 0) (hd : ¬ (a = t.min ∧ b = -1)) :
    truncatedDivide t a b * b + truncatedModulo t a b = a ∧ |truncatedModulo t a b| < |b| ∧
      0 ≤ truncatedModulo t a b * a := by
  obtain ⟨h1, h2⟩ := tdiv_has t a b ha hb hd
  unfold truncatedDivide truncatedModulo
  rw [Ty.cast_of_has h1, Ty.cast_of_has h2]
  have := Int.mul_tdiv_add_tmod a b
  refine ⟨by rw [mul_comm]; omega, ?_, ?_⟩
  · have := Int.natAbs_tmod a b
    have h := Nat.mod_lt a.natAbs (y := b.natAbs) (by omega)
    rw [Int.abs_eq_natAbs, Int.abs_eq_natAbs]
    omega
  · rcases le_total 0 a with h | h
    · exact Int.mul_nonneg (Int.tmod_nonneg b h) h
    · have := tmod_nonpos' b h
      nlinarith

/-- Quotient of the truncated division, remainder sign facts, for the floor and ceiling arguments. -/
theorem tdiv_facts (a b : Int) (hz : b ≠ 0) :
    b * a.tdiv b + a.tmod b = a ∧ (a.tmod b).natAbs < b.natAbs ∧
      (0 ≤ a → 0 ≤ a.tmod b) ∧ (a ≤ 0 → a.tmod b ≤ 0) :=
  ⟨Int.mul_tdiv_add_tmod a b, by rw [Int.natAbs_tmod]; exact Nat.mod_lt _ (by omega),
    fun h => Int.tmod_nonneg b h, fun h => tmod_nonpos' b h⟩

theorem floor_of_law (a b q r : Int) (hz : b ≠ 0) (h : q * b + r = a)
    (hr : (0 < b → 0 ≤ r ∧ r < b) ∧ (b < 0 → b < r ∧ r ≤ 0)) : q = ⌊(a : ℚ) / b⌋ := by
  symm
  rw [Int.floor_eq_iff]
  have hq : (a : ℚ) = q * b + r := by rw [← h]; push_cast; ring
  have hb0 : (b : ℚ) ≠ 0 := by exact_mod_cast hz
  have : (a : ℚ) / b = q + r / b := by rw [hq]; field_simp
  rw [this]
  rcases lt_or_gt_of_ne hz with hb | hb
  · obtain ⟨h1, h2⟩ := hr.2 hb
    have hbq : (b : ℚ) < 0 := by exact_mod_cast hb
    have e1 : (0 : ℚ) ≤ (r : ℚ) / b := by
      apply div_nonneg_of_nonpos _ hbq.le; exact_mod_cast h2
    have e2 : (r : ℚ) / b < 1 := by rw [div_lt_one_of_neg hbq]; exact_mod_cast h1
    constructor <;> linarith
  · obtain ⟨h1, h2⟩ := hr.1 hb
    have hbq : (0 : ℚ) < b := by exact_mod_cast hb
    have e1 : (0 : ℚ) ≤ (r : ℚ) / b := by
      apply div_nonneg _ hbq.le; exact_mod_cast h1
    have e2 : (r : ℚ) / b < 1 := by rw [div_lt_one hbq]; exact_mod_cast h2
    constructor <;> linarith

theorem ceil_of_law (a b q r : Int) (hz : b ≠ 0) (h : q * b + r = a)
    (hr : (0 < b → -b < r ∧ r ≤ 0) ∧ (b < 0 → 0 ≤ r ∧ r < -b)) : q = ⌈(a : ℚ) / b⌉ := by
  symm
  rw [Int.ceil_eq_iff]
  have hq : (a : ℚ) = q * b + r := by rw [← h]; push_cast; ring
  have hb0 : (b : ℚ) ≠ 0 := by exact_mod_cast hz
  have : (a : ℚ) / b = q + r / b := by rw [hq]; field_simp
  rw [this]
  rcases lt_or_gt_of_ne hz with hb | hb
  · obtain ⟨h1, h2⟩ := hr.2 hb
    have hbq : (b : ℚ) < 0 := by exact_mod_cast hb
    have e1 : (r : ℚ) / b ≤ 0 := by
      apply div_nonpos_of_nonneg_of_nonpos _ hbq.le; exact_mod_cast h1
    have e2 : -1 < (r : ℚ) / b := by
      rw [lt_div_iff_of_neg hbq]; have : (r : ℚ) < -b := by exact_mod_cast h2
      linarith
    constructor <;> linarith
  · obtain ⟨h1, h2⟩ := hr.1 hb
    have hbq : (0 : ℚ) < b := by exact_mod_cast hb
    have e1 : (r : ℚ) / b ≤ 0 := by
      apply div_nonpos_of_nonpos_of_nonneg _ hbq.le; exact_mod_cast h2
    have e2 : -1 < (r : ℚ) / b := by
      rw [lt_div_iff₀ hbq]; have : -(b : ℚ) < r := by exact_mod_cast h1
      linarith
    constructor <;> linarith


theorem modulo_facts (t : Ty) (a b : Int) (ha : t.Has a) (hb : t.Has b) (hz : b ≠ 0) (hd : ¬ (a = t.min ∧ b = -1)) :
    truncatedDivide t a b = a.tdiv b ∧ truncatedModulo t a b = a.tmod b := by
  obtain ⟨h1, h2⟩ := tdiv_has t a b ha hb hd
  exact ⟨Ty.cast_of_has h1, Ty.cast_of_has h2⟩

/-- `floored_divide` rounds the true quotient down; `floored_modulo` is its remainder, with the divisor's sign. -/
theorem C40_floored (t : Ty) (a b : Int) (ha : t.Has a) (hb : t.Has b) (hz : b ≠ 0) (hd : ¬ (a = t.min ∧ b = -1)) :
    flooredDivide t a b = ⌊(a : ℚ) / b⌋ ∧ flooredDivide t a b * b + flooredModulo t a b = a ∧
      (0 < b → 0 ≤ flooredModulo t a b ∧ flooredModulo t a b < b) ∧
      (b < 0 → b < flooredModulo t a b ∧ flooredModulo t a b ≤ 0) := by
  obtain ⟨e1, e2⟩ := modulo_facts t a b ha hb hz hd
  obtain ⟨f1, f2, f3, f4⟩ := tdiv_facts a b hz
  obtain ⟨g1, g2⟩ := tdiv_has t a b ha hb hd
  have key : ∀ q r : Int, t.Has q → t.Has r → flooredDivide t a b = t.cast q → flooredModulo t a b = t.cast r →
      q * b + r = a → ((0 < b → 0 ≤ r ∧ r < b) ∧ (b < 0 → b < r ∧ r ≤ 0)) →
      flooredDivide t a b = ⌊(a : ℚ) / b⌋ ∧ flooredDivide t a b * b + flooredModulo t a b = a ∧
      (0 < b → 0 ≤ flooredModulo t a b ∧ flooredModulo t a b < b) ∧
      (b < 0 → b < flooredModulo t a b ∧ flooredModulo t a b ≤ 0) := by
    intro q r hq hr e3 e4 h1 h2
    rw [e3, e4, Ty.cast_of_has hq, Ty.cast_of_has hr]
    exact ⟨floor_of_law a b q r hz h1 h2, h1, h2.1, h2.2⟩
  have hfl : isFloored t a b = true ↔ ((a < 0 ↔ b < 0) ∨ a.tmod b = 0) := by
    unfold isFloored signsDiffer
    rw [neg_iff t a ha, neg_iff t b hb]
    by_cases x1 : a < 0 <;> by_cases x2 : b < 0 <;> simp [x1, x2]
  have hda : flooredDivide t a b = t.cast (a.tdiv b - if isFloored t a b then 0 else 1) := by
    unfold flooredDivide; rw [e1]
  have hma : flooredModulo t a b = t.cast (a.tmod b + if isFloored t a b then 0 else b) := by
    unfold flooredModulo; rw [e2]
  by_cases hc : isFloored t a b = true
  · rw [hc] at hda hma
    refine key (a.tdiv b) (a.tmod b) g1 g2 (by simpa using hda) (by simpa using hma) (by rw [mul_comm]; exact f1) ?_
    have := hfl.1 hc
    omega
  · have hc' : isFloored t a b = false := by simpa using hc
    rw [hc'] at hda hma
    have hn : ¬ ((a < 0 ↔ b < 0) ∨ a.tmod b = 0) := fun h => hc (hfl.2 h)
    push Not at hn
    have hs : t.signed = true := by
      cases hs : t.signed
      · have e : t.min = 0 := by simp [Ty.min, hs]
        have := ha.1; have := hb.1; omega
      · rfl
    have m1 : t.min = -(2 ^ (t.bits - 1)) := by simp [Ty.min, hs]
    have m2 : t.max = 2 ^ (t.bits - 1) - 1 := by simp [Ty.max, hs]
    have hq0 : a.tdiv b ≤ 0 := by
      by_contra hq
      push Not at hq
      rcases lt_or_gt_of_ne hz with h | h
      · have : b * a.tdiv b ≤ b := by nlinarith
        omega
      · have : b ≤ b * a.tdiv b := by nlinarith
        omega
    have hqmin : t.min ≤ a.tdiv b - 1 := by
      have hab : (a.tdiv b).natAbs = a.natAbs / b.natAbs := Int.natAbs_tdiv a b
      by_contra hlt
      have : a.tdiv b = t.min := by have := g1.1; omega
      have hle : a.natAbs / b.natAbs ≤ a.natAbs := Nat.div_le_self _ _
      have h1 := ha.1; have h2 := ha.2
      have ea : a = t.min := by omega
      have hb1 : b.natAbs = 1 := by
        by_contra hb1
        have h2b : 2 ≤ b.natAbs := by omega
        have : a.natAbs / b.natAbs ≤ a.natAbs / 2 := Nat.div_le_div_left h2b (by omega)
        have := t.half_pos
        omega
      have : a.tmod b = 0 := by omega
      omega
    refine key (a.tdiv b - 1) (a.tmod b + b) ⟨hqmin, by have := g1.2; omega⟩ ?_ (by simpa using hda)
      (by simpa using hma) (by rw [sub_mul, mul_comm]; omega) (by omega)
    have h1 := hb.1; have h2 := hb.2
    refine ⟨by omega, by omega⟩

/-- `ceilinged_divide` rounds the true quotient up; `ceilinged_modulo` is its remainder, opposite in sign to the
divisor.  `hs`: the remainder is returned in the signed type, so an unsigned divisor must fit it. -/
theorem C40_ceilinged_partial (t : Ty) (a b : Int) (ha : t.Has a) (hb : t.Has b) (hz : b ≠ 0) (hd : ¬ (a = t.min ∧ b = -1))
    (hs : t.toSigned.Has b) :
    ceilingedDivide t a b = ⌈(a : ℚ) / b⌉ ∧ ceilingedDivide t a b * b + ceilingedModulo t a b = a ∧
      (0 < b → -b < ceilingedModulo t a b ∧ ceilingedModulo t a b ≤ 0) ∧
      (b < 0 → 0 ≤ ceilingedModulo t a b ∧ ceilingedModulo t a b < -b) := by
  obtain ⟨e1, e2⟩ := modulo_facts t a b ha hb hz hd
  obtain ⟨f1, f2, f3, f4⟩ := tdiv_facts a b hz
  obtain ⟨g1, g2⟩ := tdiv_has t a b ha hb hd
  have key : ∀ q r : Int, t.Has q → t.toSigned.Has r → ceilingedDivide t a b = t.cast q →
      ceilingedModulo t a b = t.toSigned.cast r →
      q * b + r = a → ((0 < b → -b < r ∧ r ≤ 0) ∧ (b < 0 → 0 ≤ r ∧ r < -b)) →
      ceilingedDivide t a b = ⌈(a : ℚ) / b⌉ ∧ ceilingedDivide t a b * b + ceilingedModulo t a b = a ∧
      (0 < b → -b < ceilingedModulo t a b ∧ ceilingedModulo t a b ≤ 0) ∧
      (b < 0 → 0 ≤ ceilingedModulo t a b ∧ ceilingedModulo t a b < -b) := by
    intro q r hq hr e3 e4 h1 h2
    rw [e3, e4, Ty.cast_of_has hq, Ty.cast_of_has hr]
    exact ⟨ceil_of_law a b q r hz h1 h2, h1, h2.1, h2.2⟩
  have hfl : isCeilinged t a b = true ↔ (¬ (a < 0 ↔ b < 0) ∨ a.tmod b = 0) := by
    unfold isCeilinged signsDiffer
    rw [neg_iff t a ha, neg_iff t b hb]
    by_cases x1 : a < 0 <;> by_cases x2 : b < 0 <;> simp [x1, x2]
  have hda : ceilingedDivide t a b = t.cast (a.tdiv b + if isCeilinged t a b then 0 else 1) := by
    unfold ceilingedDivide; rw [e1]
  have hma : ceilingedModulo t a b = t.toSigned.cast (a.tmod b - if isCeilinged t a b then 0 else b) := by
    unfold ceilingedModulo; rw [e2]
  have s1 : t.toSigned.min = -(2 ^ (t.bits - 1)) := by simp [Ty.min, Ty.toSigned]
  have s2 : t.toSigned.max = 2 ^ (t.bits - 1) - 1 := by simp [Ty.max, Ty.toSigned]
  have hs1 := hs.1
  have hs2 := hs.2
  have hp := t.half_pos
  by_cases hc : isCeilinged t a b = true
  · rw [hc] at hda hma
    refine key (a.tdiv b) (a.tmod b) g1 ⟨by omega, by omega⟩ (by simpa using hda) (by simpa using hma)
      (by rw [mul_comm]; exact f1) ?_
    have := hfl.1 hc
    omega
  · have hc' : isCeilinged t a b = false := by simpa using hc
    rw [hc'] at hda hma
    have hn : ¬ (¬ (a < 0 ↔ b < 0) ∨ a.tmod b = 0) := fun h => hc (hfl.2 h)
    push Not at hn
    have hr := g1.1
    have hqmax : a.tdiv b + 1 ≤ t.max := by
      have hab : (a.tdiv b).natAbs = a.natAbs / b.natAbs := Int.natAbs_tdiv a b
      have hq0 : 0 ≤ a.tdiv b := by
        by_contra hq
        push Not at hq
        rcases lt_or_gt_of_ne hz with h | h
        · have : -b ≤ b * a.tdiv b := by nlinarith
          omega
        · have : b * a.tdiv b ≤ -b := by nlinarith
          omega
      by_contra hlt
      have hqm : a.tdiv b = t.max := by have := g1.2; omega
      have h1 := ha.1; have h2 := ha.2
      have hM := t.zero_le_max
      have hb1 : b.natAbs = 1 ∨ 2 ≤ b.natAbs := by omega
      rcases hb1 with hb1 | h2b
      · omega
      · have hle : a.natAbs / b.natAbs ≤ a.natAbs / 2 := Nat.div_le_div_left h2b (by omega)
        have hrange := t.range
        have h2p := t.two_pow
        have hmn : t.min = 0 ∨ t.min = -(2 ^ (t.bits - 1)) := by unfold Ty.min; split <;> simp
        have hM1 : t.max ≤ 1 ∨ 2 ≤ t.max := by omega
        rcases hmn with hmn | hmn
        · rcases hM1 with hM1 | hM1 <;> omega
        · rcases hM1 with hM1 | hM1
          · have : t.max = 0 ∨ t.max = 1 := by omega
            rcases this with h0 | h0
            · omega
            · rw [hqm, h0] at f1; omega
          · omega
    refine key (a.tdiv b + 1) (a.tmod b - b) ⟨by omega, hqmax⟩ ⟨by omega, by omega⟩ (by simpa using hda)
      (by simpa using hma) (by rw [add_mul, mul_comm]; omega) (by omega)

/-! ### Powers and logarithms -/

theorem cast_congr (t : Ty) {x y : Int} (h : x ≡ y [ZMOD 2 ^ t.bits]) : t.cast x = t.cast y := by
  unfold Ty.cast
  rw [show (x - t.min) % 2 ^ t.bits = (y - t.min) % 2 ^ t.bits from h.sub_right _]

theorem cast_modEq (t : Ty) (x : Int) : t.cast x ≡ x [ZMOD 2 ^ t.bits] := by
  unfold Ty.cast
  have : (x - t.min) % 2 ^ t.bits + t.min ≡ (x - t.min) + t.min [ZMOD 2 ^ t.bits] :=
    (Int.mod_modEq _ _).add_right _
  simpa using this

theorem powerLoop_eq (t : Ty) (base : Int) (e : Nat) (p : Int) :
    t.cast (powerLoop t base e p) = t.cast (p * base ^ e) := by
  induction e generalizing p with
  | zero => simp [powerLoop]
  | succ e ih =>
    rw [powerLoop, ih]
    apply cast_congr
    have h : t.cast (p * t.cast base) ≡ p * base [ZMOD 2 ^ t.bits] :=
      (cast_modEq t _).trans ((cast_modEq t base).mul_left p)
    have := h.mul_right (base ^ e)
    rwa [mul_assoc, ← pow_succ'] at this

theorem powerLoop_has (t : Ty) (base : Int) (e : Nat) (p : Int) (h : t.Has p) : t.Has (powerLoop t base e p) := by
  induction e generalizing p with
  | zero => exact h
  | succ e ih => exact ih _ (t.has_cast _)

/-- `power` is the true power reduced to the type, with `0^0 = 0`. -/
theorem C49_power (t : Ty) (base : Int) (e : Nat) (h1 : t.Has 1) :
    power t base e = if base = 0 ∧ e = 0 then 0 else t.cast (base ^ e) := by
  unfold power
  split
  · rfl
  · rw [← Ty.cast_of_has (powerLoop_has t base e 1 h1), powerLoop_eq, one_mul]

theorem flooredLogLoop_eq (base : Nat) (h : 2 ≤ base) (v e : Nat) :
    flooredLogLoop base h v e = e + Nat.log base v := by
  induction v using Nat.strong_induction_on generalizing e with
  | _ v ih =>
    rw [flooredLogLoop]
    split
    · rename_i hv
      have hb : base ≤ v := by
        by_contra hc
        rw [Nat.div_eq_of_lt (by omega)] at hv; omega
      rw [ih _ (Nat.div_lt_self (by omega) h), Nat.log_of_one_lt_of_le (by omega) hb]
      omega
    · rename_i hv
      have : v < base := by
        by_contra hc
        exact hv (Nat.div_pos (by omega) (by omega))
      rw [Nat.log_of_lt this]; omega

/-- `floored_log` is the floor of the logarithm: the greatest `k` with `base^k ≤ value` (`Nat.log`); zero off-domain. -/
theorem C49_floored_log (base value : Nat) : flooredLog base value = Nat.log base value := by
  unfold flooredLog
  split
  · rename_i h
    symm
    rcases h with h | h
    · exact Nat.log_of_left_le_one (by omega) _
    · rw [show value = 0 by omega, Nat.log_zero_right]
  · rw [flooredLogLoop_eq, Nat.zero_add]

theorem ceilingedLogLoop_eq (base : Nat) (h : 2 ≤ base) (v e : Nat) :
    e + Nat.log base v ≤ ceilingedLogLoop base h v e ∧ ceilingedLogLoop base h v e ≤ e + Nat.clog base v := by
  induction v using Nat.strong_induction_on generalizing e with
  | _ v ih =>
    rw [ceilingedLogLoop]
    split
    · rename_i hv
      have hi := ih _ (Nat.div_lt_self (by omega) h) (e + 1)
      have hc : Nat.clog base (v / base) + 1 ≤ Nat.clog base v := by
        rw [Nat.clog_of_two_le (b := base) (by omega) hv]
        have := Nat.clog_mono_right base (show v / base ≤ (v + base - 1) / base from
          Nat.div_le_div_right (by omega))
        omega
      have hl : Nat.log base v ≤ Nat.log base (v / base) + 1 := by
        rw [Nat.log_div_base]; omega
      omega
    · rename_i hv
      have : Nat.log base v = 0 := Nat.log_of_lt (by omega)
      omega

/-- `ceilinged_log` for a general base lies between the floor and the ceiling of the logarithm.
(Missing from "is the ceiling": see the counterexample.) -/
theorem C49_ceilinged_log_partial (base value : Nat) :
    Nat.log base value ≤ ceilingedLog base value ∧ ceilingedLog base value ≤ Nat.clog base value := by
  unfold ceilingedLog
  split
  · rename_i h
    refine ⟨?_, Nat.zero_le _⟩
    rcases h with h | h
    · rw [Nat.log_of_left_le_one (by omega)]
    · rw [show value = 0 by omega, Nat.log_zero_right]
  · have := ceilingedLogLoop_eq base (by omega) value 0
    omega

/-- `ceilinged_log(10, 11)` is 1, although 11 exceeds 10: the general-base form is not a ceiling. -/
theorem C49_ceilinged_log_counterexample : ceilingedLog 10 11 = 1 ∧ Nat.clog 10 11 = 2 := by
  constructor
  · unfold ceilingedLog; simp; unfold ceilingedLogLoop; simp; unfold ceilingedLogLoop; simp
  · apply le_antisymm
    · exact (Nat.clog_le_iff_le_pow (by norm_num)).2 (by norm_num)
    · exact (Nat.lt_clog_iff_pow_lt (by norm_num)).2 (by norm_num)

/-- `floored_log2` and `ceilinged_log2` are the floor and the ceiling. -/
theorem C49_log2 (n : Nat) : flooredLog2 n = Nat.log 2 n ∧ ceilingedLog2 n = Nat.clog 2 n := by
  have hb : ∀ m, m ≠ 0 → bitWidth m = Nat.log 2 m + 1 := fun m hm => by
    unfold bitWidth; rw [if_neg hm, Nat.log2_eq_log_two]
  constructor
  · unfold flooredLog2
    split
    · rw [show n = 0 by omega]; simp
    · rw [hb n (by omega)]; omega
  · unfold ceilingedLog2
    split
    · rw [show n = 0 by omega]; simp
    · by_cases h1 : n = 1
      · subst h1; simp [bitWidth]
      · rw [hb (n - 1) (by omega)]
        apply le_antisymm
        · apply Nat.succ_le_of_lt
          rw [Nat.lt_clog_iff_pow_lt (by norm_num)]
          have := Nat.pow_log_le_self 2 (x := n - 1) (by omega)
          omega
        · rw [Nat.clog_le_iff_le_pow (by norm_num)]
          have := Nat.lt_pow_succ_log_self (b := 2) (by norm_num) (n - 1)
          omega

/-- `floored_log256` and `ceilinged_log256` on 64 bit values are the floor and the ceiling. -/
theorem C49_log256 (n : Nat) (h : n < 2 ^ 64) :
    flooredLog256 n = Nat.log 256 n ∧ ceilingedLog256 n = Nat.clog 256 n := by
  have fl : ∀ k, 256 ^ k ≤ n → n < 256 ^ (k + 1) → Nat.log 256 n = k := fun k h1 h2 =>
    (Nat.log_eq_iff (.inr ⟨by norm_num, by have : 0 < 256 ^ k := by positivity
                                           omega⟩)).2 ⟨h1, h2⟩
  have cl : ∀ k, 256 ^ k < n → n ≤ 256 ^ (k + 1) → Nat.clog 256 n = k + 1 := fun k h1 h2 => by
    apply le_antisymm
    · exact (Nat.clog_le_iff_le_pow (by norm_num)).2 h2
    · exact Nat.succ_le_of_lt ((Nat.lt_clog_iff_pow_lt (by norm_num)).2 h1)
  constructor
  · unfold flooredLog256
    repeat' split
    all_goals first
      | (rw [fl 7] <;> omega) | (rw [fl 6] <;> omega) | (rw [fl 5] <;> omega) | (rw [fl 4] <;> omega)
      | (rw [fl 3] <;> omega) | (rw [fl 2] <;> omega) | (rw [fl 1] <;> omega) | (rw [fl 0] <;> omega)
      | (rw [show n = 0 by omega]; simp)
  · unfold ceilingedLog256
    repeat' split
    all_goals first
      | (rw [cl 7] <;> omega) | (rw [cl 6] <;> omega) | (rw [cl 5] <;> omega) | (rw [cl 4] <;> omega)
      | (rw [cl 3] <;> omega) | (rw [cl 2] <;> omega) | (rw [cl 1] <;> omega) | (rw [cl 0] <;> omega)
      | (rw [show n = 0 by omega]; simp) | (rw [show n = 1 by omega]; simp)

/-- `byte_width` is the number of base-256 digits of a 64 bit value. -/
theorem C49_byte_width (n : Nat) (h : n < 2 ^ 64) (k : Nat) : byteWidth n ≤ k ↔ n < 256 ^ k := by
  unfold byteWidth
  split
  · rename_i h0; subst h0; simp
  · rename_i h0
    rw [(C49_log256 n h).1, Nat.succ_le_iff, Nat.log_lt_iff_lt_pow (by norm_num) h0]

/-! ### Concrete instances of the hypotheses -/

example : i8.Has (-128) ∧ i8.Has 127 ∧ ¬ i8.Has 128 ∧ u64.Has (2 ^ 64 - 1) ∧ ¬ u64.Has (-1) := by
  refine ⟨?_, ?_, ?_, ?_, ?_⟩ <;> unfold Ty.Has <;> decide
example : ceilingedAdd i8 100 100 = 127 ∧ ceilingedAdd i8 (-100) (-100) = -128 ∧ ceilingedAdd i8 (-3) 2 = -1 := by decide
example : flooredSubtract u64 3 5 = 0 ∧ flooredSubtract i8 100 (-100) = 127 := by decide
example : flooredDivide i8 (-7) 2 = -4 ∧ flooredModulo i8 (-7) 2 = 1 ∧ ceilingedDivide i8 7 2 = 4 ∧
    ceilingedModulo i8 7 2 = -1 ∧ ceilingedModulo u8 7 2 = -1 := by decide
example : i8.toSigned.Has 2 ∧ u8.toSigned.Has 2 := by unfold Ty.Has; decide
example : deltaUnsigned u64 i64 3 5 = -2 := by decide
example : isGreater u8 i8 255 (-1) = true ∧ isGreater i8 u8 (-1) 255 = false := by decide

/-- The remainder hypothesis of `C40_ceilinged_partial` is needed: `ceilinged_modulo` of unsigned operands with a divisor
beyond the signed range does not satisfy the division law. -/
theorem C40_ceilinged_modulo_counterexample :
    u8.Has 7 ∧ u8.Has 200 ∧ ceilingedDivide u8 7 200 * 200 + ceilingedModulo u8 7 200 ≠ 7 := by
  refine ⟨?_, ?_, ?_⟩ <;> first | (unfold Ty.Has; decide) | decide

end Verif.Arith
