import Verif.Model.BitOps
/-!
# C87: bit operations do to every value what their names say
-/
namespace Verif.BitOps

variable {w : Nat}

theorem shiftLeft_true (v : BitVec w) (s : Nat) : shiftLeft v s = v <<< s := by
  unfold shiftLeft
  by_cases h : s ≥ w
  · rw [if_pos (by simp [h]), BitVec.shiftLeft_eq_zero h]; rfl
  · rw [if_neg (by simp [h]), Nat.mod_eq_of_lt (by omega)]

theorem shiftRight_true (v : BitVec w) (s : Nat) : shiftRight v s = v >>> s := by
  unfold shiftRight
  by_cases h : s ≥ w
  · rw [if_pos (by simp [h])]
    apply BitVec.eq_of_toNat_eq
    rw [BitVec.toNat_ushiftRight, Nat.shiftRight_eq_div_pow, Nat.div_eq_of_lt]
    · simp
    · exact Nat.lt_of_lt_of_le v.isLt (Nat.pow_le_pow_right (by omega) h)
  · rw [if_neg (by simp [h]), Nat.mod_eq_of_lt (by omega)]

/-- C87. Shifts, for values of any width and any distance: a left shift is multiplication by a power of two with the high bits dropped, a right
shift is (unsigned) division, bits never wrap around, and a distance of the width or more gives zero. -/
theorem C87_shift (v : BitVec w) (s : Nat) :
    (shiftLeft v s).toNat = v.toNat * 2 ^ s % 2 ^ w ∧ (shiftRight v s).toNat = v.toNat / 2 ^ s ∧
    (∀ i, (shiftLeft v s).getLsbD i = (decide (i < w ∧ s ≤ i) && v.getLsbD (i - s))) ∧
    (∀ i, (shiftRight v s).getLsbD i = v.getLsbD (i + s)) ∧
    (w ≤ s → shiftLeft v s = 0 ∧ shiftRight v s = 0) := by
  rw [shiftLeft_true, shiftRight_true]
  refine ⟨by rw [BitVec.toNat_shiftLeft, Nat.shiftLeft_eq], by rw [BitVec.toNat_ushiftRight, Nat.shiftRight_eq_div_pow], fun i => ?_, fun i => ?_, fun h => ⟨?_, ?_⟩⟩
  · rw [BitVec.getLsbD_shiftLeft]
    by_cases h1 : i < w <;> by_cases h2 : s ≤ i <;> simp [h1, h2] <;> omega
  · rw [BitVec.getLsbD_ushiftRight, Nat.add_comm]
  · rw [BitVec.shiftLeft_eq_zero h]; rfl
  · rw [← shiftRight_true]; unfold shiftRight; rw [if_pos (by simp [h])]

/-- C87. Without overflow the distance is taken modulo the width. -/
theorem C87_shift_modulo (v : BitVec w) (s : Nat) (hw : 0 < w) :
    shiftLeft v s false = shiftLeft v (s % w) ∧ shiftRight v s false = shiftRight v (s % w) := by
  rw [shiftLeft_true, shiftRight_true]
  simp [shiftLeft, shiftRight]

theorem bitRight_bit (w o i : Nat) : (bitRight w o).getLsbD i = decide (i < w ∧ i = o) := by
  rw [bitRight, shiftLeft_true, BitVec.getLsbD_shiftLeft]
  by_cases h1 : i < w
  · by_cases h2 : i < o
    · have : i ≠ o := by omega
      simp [h1, h2, this]
    · by_cases h3 : i = o
      · subst h3
        simp [h1]
        omega
      · have : i - o ≠ 0 := by omega
        have h4 : ¬ i - o = 0 := by omega
        rw [show (1 : BitVec w) = 1#w by rfl]
        simp [h3, BitVec.getLsbD_one, h4]
  · simp [h1]

theorem bitLeft_bit (w o i : Nat) : (bitLeft w o).getLsbD i = decide (i < w ∧ i + o + 1 = w) := by
  unfold bitLeft
  split
  · simp; omega
  · rw [bitRight_bit]; congr 1; apply propext; omega

theorem and_single (v : BitVec w) (m : BitVec w) (k : Nat) (hm : ∀ i, m.getLsbD i = decide (i < w ∧ i = k)) : (v &&& m != 0) = v.getLsbD k := by
  by_cases hk : k < w
  · cases hb : v.getLsbD k
    · have : v &&& m = 0 := by
        apply BitVec.eq_of_getLsbD_eq
        intro i hi
        rw [BitVec.getLsbD_and, hm]
        by_cases h : i = k
        · subst h; simp [hb]
        · simp [h]
      simp [this]
    · have : v &&& m ≠ 0 := fun h => by
        have := congrArg (fun x => x.getLsbD k) h
        simp only [BitVec.getLsbD_and, hm, hb, hk] at this
        simp at this
      exact bne_iff_ne.2 this
  · have : v &&& m = 0 := by
      apply BitVec.eq_of_getLsbD_eq
      intro i hi
      rw [BitVec.getLsbD_and, hm]
      have : i ≠ k := by omega
      simp [this]
    rw [this, BitVec.getLsbD_of_ge _ _ (by omega)]
    simp

/-- C87. A bit is read by its offset from the left or the right; an offset outside of the value reads false. -/
theorem C87_get (v : BitVec w) (o : Nat) :
    getRight v o = v.getLsbD o ∧ getLeft v o = v.getMsbD o := by
  refine ⟨and_single v _ o (bitRight_bit w o), ?_⟩
  unfold getLeft
  by_cases h : o < w
  · rw [and_single v _ (w - 1 - o) fun i => by rw [bitLeft_bit]; congr 1; apply propext; omega]
    simp [BitVec.getMsbD, h]
  · have : bitLeft w o = 0 := by unfold bitLeft; rw [if_pos (by omega)]
    rw [this]
    simp [BitVec.getMsbD, h]

theorem not_bit (m : BitVec w) (i : Nat) (hi : i < w) : (~~~ m).getLsbD i = !m.getLsbD i := by simp [hi]

/-- C87. Setting a bit changes that bit, to the state given, and no other; an offset outside of the value changes nothing. -/
theorem C87_set (v : BitVec w) (o : Nat) (state : Bool) :
    (∀ i < w, (setRight v o state).getLsbD i = if i = o then state else v.getLsbD i) ∧
    (∀ i < w, (setLeft v o state).getMsbD i = if i = o then state else v.getMsbD i) ∧
    (w ≤ o → setRight v o state = v ∧ setLeft v o state = v) := by
  have hr : ∀ i < w, (setRight v o state).getLsbD i = if i = o then state else v.getLsbD i := by
    intro i hi
    unfold setRight
    cases state
    · rw [if_neg (by decide), BitVec.getLsbD_and, not_bit _ _ hi, bitRight_bit]
      by_cases h : i = o <;> simp [h, hi]
      subst h; simp [hi]
    · rw [if_pos rfl, BitVec.getLsbD_or, bitRight_bit]
      by_cases h : i = o <;> simp [h, hi]
      subst h; simp [hi]
  have hl : ∀ i < w, (setLeft v o state).getMsbD i = if i = o then state else v.getMsbD i := by
    intro i hi
    have hi' : w - 1 - i < w := by omega
    simp only [BitVec.getMsbD, hi, decide_true, Bool.true_and]
    unfold setLeft
    cases state
    · rw [if_neg (by decide), BitVec.getLsbD_and, not_bit _ _ hi', bitLeft_bit]
      by_cases h : i = o
      · have : w - 1 - i + o + 1 = w := by omega
        simp [h, hi', this]; omega
      · have : ¬ w - 1 - i + o + 1 = w := by omega
        simp [h, this]
    · rw [if_pos rfl, BitVec.getLsbD_or, bitLeft_bit]
      by_cases h : i = o
      · have : w - 1 - i + o + 1 = w := by omega
        simp [h, hi', this]; omega
      · have : ¬ w - 1 - i + o + 1 = w := by omega
        simp [h, this]
  refine ⟨hr, hl, fun ho => ⟨?_, ?_⟩⟩
  · apply BitVec.eq_of_getLsbD_eq
    intro i hi
    rw [hr i hi, if_neg (by omega)]
  · apply BitVec.eq_of_getMsbD_eq
    intro i hi
    rw [hl i hi, if_neg (by omega)]

/-- C87. A mask clears, and an unmask keeps, the given number of bits at that end, and they split the value. -/
theorem C87_mask (v : BitVec w) (n : Nat) :
    (∀ i < w, (maskRight v n).getLsbD i = (decide (n ≤ i) && v.getLsbD i)) ∧
    (∀ i < w, (unmaskRight v n).getLsbD i = (decide (i < n) && v.getLsbD i)) ∧
    (∀ i < w, (maskLeft v n).getMsbD i = (decide (n ≤ i) && v.getMsbD i)) ∧
    (∀ i < w, (unmaskLeft v n).getMsbD i = (decide (i < n) && v.getMsbD i)) ∧
    maskRight v n ||| unmaskRight v n = v ∧ maskRight v n &&& unmaskRight v n = 0 ∧
    maskLeft v n ||| unmaskLeft v n = v ∧ maskLeft v n &&& unmaskLeft v n = 0 ∧
    (unmaskRight v n).toNat = v.toNat % 2 ^ n := by
  have hr : ∀ i < w, (shiftLeft (BitVec.allOnes w) n).getLsbD i = decide (n ≤ i) := fun i hi => by
    rw [shiftLeft_true, BitVec.getLsbD_shiftLeft]
    by_cases h : i < n <;> simp [hi, h] <;> omega
  have hl : ∀ i < w, (shiftRight (BitVec.allOnes w) n).getLsbD i = decide (i + n < w) := fun i hi => by
    rw [shiftRight_true, BitVec.getLsbD_ushiftRight, BitVec.getLsbD_allOnes, Nat.add_comm]
  refine ⟨fun i hi => ?_, fun i hi => ?_, fun i hi => ?_, fun i hi => ?_, ?_, ?_, ?_, ?_, ?_⟩
  · rw [maskRight, BitVec.getLsbD_and, hr i hi, Bool.and_comm]
  · rw [unmaskRight, BitVec.getLsbD_and, not_bit _ _ hi, hr i hi]
    by_cases h : n ≤ i <;> simp [h] <;> omega
  · have hi' : w - 1 - i < w := by omega
    simp only [BitVec.getMsbD, hi, decide_true, Bool.true_and]
    rw [maskLeft, BitVec.getLsbD_and, hl _ hi', Bool.and_comm]
    congr 2; apply propext; omega
  · have hi' : w - 1 - i < w := by omega
    simp only [BitVec.getMsbD, hi, decide_true, Bool.true_and]
    rw [unmaskLeft, BitVec.getLsbD_and, not_bit _ _ hi', hl _ hi']
    by_cases h : i < n
    · have : ¬ w - 1 - i + n < w := by omega
      simp [h, this]
    · have : w - 1 - i + n < w := by omega
      simp [h, this]
  · apply BitVec.eq_of_getLsbD_eq; intro i hi
    simp only [maskRight, unmaskRight, BitVec.getLsbD_or, BitVec.getLsbD_and, not_bit _ _ hi]
    cases v.getLsbD i <;> simp
  · apply BitVec.eq_of_getLsbD_eq; intro i hi
    simp only [maskRight, unmaskRight, BitVec.getLsbD_and, not_bit _ _ hi]
    cases v.getLsbD i <;> simp
  · apply BitVec.eq_of_getLsbD_eq; intro i hi
    simp only [maskLeft, unmaskLeft, BitVec.getLsbD_or, BitVec.getLsbD_and, not_bit _ _ hi]
    cases v.getLsbD i <;> simp
  · apply BitVec.eq_of_getLsbD_eq; intro i hi
    simp only [maskLeft, unmaskLeft, BitVec.getLsbD_and, not_bit _ _ hi]
    cases v.getLsbD i <;> simp
  · apply Nat.eq_of_testBit_eq
    intro i
    rw [Nat.testBit_mod_two_pow]
    change (unmaskRight v n).getLsbD i = (decide (i < n) && v.getLsbD i)
    by_cases hi : i < w
    · rw [unmaskRight, BitVec.getLsbD_and, not_bit _ _ hi, hr i hi]
      by_cases h : n ≤ i <;> simp [h] <;> omega
    · rw [BitVec.getLsbD_of_ge _ _ (by omega), BitVec.getLsbD_of_ge _ _ (by omega), Bool.and_false]

/-- The two shifts of a rotation move bit `i` to bit `(i + m) mod w`. -/
theorem rotl_bits (v : BitVec w) (m : Nat) (h0 : 0 < m) (hm : m < w) (i : Nat) (hi : i < w) :
    ((v <<< m) ||| (v >>> (w - m))).getLsbD ((i + m) % w) = v.getLsbD i := by
  rw [BitVec.getLsbD_or, BitVec.getLsbD_shiftLeft, BitVec.getLsbD_ushiftRight]
  have hlt : (i + m) % w < w := Nat.mod_lt _ (by omega)
  by_cases h : i + m < w
  · rw [Nat.mod_eq_of_lt h]
    have h1 : ¬ i + m < m := by omega
    have h2 : w ≤ w - m + (i + m) := by omega
    rw [BitVec.getLsbD_of_ge _ _ h2, Nat.add_sub_cancel]
    simp [h]
  · have : (i + m) % w = i + m - w := by rw [Nat.mod_eq_sub_mod (by omega), Nat.mod_eq_of_lt (by omega)]
    rw [this]
    have h1 : i + m - w < m := by omega
    have h2 : w - m + (i + m - w) = i := by omega
    simp [h1, h2]

theorem rotr_bits (v : BitVec w) (m : Nat) (h0 : 0 < m) (hm : m < w) (i : Nat) (hi : i < w) :
    ((v >>> m) ||| (v <<< (w - m))).getLsbD i = v.getLsbD ((i + m) % w) := by
  have := rotl_bits ((v >>> m) ||| (v <<< (w - m))) m h0 hm i hi
  rw [← rotl_bits v (w - m) (by omega) (by omega) ((i + m) % w) (Nat.mod_lt _ (by omega))]
  have e : ((i + m) % w + (w - m)) % w = i := by
    rw [Nat.mod_add_mod, show i + m + (w - m) = i + w by omega, Nat.add_mod_right, Nat.mod_eq_of_lt hi]
  rw [e, show w - (w - m) = m by omega, BitVec.or_comm]

theorem toInt32_mod (s : Nat) (w : Nat) (hw : 0 < w) (hd : w ∣ 2 ^ 32) :
    (toInt32 s).tmod w = (s % w : Nat) ∨ (0 < s % w ∧ (toInt32 s).tmod w = -((w - s % w : Nat) : Int)) := by
  unfold toInt32
  rw [BitVec.toInt_eq_toNat_cond, BitVec.toNat_ofNat]
  have hm : s % 2 ^ 32 % w = s % w := Nat.mod_mod_of_dvd s hd
  split
  · left
    rw [← Int.ofNat_tmod, hm]
  · rename_i hge
    have hlt : s % 2 ^ 32 < 2 ^ 32 := Nat.mod_lt _ (by decide)
    generalize s % 2 ^ 32 = t at *
    have e : ((t : Int) - ((2 ^ 32 : Nat) : Int)) = -((2 ^ 32 - t : Nat) : Int) := by omega
    rw [e, Int.neg_tmod, ← Int.ofNat_tmod, ← hm]
    obtain ⟨k, hk⟩ := hd
    have hdiv := Nat.div_add_mod t w
    by_cases h0 : t % w = 0
    · left
      have : (2 ^ 32 - t) % w = 0 := by
        rw [hk]
        have : w * k - t = w * (k - t / w) := by rw [Nat.mul_sub]; omega
        rw [this, Nat.mul_mod_right]
      rw [this, h0]; rfl
    · right
      refine ⟨by omega, ?_⟩
      have hlt' : t % w < w := Nat.mod_lt _ hw
      have : (2 ^ 32 - t) % w = w - t % w := by
        rw [hk]
        have hq : t / w < k := by
          rw [Nat.div_lt_iff_lt_mul hw, Nat.mul_comm]; omega
        have e1 : w * k - t = (w - t % w) + w * (k - t / w - 1) := by
          rw [show k - t / w - 1 = k - (t / w + 1) by omega, Nat.mul_sub, Nat.mul_add]
          have : w * (t / w + 1) ≤ w * k := Nat.mul_le_mul (Nat.le_refl _) hq
          rw [Nat.mul_add] at this
          omega
        rw [e1, Nat.add_mul_mod_self_left, Nat.mod_eq_of_lt (by omega)]
      rw [this]

/-- C87. Rotation of signed and unsigned values of 8, 16, 32 or 64 bits by any distance: the bit at `i` goes to `i + shift` modulo the width
to the left, and comes back to the right. -/
theorem C87_rotate (hw : 0 < w) (hd : w ∣ 2 ^ 32) (signed : Bool) (v : BitVec w) (s : Nat) :
    (∀ i < w, (rotateLeft signed v s).getLsbD ((i + s) % w) = v.getLsbD i) ∧
    (∀ i < w, (rotateRight signed v s).getLsbD i = v.getLsbD ((i + s) % w)) ∧
    rotateRight signed (rotateLeft signed v s) s = v ∧ rotateLeft signed (rotateRight signed v s) s = v := by
  have hlt := Nat.mod_lt s hw
  have L : ∀ v : BitVec w, ∀ i < w, (rotateLeft signed v s).getLsbD ((i + s) % w) = v.getLsbD i := by
    intro v i hi
    have hs : (i + s) % w = (i + s % w) % w := by rw [Nat.add_mod_mod]
    rw [hs]
    by_cases h0 : s % w = 0
    · rw [h0, Nat.add_zero, Nat.mod_eq_of_lt hi]
      unfold rotateLeft
      cases signed
      · rw [if_pos (by rfl)]
        unfold stdRotl
        rcases toInt32_mod s w hw hd with h | ⟨h, _⟩
        · dsimp only; rw [h, h0, if_pos (by rfl)]
        · omega
      · rw [if_neg (by decide), h0, shiftLeft_true, shiftRight_true]
        rw [BitVec.getLsbD_or, BitVec.getLsbD_ushiftRight, BitVec.getLsbD_of_ge _ (w - 0 + i) (by omega)]
        simp
    · have key := rotl_bits v (s % w) (by omega) hlt i hi
      unfold rotateLeft
      cases signed
      · rw [if_pos (by rfl)]
        unfold stdRotl
        dsimp only
        rcases toInt32_mod s w hw hd with h | ⟨_, h⟩
        · rw [h, if_neg (by omega), if_pos (by omega), Int.toNat_natCast]; exact key
        · rw [h, if_neg (by omega), if_neg (by omega), Int.neg_neg, Int.toNat_natCast]
          rw [show w - (w - s % w) = s % w by omega, BitVec.or_comm]; exact key
      · rw [if_neg (by decide), shiftLeft_true, shiftRight_true]; exact key
  have R : ∀ v : BitVec w, ∀ i < w, (rotateRight signed v s).getLsbD i = v.getLsbD ((i + s) % w) := by
    intro v i hi
    have hs : (i + s) % w = (i + s % w) % w := by rw [Nat.add_mod_mod]
    rw [hs]
    by_cases h0 : s % w = 0
    · rw [h0, Nat.add_zero, Nat.mod_eq_of_lt hi]
      unfold rotateRight
      cases signed
      · rw [if_pos (by rfl)]
        unfold stdRotr
        rcases toInt32_mod s w hw hd with h | ⟨h, _⟩
        · dsimp only; rw [h, h0, if_pos (by rfl)]
        · omega
      · rw [if_neg (by decide), h0, shiftLeft_true, shiftRight_true]
        rw [BitVec.getLsbD_or, BitVec.getLsbD_shiftLeft]
        simp [hi]
    · have key := rotr_bits v (s % w) (by omega) hlt i hi
      unfold rotateRight
      cases signed
      · rw [if_pos (by rfl)]
        unfold stdRotr
        dsimp only
        rcases toInt32_mod s w hw hd with h | ⟨_, h⟩
        · rw [h, if_neg (by omega), if_pos (by omega), Int.toNat_natCast]; exact key
        · rw [h, if_neg (by omega), if_neg (by omega), Int.neg_neg, Int.toNat_natCast]
          rw [show w - (w - s % w) = s % w by omega, BitVec.or_comm]; exact key
      · rw [if_neg (by decide), shiftLeft_true, shiftRight_true]; exact key
  refine ⟨L v, R v, ?_, ?_⟩
  · apply BitVec.eq_of_getLsbD_eq
    intro i hi
    rw [R _ i hi, L v i hi]
  · apply BitVec.eq_of_getLsbD_eq
    intro i hi
    have e : ((i + (w - s % w)) % w + s) % w = i := by
      rw [Nat.mod_add_mod, ← Nat.add_mod_mod, show i + (w - s % w) + s % w = i + w by omega, Nat.add_mod_right, Nat.mod_eq_of_lt hi]
    have := L (rotateRight signed v s) ((i + (w - s % w)) % w) (Nat.mod_lt _ hw)
    rw [e, R _ _ (Nat.mod_lt _ hw), e] at this
    exact this

/-- C87. The rotations used by the hash functions (by a constant) are defined for every distance, and the unguarded ones (by a parameter) for
every distance below the width but zero; they are the rotations above. -/
theorem C87_rotate_hash (hw : 0 < w) (v : BitVec w) (s : Nat) :
    (∃ l r, rotlConst v s = some l ∧ rotrConst v s = some r ∧ (∀ i < w, l.getLsbD ((i + s) % w) = v.getLsbD i) ∧
      ∀ i < w, r.getLsbD i = v.getLsbD ((i + s) % w)) ∧
    (0 < s → s < w → rotlNominal v s = rotlConst v s ∧ rotrNominal v s = rotrConst v s) := by
  have hlt := Nat.mod_lt s hw
  have N : ∀ m, 0 < m → m < w → rotlNominal v m = some ((v <<< m) ||| (v >>> (w - m))) ∧ rotrNominal v m = some ((v >>> m) ||| (v <<< (w - m))) := by
    intro m h0 h1
    have hp : m < promoted w ∧ m ≤ w ∧ w - m < promoted w := by unfold promoted; omega
    exact ⟨if_pos hp, if_pos hp⟩
  refine ⟨?_, fun h0 h1 => ?_⟩
  · unfold rotlConst rotrConst
    by_cases h0 : s % w = 0
    · refine ⟨v, v, if_pos h0, if_pos h0, fun i hi => ?_, fun i hi => ?_⟩ <;>
        rw [← Nat.add_mod_mod, h0, Nat.add_zero, Nat.mod_eq_of_lt hi]
    · refine ⟨_, _, by rw [if_neg h0]; exact (N _ (by omega) hlt).1, by rw [if_neg h0]; exact (N _ (by omega) hlt).2, fun i hi => ?_, fun i hi => ?_⟩
      · rw [← Nat.add_mod_mod]; exact rotl_bits v _ (by omega) hlt i hi
      · rw [← Nat.add_mod_mod]; exact rotr_bits v _ (by omega) hlt i hi
  · unfold rotlConst rotrConst
    rw [if_neg (by rw [Nat.mod_eq_of_lt h1]; omega), if_neg (by rw [Nat.mod_eq_of_lt h1]; omega), Nat.mod_eq_of_lt h1]
    exact ⟨rfl, rfl⟩

/-- C87. Counterexample: the rotation by a parameter is undefined for a distance of zero at 32 and 64 bits (it shifts by the width of the type)
although a rotation by zero is the value itself; and so is any distance over the width. -/
theorem C87_rotate_counterexample (hw : w = 32 ∨ w = 64) (v : BitVec w) :
    rotlNominal v 0 = none ∧ rotrNominal v 0 = none ∧ rotlNominal v (w + 1) = none ∧ rotlConst v 0 = some v := by
  rcases hw with rfl | rfl <;> simp [rotlNominal, rotrNominal, rotlConst, promoted]

theorem castTo_low (v : Nat) (signed : Bool) (x : BitVec w) (i : Nat) (hi : i < w) (hv : i < v) : (castTo v signed x).getLsbD i = x.getLsbD i := by
  unfold castTo
  split
  · rw [BitVec.getLsbD_signExtend]; simp [hi, hv]
  · rw [BitVec.getLsbD_setWidth]; simp [hv]

/-- C87. Words of half the width: packing and unpacking are inverse, the words are the high and the low half of the value, for signed and unsigned
words (a negative low word does not spill into the high half). -/
theorem C87_words (signed : Bool) (high low : BitVec w) (value : BitVec (2 * w)) :
    unpackWord w signed (packWord (2 * w) signed high low) = (high, low) ∧
    (let p := unpackWord w signed value; packWord (2 * w) signed p.1 p.2 = value) ∧
    unpackWord w signed value = (hiWord w value, loWord w value) ∧
    (packWord (2 * w) signed high low).toNat = high.toNat * 2 ^ w + low.toNat := by
  have half : 2 * w / 2 = w := by omega
  have P : ∀ (h l : BitVec w) i, (packWord (2 * w) signed h l).getLsbD i = if i < w then l.getLsbD i else decide (i < 2 * w) && h.getLsbD (i - w) := by
    intro h l i
    unfold packWord
    rw [half, BitVec.getLsbD_or, shiftLeft_true, BitVec.getLsbD_shiftLeft]
    by_cases hi : i < 2 * w
    · rw [(C87_mask _ _).2.1 i hi]
      by_cases h1 : i < w
      · rw [castTo_low _ _ _ _ h1 hi]; simp [h1]
      · rw [castTo_low _ _ _ (i - w) (by omega) (by omega)]; simp [h1, hi]
    · rw [BitVec.getLsbD_of_ge _ i (by omega)]
      have : ¬ i < w := by omega
      simp [hi, this]
  have U : ∀ x : BitVec (2 * w), unpackWord w signed x = (hiWord w x, loWord w x) := by
    intro x
    unfold unpackWord hiWord loWord
    rw [half, shiftRight_true]
    congr 1
    · apply BitVec.eq_of_getLsbD_eq
      intro i hi
      rw [castTo_low _ _ _ _ (by omega) hi, BitVec.getLsbD_setWidth]; simp [hi]
    · apply BitVec.eq_of_getLsbD_eq
      intro i hi
      rw [castTo_low _ _ _ _ (by omega) hi, (C87_mask _ _).2.1 i (by omega), BitVec.getLsbD_setWidth]
  have H : ∀ (x : BitVec (2 * w)) i, (hiWord w x).getLsbD i = (decide (i < w) && x.getLsbD (w + i)) := by
    intro x i
    unfold hiWord
    rw [BitVec.getLsbD_setWidth, shiftRight_true, BitVec.getLsbD_ushiftRight]
  have G : ∀ (x : BitVec (2 * w)) i, (loWord w x).getLsbD i = (decide (i < w) && x.getLsbD i) := by
    intro x i
    unfold loWord
    rw [BitVec.getLsbD_setWidth]
  refine ⟨?_, ?_, U value, ?_⟩
  · rw [U]
    congr 1 <;> apply BitVec.eq_of_getLsbD_eq <;> intro i hi
    · rw [H, P, if_neg (by omega), show w + i - w = i by omega]
      have : w + i < 2 * w := by omega
      simp [hi, this]
    · rw [G, P, if_pos hi]; simp [hi]
  · dsimp only
    rw [U]
    apply BitVec.eq_of_getLsbD_eq
    intro i hi
    rw [P]
    by_cases h : i < w
    · rw [if_pos h, G]; simp [h]
    · rw [if_neg h, H, show w + (i - w) = i by omega]
      have : i - w < w := by omega
      simp [hi, this]
  · have e : packWord (2 * w) signed high low = (high ++ low).cast (by omega) := by
      apply BitVec.eq_of_getLsbD_eq
      intro i hi
      rw [P, BitVec.getLsbD_cast, BitVec.getLsbD_append]
      by_cases h : i < w
      · simp [h]
      · simp [h, hi]
    rw [e, BitVec.toNat_cast, BitVec.toNat_append, Nat.shiftLeft_eq, Nat.mul_comm, ← Nat.two_pow_add_eq_or_of_lt low.isLt]

/-- The distances and widths of the code meet the conditions. -/
example : (8 ∣ 2 ^ 32) ∧ (16 ∣ 2 ^ 32) ∧ (32 ∣ 2 ^ 32) ∧ (64 ∣ 2 ^ 32) := by decide

example : shiftLeft 0x81#8 1 = 0x02#8 ∧ shiftLeft 0x81#8 9 false = 0x02#8 ∧ rotateLeft true 0x81#8 1 = 0x03#8 ∧
    rotateLeft false 0x81#8 4294967295 = 0xc0#8 ∧ getLeft 0x81#8 0 = true ∧ setLeft 0x81#8 1 true = 0xc1#8 ∧
    maskLeft 0xff#8 3 = 0x1f#8 ∧ packWord 16 true 0xff#8 0x80#8 = 0xff80#16 := by decide

end Verif.BitOps
