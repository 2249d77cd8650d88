import Verif.Model.Sieve
import Mathlib.Tactic.Ring
import Mathlib.Tactic.ByContra
/-! Bits of the filter operations and the mask table of the sieve. -/
namespace Verif.Filter

theorem testBit_bitRight (w o i : Nat) : (bitRight w o).testBit i = decide (i = o ∧ o < w) := by
  unfold bitRight
  split
  · simp; omega
  · rename_i h
    rw [Nat.testBit_mod_two_pow, Nat.one_shiftLeft, Nat.testBit_two_pow]
    by_cases e : i = o
    · subst e; simp
    · have : o ≠ i := fun h => e h.symm
      simp [e, this]

theorem testBit_bitNot (w v i : Nat) : (bitNot w v).testBit i = (v.testBit i ^^ decide (i < w)) := by
  unfold bitNot; rw [Nat.testBit_xor, Nat.testBit_two_pow_sub_one]

theorem testBit_maskRight (w b i : Nat) : (maskRight w b).testBit i = decide (b ≤ i ∧ i < w) := by
  unfold maskRight
  split
  · rw [Nat.zero_testBit]; symm; rw [decide_eq_false_iff_not]; omega
  · rw [Nat.testBit_mod_two_pow, Nat.testBit_shiftLeft, Nat.testBit_two_pow_sub_one]
    by_cases h1 : b ≤ i <;> by_cases h2 : i < w <;> simp [h1, h2]
    omega

theorem testBit_unmaskRight (w b i : Nat) (h : b ≤ w) : (unmaskRight w b).testBit i = decide (i < b) := by
  unfold unmaskRight
  rw [testBit_bitNot, testBit_maskRight]
  by_cases h1 : b ≤ i <;> by_cases h2 : i < w <;> simp [h1, h2]
  · omega
  · omega

theorem unmaskRight_eq (w b : Nat) (h : b ≤ w) : unmaskRight w b = 2 ^ b - 1 := by
  apply Nat.eq_of_testBit_eq
  intro i
  rw [testBit_unmaskRight _ _ _ h, Nat.testBit_two_pow_sub_one]

theorem testBit_clear (w t o i : Nat) (ht : t < 2 ^ w) : (setRight w t o false).testBit i = (t.testBit i && decide (i ≠ o)) := by
  unfold setRight
  rw [if_neg (by decide), Nat.testBit_and, testBit_bitNot, testBit_bitRight]
  by_cases hi : i < w
  · by_cases e : i = o
    · subst e; simp [hi]
    · simp [hi, e]
  · rw [Nat.testBit_lt_two_pow (Nat.lt_of_lt_of_le ht (Nat.pow_le_pow_right (by decide) (by omega)))]; simp

theorem testBit_setOn (w t o i : Nat) (ho : o < w) : (setRight w t o true).testBit i = (t.testBit i || decide (i = o)) := by
  unfold setRight
  rw [if_pos rfl, Nat.testBit_or, testBit_bitRight]
  simp [ho]

theorem clear_lt (w t o : Nat) (s : Bool) (ht : t < 2 ^ w) : setRight w t o s < 2 ^ w := by
  apply Nat.lt_pow_two_of_testBit
  intro i hi
  have := Nat.testBit_lt_two_pow (Nat.lt_of_lt_of_le ht (Nat.pow_le_pow_right (by decide : 0 < 2) hi))
  unfold setRight
  split
  · rw [Nat.testBit_or, this, testBit_bitRight]; simp; omega
  · rw [Nat.testBit_and, this]; simp

theorem getRight_eq (w v o : Nat) (ho : o < w) : getRight w v o = v.testBit o := by
  unfold getRight
  cases h : v.testBit o with
  | true =>
    rw [bne_iff_ne]
    intro e
    have := congrArg (·.testBit o) e
    simp [testBit_bitRight, h, ho] at this
  | false =>
    have : v &&& bitRight w o = 0 := by
      apply Nat.eq_of_testBit_eq
      intro i
      rw [Nat.testBit_and, testBit_bitRight, Nat.zero_testBit]
      by_cases e : i = o
      · subst e; rw [h]; rfl
      · simp [e]
    rw [this]; rfl

theorem width_ge (n : Nat) (h : n ≤ 64) : n ≤ width n := by unfold width; split <;> (try split) <;> (try split) <;> (try split) <;> omega
theorem width_pos (n : Nat) : 8 ≤ width n := by unfold width; split <;> (try split) <;> (try split) <;> (try split) <;> omega

/-! ## The lowest bit, the number of bits -/

theorem rightZeros_spec (w x : Nat) (h : 0 < onesCount w x) : rightZeros w x < w ∧ x.testBit (rightZeros w x) = true := by
  unfold onesCount at h
  rw [List.countP_pos_iff] at h
  obtain ⟨a, ha, hb⟩ := h
  unfold rightZeros
  cases hf : (List.range w).find? x.testBit with
  | none =>
    rw [List.find?_eq_none] at hf
    exact absurd hb (hf a ha)
  | some b =>
    exact ⟨List.mem_range.1 (List.mem_of_find?_eq_some hf), List.find?_some hf⟩

theorem count_change (l : List Nat) (hn : l.Nodup) (x x' b : Nat) (hb : b ∈ l) (h0 : x.testBit b = false) (h1 : x'.testBit b = true)
    (he : ∀ i, i ≠ b → x'.testBit i = x.testBit i) : l.countP x'.testBit = l.countP x.testBit + 1 := by
  induction l with
  | nil => cases hb
  | cons a l ih =>
    rw [List.nodup_cons] at hn
    rw [List.countP_cons, List.countP_cons]
    by_cases e : a = b
    · subst e
      have : l.countP x'.testBit = l.countP x.testBit := by
        apply List.countP_congr
        intro i hi
        rw [he i (fun e => hn.1 (e ▸ hi))]
      rw [this, h0, h1]; simp
    · have hb : b ∈ l := by
        rcases List.mem_cons.1 hb with h | h
        · exact absurd h.symm e
        · exact h
      rw [ih hn.2 hb, he a e]; omega

theorem ones_clear (w x b : Nat) (hx : x < 2 ^ w) (hb : b < w) (h : x.testBit b = true) :
    onesCount w x = onesCount w (setRight w x b false) + 1 := by
  apply count_change _ List.nodup_range _ _ b (List.mem_range.2 hb) _ h
  · intro i hi; rw [testBit_clear _ _ _ _ hx]; simp [hi]
  · rw [testBit_clear _ _ _ _ hx]; simp

theorem ones_set (w x b : Nat) (hb : b < w) (h : x.testBit b = false) :
    onesCount w (setRight w x b true) = onesCount w x + 1 := by
  apply count_change _ List.nodup_range _ _ b (List.mem_range.2 hb) h
  · rw [testBit_setOn _ _ _ _ hb]; simp
  · intro i hi; rw [testBit_setOn _ _ _ _ hb]; simp [hi]

namespace Sieve

/-- What moving bits does: `x` loses `n` bits to `y`. -/
theorem moveBits_spec (w sb : Nat) (hsb : sb ≤ w) : ∀ (n x y : Nat), x < 2 ^ sb → y < 2 ^ sb → n ≤ onesCount w x →
    (∀ i, ¬ (x.testBit i = true ∧ y.testBit i = true)) →
    (moveBits w sb n x y).1 < 2 ^ sb ∧ (moveBits w sb n x y).2 < 2 ^ sb ∧
    onesCount w (moveBits w sb n x y).1 + n = onesCount w x ∧ onesCount w (moveBits w sb n x y).2 = onesCount w y + n ∧
    (∀ i, (moveBits w sb n x y).1.testBit i = true → x.testBit i = true) ∧
    (∀ i, ¬ ((moveBits w sb n x y).1.testBit i = true ∧ (moveBits w sb n x y).2.testBit i = true)) ∧
    (∀ i, ((moveBits w sb n x y).1.testBit i = true ∨ (moveBits w sb n x y).2.testBit i = true) ↔ (x.testBit i = true ∨ y.testBit i = true))
  | 0, x, y, hx, hy, _, hd => ⟨hx, hy, rfl, rfl, fun _ h => h, hd, fun _ => Iff.rfl⟩
  | n + 1, x, y, hx, hy, hn, hd => by
    have hpw : 2 ^ sb ≤ 2 ^ w := Nat.pow_le_pow_right (by decide) hsb
    obtain ⟨hbw, hbt⟩ := rightZeros_spec w x (by omega)
    have hlt : rightZeros w x < sb := by
      by_contra h
      rw [Nat.testBit_lt_two_pow (Nat.lt_of_lt_of_le hx (Nat.pow_le_pow_right (by decide) (by omega)))] at hbt
      cases hbt
    unfold moveBits
    dsimp only
    rw [if_pos hlt]
    generalize rightZeros w x = b at *
    have hxc := ones_clear w x b (by omega) hbw hbt
    have hyb : y.testBit b = false := by
      cases h : y.testBit b with
      | false => rfl
      | true => exact absurd ⟨hbt, h⟩ (hd b)
    have hys := ones_set w y b hbw hyb
    have bx : ∀ i, (setRight w x b false).testBit i = (x.testBit i && decide (i ≠ b)) := fun i => testBit_clear _ _ _ _ (by omega)
    have by' : ∀ i, (setRight w y b true).testBit i = (y.testBit i || decide (i = b)) := fun i => testBit_setOn _ _ _ _ hbw
    have x1 : setRight w x b false < 2 ^ sb := by
      apply Nat.lt_pow_two_of_testBit
      intro i hi
      rw [bx, Nat.testBit_lt_two_pow (Nat.lt_of_lt_of_le hx (Nat.pow_le_pow_right (by decide) hi))]; rfl
    have y1 : setRight w y b true < 2 ^ sb := by
      apply Nat.lt_pow_two_of_testBit
      intro i hi
      rw [by', Nat.testBit_lt_two_pow (Nat.lt_of_lt_of_le hy (Nat.pow_le_pow_right (by decide) hi))]
      simp; omega
    obtain ⟨r1, r2, r3, r4, r5, r6, r7⟩ := moveBits_spec w sb hsb n (setRight w x b false) (setRight w y b true) x1 y1 (by omega) (by
      intro i h
      rw [bx, by'] at h
      by_cases e : i = b
      · subst e; simp at h
      · simp [e] at h; exact hd i h)
    refine ⟨r1, r2, by omega, by omega, ?_, r6, ?_⟩
    · intro i h
      have := r5 i h
      rw [bx] at this
      simp at this
      exact this.1
    · intro i
      rw [r7 i, bx, by']
      by_cases e : i = b
      · subst e; simp [hbt]
      · simp [e]

/-! ## Rows as functions of the column -/

/-- One column carved. -/
def carveF (w sb row : Nat) (m : Nat → Nat) (col : Nat) : Nat → Nat := fun c =>
  let moved := moveBits w sb (onesCount w (m col) - target sb row col) (m col) (m row)
  if c = row then moved.2 else if c = col then moved.1 else m c

/-- The rows. -/
def rowF (w sb first : Nat) : Nat → Nat → Nat
  | 0 => fun c => if c = 0 then first else 0
  | r + 1 => (List.range (r + 1)).reverse.foldl (carveF w sb (r + 1)) (fun c => if c ≤ r then rowF w sb first r c else 0)

/-- A family of masks that splits the bits below `sb`. -/
structure Part (sb r : Nat) (m : Nat → Nat) : Prop where
  small : ∀ c, m c < 2 ^ sb
  apart : ∀ c d i, c ≠ d → ¬ ((m c).testBit i = true ∧ (m d).testBit i = true)
  cover : ∀ i, i < sb → ∃ c, c ≤ r ∧ (m c).testBit i = true
  none : ∀ c, r < c → m c = 0

theorem carveF_part {w sb row : Nat} (hsb : sb ≤ w) {m : Nat → Nat} (h : Part sb row m) {col : Nat} (hc : col < row) :
    Part sb row (carveF w sb row m col) ∧ (∀ c i, c ≠ row → (carveF w sb row m col c).testBit i = true → (m c).testBit i = true) ∧
    (∀ c, c ≠ row → c ≠ col → carveF w sb row m col c = m c) ∧
    onesCount w (carveF w sb row m col col) + (onesCount w (m col) - target sb row col) = onesCount w (m col) ∧
    onesCount w (carveF w sb row m col row) = onesCount w (m row) + (onesCount w (m col) - target sb row col) := by
  obtain ⟨r1, r2, r3, r4, r5, r6, r7⟩ := moveBits_spec w sb hsb (onesCount w (m col) - target sb row col) (m col) (m row) (h.small _) (h.small _)
    (Nat.sub_le _ _) (fun i => h.apart _ _ i (by omega))
  unfold carveF
  dsimp only
  generalize moveBits w sb (onesCount w (m col) - target sb row col) (m col) (m row) = v at *
  have hne : col ≠ row := by omega
  have out : ∀ d i, d ≠ row → d ≠ col → (m d).testBit i = true → v.1.testBit i = true ∨ v.2.testBit i = true → False := by
    intro d i h1 h2 hd hv
    rcases (r7 i).1 hv with e | e
    · exact h.apart d col i h2 ⟨hd, e⟩
    · exact h.apart d row i h1 ⟨hd, e⟩
  refine ⟨⟨?_, ?_, ?_, ?_⟩, ?_, ?_, ?_, ?_⟩
  · intro c; split
    · exact r2
    · split
      · exact r1
      · exact h.small c
  · intro c d i hcd hb
    by_cases c1 : c = row <;> by_cases d1 : d = row
    · omega
    · by_cases d2 : d = col
      · simp [c1, d2, hne] at hb; exact r6 i ⟨hb.2, hb.1⟩
      · simp [c1, d1, d2] at hb; exact out d i d1 d2 hb.2 (Or.inr hb.1)
    · by_cases c2 : c = col
      · simp [d1, c2, hne] at hb; exact r6 i hb
      · simp [c1, d1, c2] at hb; exact out c i c1 c2 hb.1 (Or.inr hb.2)
    · by_cases c2 : c = col <;> by_cases d2 : d = col
      · omega
      · simp [c2, hne, d1, d2] at hb; exact out d i d1 d2 hb.2 (Or.inl hb.1)
      · simp [d2, hne, c1, c2] at hb; exact out c i c1 c2 hb.1 (Or.inl hb.2)
      · simp [c1, d1, c2, d2] at hb; exact h.apart c d i hcd hb
  · intro i hi
    obtain ⟨c, hcr, hb⟩ := h.cover i hi
    by_cases c1 : c = row
    · rcases (r7 i).2 (Or.inr (c1 ▸ hb)) with e | e
      · exact ⟨col, by omega, by simp [hne, e]⟩
      · exact ⟨row, by omega, by simp [e]⟩
    · by_cases c2 : c = col
      · rcases (r7 i).2 (Or.inl (c2 ▸ hb)) with e | e
        · exact ⟨col, by omega, by simp [hne, e]⟩
        · exact ⟨row, by omega, by simp [e]⟩
      · exact ⟨c, hcr, by simp [c1, c2, hb]⟩
  · intro c hc'
    rw [if_neg (by omega), if_neg (by omega), h.none c hc']
  · intro c i hcr hb
    rw [if_neg hcr] at hb
    split at hb
    · rename_i e; subst e; exact r5 i hb
    · exact hb
  · intro c h1 h2; rw [if_neg h1, if_neg h2]
  · rw [if_neg hne, if_pos rfl]; exact r3
  · rw [if_pos rfl]; exact r4

/-- All columns carved: only the listed ones change. -/
theorem fold_part {w sb row : Nat} (hsb : sb ≤ w) : ∀ (cols : List Nat) (m : Nat → Nat), cols.Nodup → (∀ c ∈ cols, c < row) → Part sb row m →
    (∀ c ∈ cols, target sb row c ≤ onesCount w (m c)) →
    Part sb row (cols.foldl (carveF w sb row) m) ∧
    (∀ c i, c ≠ row → (cols.foldl (carveF w sb row) m c).testBit i = true → (m c).testBit i = true) ∧
    (∀ c, c ≠ row → c ∉ cols → cols.foldl (carveF w sb row) m c = m c) ∧
    (∀ c ∈ cols, onesCount w (cols.foldl (carveF w sb row) m c) = target sb row c) ∧
    onesCount w (cols.foldl (carveF w sb row) m row) + (cols.map (target sb row)).sum =
      onesCount w (m row) + (cols.map (fun c => onesCount w (m c))).sum
  | [], m, _, _, h, _ => ⟨h, fun _ _ _ h => h, fun _ _ _ => rfl, fun _ h => absurd h (List.not_mem_nil), rfl⟩
  | col :: cols, m, hn, hlt, h, ht => by
    rw [List.nodup_cons] at hn
    obtain ⟨p1, p2, p3, p4, p5⟩ := carveF_part hsb h (hlt col (List.mem_cons_self))
    have hcr : ∀ c ∈ cols, c ≠ row := fun c hc e => absurd (hlt c (List.mem_cons_of_mem _ hc)) (by omega)
    have same : ∀ c ∈ cols, carveF w sb row m col c = m c := fun c hc => p3 c (hcr c hc) (fun e => hn.1 (e ▸ hc))
    obtain ⟨q1, q2, q3, q4, q5⟩ := fold_part hsb cols (carveF w sb row m col) hn.2 (fun c hc => hlt c (List.mem_cons_of_mem _ hc)) p1
      (fun c hc => by rw [same c hc]; exact ht c (List.mem_cons_of_mem _ hc))
    have htc := ht col List.mem_cons_self
    have hcol := hlt col List.mem_cons_self
    refine ⟨q1, fun c i hc hb => p2 c i hc (q2 c i hc hb), ?_, ?_, ?_⟩
    · intro c hc hm
      rw [List.mem_cons, not_or] at hm
      exact (q3 c hc hm.2).trans (p3 c hc hm.1)
    · intro c hc
      rcases List.mem_cons.1 hc with e | e
      · subst e
        rw [List.foldl_cons, q3 c (by omega) hn.1]; omega
      · exact q4 c e
    · rw [List.foldl_cons, List.map_cons, List.map_cons, List.sum_cons, List.sum_cons]
      have : cols.map (fun c => onesCount w (carveF w sb row m col c)) = cols.map (fun c => onesCount w (m c)) :=
        List.map_congr_left (fun c hc => by rw [same c hc])
      rw [this] at q5
      omega

/-! ## Sizes of the masks -/

theorem target_eq {sb n c : Nat} (hc : c < n) (hs : c < sb) : sb / n + (if c < sb % n then 1 else 0) = (sb - c - 1) / n + 1 := by
  have hn : 0 < n := by omega
  have hr := Nat.mod_lt sb hn
  have hd := Nat.div_add_mod sb n
  generalize sb / n = q at *
  generalize sb % n = r at *
  split
  · rename_i h
    have e : sb - c - 1 = (r - c - 1) + n * q := by omega
    rw [e, Nat.add_mul_div_left _ _ hn, Nat.div_eq_of_lt (by omega)]; omega
  · rename_i h
    cases q with
    | zero => omega
    | succ q =>
      rw [Nat.mul_succ] at hd
      have e : sb - c - 1 = (n + r - c - 1) + n * q := by omega
      rw [e, Nat.add_mul_div_left _ _ hn, Nat.div_eq_of_lt (by omega)]; omega

theorem target_mono (sb r c : Nat) (hc : c ≤ r) : target sb (r + 1) c ≤ target sb r c := by
  by_cases hs : c < sb
  · unfold target
    rw [target_eq (by omega) hs, target_eq (by omega) hs]
    have := Nat.div_le_div_left (show r + 1 ≤ r + 1 + 1 by omega) (by omega) (a := sb - c - 1)
    omega
  · unfold target
    rw [Nat.div_eq_of_lt (show sb < r + 1 + 1 by omega), if_neg]
    · exact Nat.zero_le _
    · rw [Nat.mod_eq_of_lt (show sb < r + 1 + 1 by omega)]; exact hs

theorem sum_ones (k : Nat) : ∀ n, ((List.range n).map (fun c => if c < k then 1 else 0)).sum = min k n
  | 0 => by simp
  | n + 1 => by
    rw [List.range_succ, List.map_append, List.sum_append, sum_ones k n]
    simp only [List.map_cons, List.map_nil, List.sum_cons, List.sum_nil]
    split <;> omega

theorem sum_add_const (f : Nat → Nat) (q : Nat) : ∀ n, ((List.range n).map (fun c => q + f c)).sum = n * q + ((List.range n).map f).sum
  | 0 => by simp
  | n + 1 => by
    rw [List.range_succ, List.map_append, List.sum_append, sum_add_const f q n, List.map_append, List.sum_append, Nat.succ_mul]
    simp only [List.map_cons, List.map_nil, List.sum_cons, List.sum_nil]
    omega

theorem target_sum (sb r : Nat) : ((List.range (r + 1)).map (target sb r)).sum = sb := by
  show ((List.range (r + 1)).map (fun c => sb / (r + 1) + (if c < sb % (r + 1) then 1 else 0))).sum = sb
  rw [sum_add_const, sum_ones]
  have := Nat.mod_lt sb (show 0 < r + 1 by omega)
  rw [Nat.min_eq_left (by omega)]
  exact Nat.div_add_mod sb (r + 1)

theorem ones_first (w sb : Nat) (h : sb ≤ w) : onesCount w (2 ^ sb - 1) = sb := by
  unfold onesCount
  have : ∀ n, (List.range n).countP (2 ^ sb - 1).testBit = min sb n := by
    intro n
    induction n with
    | zero => simp
    | succ n ih =>
      rw [List.range_succ, List.countP_append, ih, List.countP_cons, List.countP_nil, Nat.testBit_two_pow_sub_one]
      by_cases e : n < sb
      · simp [e]; omega
      · simp [e]; omega
  rw [this, Nat.min_eq_left h]

theorem ones_zero (w : Nat) : onesCount w 0 = 0 := by
  unfold onesCount
  rw [List.countP_eq_zero]
  intro a _
  simp

theorem sum_reverse' (l : List Nat) : l.reverse.sum = l.sum := List.sum_reverse l

theorem rowF_start {w sb r : Nat} {m : Nat → Nat} (h : Part sb r m) : Part sb (r + 1) (fun c => if c ≤ r then m c else 0) := by
  refine ⟨?_, ?_, ?_, ?_⟩
  · intro c; split
    · exact h.small c
    · exact Nat.two_pow_pos _
  · intro c d i hcd hb
    split at hb
    · split at hb
      · exact h.apart c d i hcd hb
      · simp at hb
    · simp at hb
  · intro i hi
    obtain ⟨c, hc, hb⟩ := h.cover i hi
    exact ⟨c, by omega, by rw [if_pos hc]; exact hb⟩
  · intro c hc
    rw [if_neg (by omega)]

/-- The masks of each row split the bits evenly, and each row refines the row before. -/
theorem rowF_part (w sb : Nat) (hsb : sb ≤ w) : ∀ r, Part sb r (rowF w sb (2 ^ sb - 1) r) ∧
    (∀ c, c ≤ r → onesCount w (rowF w sb (2 ^ sb - 1) r c) = target sb r c) ∧
    (∀ c i, c ≤ r → (rowF w sb (2 ^ sb - 1) (r + 1) c).testBit i = true → (rowF w sb (2 ^ sb - 1) r c).testBit i = true) := by
  have step : ∀ r, Part sb r (rowF w sb (2 ^ sb - 1) r) → (∀ c, c ≤ r → onesCount w (rowF w sb (2 ^ sb - 1) r c) = target sb r c) →
      Part sb (r + 1) (rowF w sb (2 ^ sb - 1) (r + 1)) ∧
      (∀ c, c ≤ r + 1 → onesCount w (rowF w sb (2 ^ sb - 1) (r + 1) c) = target sb (r + 1) c) ∧
      (∀ c i, c ≤ r → (rowF w sb (2 ^ sb - 1) (r + 1) c).testBit i = true → (rowF w sb (2 ^ sb - 1) r c).testBit i = true) := by
    intro r hp hs
    obtain ⟨q1, q2, q3, q4, q5⟩ := fold_part (row := r + 1) hsb (List.range (r + 1)).reverse (fun c => if c ≤ r then rowF w sb (2 ^ sb - 1) r c else 0)
      ((List.reverse_perm _).nodup_iff.2 List.nodup_range) (fun c hc => by simpa using hc) (rowF_start (w := w) hp) (by
        intro c hc
        have hc : c ≤ r := by simp at hc; omega
        rw [if_pos hc, hs c hc]
        exact target_mono sb r c hc)
    refine ⟨q1, ?_, ?_⟩
    · intro c hc
      by_cases e : c = r + 1
      · subst e
        rw [List.map_reverse, List.sum_reverse, List.map_reverse, List.sum_reverse] at q5
        have e1 : (List.range (r + 1)).map (fun c => onesCount w (if c ≤ r then rowF w sb (2 ^ sb - 1) r c else 0)) = (List.range (r + 1)).map (target sb r) := by
          apply List.map_congr_left
          intro c hc
          rw [List.mem_range] at hc
          rw [if_pos (by omega), hs c (by omega)]
        rw [e1, target_sum, if_neg (by omega), ones_zero] at q5
        have e2 := target_sum sb (r + 1)
        rw [List.range_succ, List.map_append, List.sum_append] at e2
        simp only [List.map_cons, List.map_nil, List.sum_cons, List.sum_nil] at e2
        rw [rowF]
        omega
      · exact q4 c (by simp; omega)
    · intro c i hc hb
      have := q2 c i (by omega) hb
      rw [if_pos hc] at this
      exact this
  have base : Part sb 0 (rowF w sb (2 ^ sb - 1) 0) ∧ (∀ c, c ≤ 0 → onesCount w (rowF w sb (2 ^ sb - 1) 0 c) = target sb 0 c) := by
    have hpos := Nat.two_pow_pos sb
    refine ⟨⟨?_, ?_, ?_, ?_⟩, ?_⟩
    · intro c; unfold rowF; split <;> omega
    · intro c d i hcd hb
      unfold rowF at hb
      by_cases h1 : c = 0
      · have : d ≠ 0 := by omega
        simp [this] at hb
      · simp [h1] at hb
    · intro i hi
      exact ⟨0, Nat.le_refl _, by unfold rowF; rw [if_pos rfl, Nat.testBit_two_pow_sub_one]; simpa using hi⟩
    · intro c hc; unfold rowF; rw [if_neg (by omega)]
    · intro c hc
      obtain rfl : c = 0 := by omega
      unfold rowF target
      rw [if_pos rfl, ones_first w sb hsb]
      simp
      omega
  intro r
  have main : Part sb r (rowF w sb (2 ^ sb - 1) r) ∧ (∀ c, c ≤ r → onesCount w (rowF w sb (2 ^ sb - 1) r c) = target sb r c) := by
    induction r with
    | zero => exact base
    | succ r ih => exact ⟨(step r ih.1 ih.2).1, (step r ih.1 ih.2).2.1⟩
  exact ⟨main.1, main.2, (step r main.1 main.2).2.2⟩

/-! ## The flat table -/

theorem entry_set (t : List Nat) (i j v : Nat) : entry (t.set i v) j = if i = j ∧ i < t.length then v else entry t j := by
  unfold entry
  rw [List.getD_eq_getElem?_getD, List.getElem?_set, List.getD_eq_getElem?_getD]
  by_cases h : i = j
  · subst h
    by_cases h2 : i < t.length
    · simp [h2]
    · simp [h2]
  · simp [h]

/-- Triangular offsets, when they are representable. -/
theorem offset_eq {S i n : Nat} (h : n * (n + 1) < 2 ^ width S) (hi : i ≤ n) : offset S i = i * (i + 1) / 2 := by
  unfold offset
  have : i * (i + 1) ≤ n * (n + 1) := Nat.mul_le_mul hi (by omega)
  rw [if_neg (by omega)]

theorem tri_succ (i : Nat) : (i + 1) * (i + 1 + 1) / 2 = i * (i + 1) / 2 + i + 1 := by
  have : (i + 1) * (i + 1 + 1) = i * (i + 1) + (i + 1) * 2 := by ring
  rw [this, Nat.add_mul_div_right _ _ (by decide)]; omega

theorem tri_lt {i j : Nat} (h : i < j) : i * (i + 1) / 2 + i < j * (j + 1) / 2 := by
  have : (i + 1) * (i + 1 + 1) / 2 ≤ j * (j + 1) / 2 := Nat.div_le_div_right (Nat.mul_le_mul h (by omega))
  rw [tri_succ] at this
  omega

theorem copy_entries (o p : Nat) : ∀ (n : Nat) (t : List Nat), p + n ≤ o → o + n ≤ t.length →
    ((List.range n).foldl (fun t col => t.set (o + col) (entry t (p + col))) t).length = t.length ∧
    ∀ j, entry ((List.range n).foldl (fun t col => t.set (o + col) (entry t (p + col))) t) j =
      if o ≤ j ∧ j < o + n then entry t (p + (j - o)) else entry t j
  | 0, t, _, _ => ⟨rfl, fun j => by rw [if_neg (by omega)]; rfl⟩
  | n + 1, t, h1, h2 => by
    obtain ⟨l, e⟩ := copy_entries o p n t (by omega) (by omega)
    rw [List.range_succ, List.foldl_append]
    simp only [List.foldl_cons, List.foldl_nil]
    refine ⟨by rw [List.length_set, l], ?_⟩
    intro j
    rw [entry_set, l, e, e]
    by_cases h : o + n = j
    · rw [if_pos ⟨h, by omega⟩, if_neg (by omega), if_pos (by omega)]
      congr 1; omega
    · rw [if_neg (fun x => h x.1)]
      by_cases h3 : o ≤ j ∧ j < o + n
      · rw [if_pos h3, if_pos (by omega)]
      · rw [if_neg h3, if_neg (by omega)]

/-- The columns are carved in the flat table as in the function. -/
theorem carve_entries (S L row : Nat) : ∀ (cols : List Nat) (t : List Nat) (m : Nat → Nat), (∀ c ∈ cols, c < row) →
    offset S row + row < t.length → (∀ c, c ≤ row → entry t (offset S row + c) = m c) →
    (cols.foldl (carve S L row) t).length = t.length ∧
    (∀ c, c ≤ row → entry (cols.foldl (carve S L row) t) (offset S row + c) = cols.foldl (carveF (width S) (screenBits S L) row) m c) ∧
    ∀ j, j < offset S row ∨ offset S row + row < j → entry (cols.foldl (carve S L row) t) j = entry t j
  | [], t, m, _, _, h => ⟨rfl, h, fun _ _ => rfl⟩
  | col :: cols, t, m, hc, hl, h => by
    have hcol := hc col List.mem_cons_self
    have hlen : (carve S L row t col).length = t.length := by unfold carve; rw [List.length_set, List.length_set]
    have hent : ∀ j, entry (carve S L row t col) j =
        if offset S row + row = j then (moveBits (width S) (screenBits S L) (onesCount (width S) (m col) - target (screenBits S L) row col) (m col) (m row)).2
        else if offset S row + col = j then (moveBits (width S) (screenBits S L) (onesCount (width S) (m col) - target (screenBits S L) row col) (m col) (m row)).1
        else entry t j := by
      intro j
      unfold carve
      dsimp only
      rw [entry_set, List.length_set, entry_set, h col (by omega), h row (by omega)]
      by_cases h1 : offset S row + row = j
      · rw [if_pos ⟨h1, hl⟩, if_pos h1]
      · rw [if_neg (fun x => h1 x.1), if_neg h1]
        by_cases h2 : offset S row + col = j
        · rw [if_pos ⟨h2, by omega⟩, if_pos h2]
        · rw [if_neg (fun x => h2 x.1), if_neg h2]
    obtain ⟨r1, r2, r3⟩ := carve_entries S L row cols (carve S L row t col) (carveF (width S) (screenBits S L) row m col)
      (fun c hc' => hc c (List.mem_cons_of_mem _ hc')) (by rw [hlen]; exact hl) (by
        intro c hc'
        rw [hent]
        unfold carveF
        dsimp only
        by_cases h1 : c = row
        · rw [if_pos (by omega), if_pos h1]
        · rw [if_neg (by omega), if_neg h1]
          by_cases h2 : c = col
          · rw [if_pos (by omega), if_pos h2]
          · rw [if_neg (by omega), if_neg h2, h c hc'])
    refine ⟨r1.trans hlen, r2, ?_⟩
    intro j hj
    rw [List.foldl_cons, r3 j hj, hent, if_neg (by omega), if_neg (by omega)]

theorem nextRow_entries (S L r : Nat) (t : List Nat) (m : Nat → Nat) (h1 : offset S r + r + 1 = offset S (r + 1))
    (hl : offset S (r + 1) + (r + 1) < t.length) (hm : ∀ c, c ≤ r → entry t (offset S r + c) = m c)
    (hz : entry t (offset S (r + 1) + (r + 1)) = 0) :
    (nextRow S L t (r + 1)).length = t.length ∧
    (∀ c, c ≤ r + 1 → entry (nextRow S L t (r + 1)) (offset S (r + 1) + c) =
      (List.range (r + 1)).reverse.foldl (carveF (width S) (screenBits S L) (r + 1)) (fun c => if c ≤ r then m c else 0) c) ∧
    ∀ j, j < offset S (r + 1) ∨ offset S (r + 1) + (r + 1) < j → entry (nextRow S L t (r + 1)) j = entry t j := by
  obtain ⟨cl, ce⟩ := copy_entries (offset S (r + 1)) (offset S r) (r + 1) t (by omega) (by omega)
  unfold nextRow
  obtain ⟨q1, q2, q3⟩ := carve_entries S L (r + 1) (List.range (r + 1)).reverse (copyRow S (r + 1) t) (fun c => if c ≤ r then m c else 0)
    (fun c hc => by simpa using hc) (by unfold copyRow; rw [Nat.add_sub_cancel, cl]; exact hl) (by
      intro c hc
      unfold copyRow
      rw [Nat.add_sub_cancel, ce]
      by_cases e : c ≤ r
      · rw [if_pos (by omega), if_pos e, Nat.add_sub_cancel_left, hm c e]
      · rw [if_neg (by omega), if_neg e]
        have : c = r + 1 := by omega
        rw [this, hz])
  refine ⟨q1.trans ?_, q2, ?_⟩
  · unfold copyRow; rw [Nat.add_sub_cancel]; exact cl
  · intro j hj
    rw [q3 j hj]
    unfold copyRow
    rw [Nat.add_sub_cancel, ce, if_neg (by omega)]

/-- The table before the sentinel is cleared. -/
theorem rows_entries (S L : Nat) (n : Nat) (hn : n * (n + 1) < 2 ^ width S) (t : List Nat) (hl : n * (n + 1) / 2 + n < t.length)
    (h0 : entry t 0 = 2 ^ screenBits S L - 1) (hz : ∀ j, 0 < j → entry t j = 0) : ∀ k, k ≤ n →
    (((List.range (k + 1)).drop 1).foldl (nextRow S L) t).length = t.length ∧
    (∀ r c, r ≤ k → c ≤ r → entry (((List.range (k + 1)).drop 1).foldl (nextRow S L) t) (offset S r + c) =
      rowF (width S) (screenBits S L) (2 ^ screenBits S L - 1) r c) ∧
    ∀ j, offset S k + k < j → entry (((List.range (k + 1)).drop 1).foldl (nextRow S L) t) j = 0
  | 0, _ => by
    have o0 : offset S 0 = 0 := by rw [offset_eq hn (Nat.zero_le _)]
    refine ⟨rfl, ?_, ?_⟩
    · intro r c hr hc
      obtain rfl : r = 0 := by omega
      obtain rfl : c = 0 := by omega
      rw [o0]
      unfold rowF
      rw [if_pos rfl]
      exact h0
    · intro j hj
      rw [o0] at hj
      exact hz j (by omega)
  | k + 1, hk => by
    obtain ⟨l, e, z⟩ := rows_entries S L n hn t hl h0 hz k (by omega)
    have hs : (List.range (k + 1 + 1)).drop 1 = (List.range (k + 1)).drop 1 ++ [k + 1] := by
      rw [List.range_succ, List.drop_append_of_le_length (by simp)]
    rw [hs, List.foldl_append]
    simp only [List.foldl_cons, List.foldl_nil]
    generalize ((List.range (k + 1)).drop 1).foldl (nextRow S L) t = u at *
    have ok : offset S k + k + 1 = offset S (k + 1) := by rw [offset_eq hn (by omega), offset_eq hn hk, tri_succ]
    have hlast : offset S (k + 1) + (k + 1) < t.length := by
      have : (k + 1) * (k + 1 + 1) / 2 ≤ n * (n + 1) / 2 := Nat.div_le_div_right (Nat.mul_le_mul hk (by omega))
      rw [offset_eq hn hk]
      omega
    obtain ⟨q1, q2, q3⟩ := nextRow_entries S L k u (rowF (width S) (screenBits S L) (2 ^ screenBits S L - 1) k) ok (by rw [l]; exact hlast)
      (fun c hc => e k c (Nat.le_refl _) hc) (z _ (by omega))
    refine ⟨q1.trans l, ?_, ?_⟩
    · intro r c hr hc
      by_cases h : r = k + 1
      · subst h
        rw [q2 c hc]
        rfl
      · have hlt : offset S r + r < offset S (k + 1) := by
          rw [offset_eq hn (by omega), offset_eq hn hk]
          exact tri_lt (by omega)
        rw [q3 _ (by omega), e r c (by omega) hc]
    · intro j hj
      rw [q3 j (by omega), z j (by omega)]

theorem clear_entries (w b o : Nat) : ∀ (n : Nat) (t : List Nat), o + n ≤ t.length →
    ∀ j, entry ((List.range n).foldl (fun t col => t.set (o + col) (setRight w (entry t (o + col)) b false)) t) j =
      if o ≤ j ∧ j < o + n then setRight w (entry t j) b false else entry t j := by
  have key : ∀ (n : Nat) (t : List Nat), o + n ≤ t.length →
    ((List.range n).foldl (fun t col => t.set (o + col) (setRight w (entry t (o + col)) b false)) t).length = t.length ∧
    ∀ j, entry ((List.range n).foldl (fun t col => t.set (o + col) (setRight w (entry t (o + col)) b false)) t) j =
      if o ≤ j ∧ j < o + n then setRight w (entry t j) b false else entry t j := by
    intro n t
    induction n with
    | zero => intro _; exact ⟨rfl, fun j => by rw [if_neg (by omega)]; rfl⟩
    | succ n ih =>
      intro h
      obtain ⟨l, e⟩ := ih (by omega)
      rw [List.range_succ, List.foldl_append]
      simp only [List.foldl_cons, List.foldl_nil]
      refine ⟨by rw [List.length_set, l], ?_⟩
      intro j
      rw [entry_set, l, e, e]
      by_cases h3 : o + n = j
      · subst h3
        rw [if_pos ⟨rfl, by omega⟩, if_neg (by omega), if_pos (by omega)]
      · rw [if_neg (fun x => h3 x.1)]
        by_cases h4 : o ≤ j ∧ j < o + n
        · rw [if_pos h4, if_pos (by omega)]
        · rw [if_neg h4, if_neg (by omega)]
  exact fun n t h => (key n t h).2

theorem masks_eq (S L : Nat) (hS : S ≤ 64) (hn : limit L * (limit L + 1) < 2 ^ width S) (r c : Nat) (hr : r ≤ limit L) (hc : c ≤ r) :
    masks S L r c = if r = limit L then setRight (width S) (rowF (width S) (screenBits S L) (2 ^ screenBits S L - 1) r c) (sentinel S L) false
      else rowF (width S) (screenBits S L) (2 ^ screenBits S L - 1) r c := by
  have hp : 0 < screens L := Nat.two_pow_pos _
  have hsc : screens L = limit L + 1 := by unfold limit; omega
  have hfm : firstMask S L = 2 ^ screenBits S L - 1 := by
    unfold firstMask
    rw [unmaskRight_eq _ _ (Nat.le_trans (show screenBits S L ≤ S from Nat.sub_le _ _) (width_ge S hS))]
  have hlen : screens L * (screens L + 1) / 2 = limit L * (limit L + 1) / 2 + limit L + 1 := by rw [hsc, tri_succ]
  unfold masks table
  dsimp only
  rw [hlen, hsc, hfm]
  generalize hst : (List.replicate (limit L * (limit L + 1) / 2 + limit L + 1) 0).set 0 (2 ^ screenBits S L - 1) = start
  have hl : start.length = limit L * (limit L + 1) / 2 + limit L + 1 := by rw [← hst]; simp
  have rep : ∀ n j, entry (List.replicate n 0) j = 0 := by
    intro n j; unfold entry; rw [List.getD_eq_getElem?_getD, List.getElem?_replicate]; split <;> rfl
  obtain ⟨q1, q2, -⟩ := rows_entries S L (limit L) hn start (by omega) (by rw [← hst, entry_set, if_pos (by simp)])
    (by intro j hj; rw [← hst, entry_set, if_neg (by omega), rep]) (limit L) (Nat.le_refl _)
  rw [clear_entries _ _ _ _ _ (by rw [q1, hl, offset_eq hn (Nat.le_refl _)]; omega), q2 r c hr hc]
  have ho := offset_eq (S := S) hn hr
  have ho' := offset_eq (S := S) hn (Nat.le_refl (limit L))
  by_cases h : r = limit L
  · subst h
    rw [if_pos (by omega), if_pos rfl]
  · have := tri_lt (show r < limit L by omega)
    rw [if_neg (by omega), if_neg h]

end Sieve
end Verif.Filter
