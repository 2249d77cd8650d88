import Verif.Model.Sha
import Verif.Spec.Hash
import Verif.Lemmas.Stream
/-!
# The SHA-2 and SHA-1 compression functions of the model are those of FIPS 180-4
-/
namespace Verif.Sha
open Verif.Spec.Hash

/-! ### Bytes -/

theorem leRep_eq (n v : Nat) : leRep n v = leBytes n v := by
  induction n generalizing v with
  | zero => rfl
  | succ n ih =>
    rw [leRep, List.range_succ_eq_map, List.map_cons, List.map_map, leBytes, ← ih]
    congr 1
    · simp
      apply UInt8.toNat_inj.mp
      simp
    · rw [leRep]
      apply List.map_congr_left
      intro i _
      simp [Nat.pow_succ', Nat.div_div_eq_div_mul]

theorem beRep_eq (n v : Nat) : beRep n v = beBytes n v := by
  rw [beBytes, ← leRep_eq, leRep, beRep]
  apply List.ext_getElem
  · simp
  · intro i h1 h2
    simp at h1
    simp

theorem beVal_eq (b : Bytes) : beVal b = beNat b := by
  have : ∀ (b : Bytes) (n : Nat), b.foldl (fun n b => 256 * n + b.toNat) n = leNat b.reverse + 256 ^ b.length * n := by
    intro b
    induction b with
    | nil => intro n; simp [leNat]
    | cons x xs ih =>
      intro n
      rw [List.foldl_cons, ih, List.reverse_cons, leNat_append, List.length_cons, List.length_reverse, Nat.pow_succ]
      simp only [leNat]
      generalize 256 ^ xs.length = k
      rw [Nat.mul_add, Nat.mul_assoc]
      simp only [Nat.mul_zero, Nat.add_zero]
      omega
  rw [beVal, this, beNat]
  simp

theorem leVal_eq (b : Bytes) : leVal b = leNat b := by
  rw [leVal, beVal_eq, beNat, List.reverse_reverse]

/-! ### Arrays -/

@[simp] theorem setMany_length {α : Type} (xs : List α) : ∀ (l : List α) (i : Nat), (setMany l i xs).length = l.length := by
  induction xs with
  | nil => intros; rfl
  | cons x xs ih => intro l i; rw [setMany, ih, List.length_set]

theorem setMany_getElem? {α : Type} (xs : List α) : ∀ (l : List α) (i j : Nat),
    (setMany l i xs)[j]? = if i ≤ j ∧ j < i + xs.length ∧ j < l.length then xs[j - i]? else l[j]? := by
  induction xs with
  | nil => intro l i j; rw [setMany, if_neg]; simp; omega
  | cons x xs ih =>
    intro l i j
    rw [setMany, ih, List.length_set, List.length_cons]
    by_cases h : i = j
    · subst h
      rw [if_neg (by omega), List.getElem?_set]
      by_cases hl : i < l.length
      · simp [hl]
      · simp [hl]
    · by_cases h1 : i + 1 ≤ j ∧ j < i + 1 + xs.length ∧ j < l.length
      · rw [if_pos h1, if_pos (by omega), show j - i = (j - (i + 1)) + 1 by omega, List.getElem?_cons_succ]
      · rw [if_neg h1, if_neg (by omega), List.getElem?_set, if_neg h]

/-- Overwriting a prefix. -/
theorem setMany_eq {α : Type} (l xs : List α) (i : Nat) (h : i + xs.length ≤ l.length) :
    setMany l i xs = l.take i ++ xs ++ l.drop (i + xs.length) := by
  apply List.ext_getElem?
  intro j
  rw [setMany_getElem?, List.append_assoc]
  by_cases h1 : j < i
  · rw [if_neg (by omega), List.getElem?_append_left (by simp; omega), List.getElem?_take, if_pos h1]
  · rw [List.getElem?_append_right (by simp; omega)]
    simp only [List.length_take, Nat.min_eq_left (show i ≤ l.length by omega)]
    by_cases h2 : j < i + xs.length
    · rw [if_pos (by omega), List.getElem?_append_left (by omega)]
    · rw [if_neg (by omega), List.getElem?_append_right (by omega), List.getElem?_drop]
      congr 1
      omega

variable {w : Nat}

theorem rd_eq (l : List (BitVec w)) (i : Nat) : rd l i = (l[i]?).getD 0 := by
  rw [rd, List.getD_eq_getElem?_getD]

theorem rd_set (l : List (BitVec w)) (i j : Nat) (x : BitVec w) :
    rd (l.set i x) j = if i = j ∧ j < l.length then x else rd l j := by
  rw [rd_eq, rd_eq, List.getElem?_set]
  by_cases h : i = j
  · subst h
    by_cases hl : i < l.length
    · simp [hl]
    · simp [hl]
  · simp [h]

theorem rd_setMany (l xs : List (BitVec w)) (i j : Nat) :
    rd (setMany l i xs) j = if i ≤ j ∧ j < i + xs.length ∧ j < l.length then rd xs (j - i) else rd l j := by
  rw [rd_eq, setMany_getElem?]
  by_cases h : i ≤ j ∧ j < i + xs.length ∧ j < l.length
  · rw [if_pos h, if_pos h, rd_eq]
  · rw [if_neg h, if_neg h, rd_eq]

theorem rd_map_range (n i : Nat) (f : Nat → BitVec w) (h : i < n) : rd ((List.range n).map f) i = f i := by
  rw [rd_eq]
  simp [h]

/-! ### Rotations -/

theorem ror_bit (x : BitVec w) (r i : Nat) (hr : r < w) (hi : i < w) :
    (x.rotateRight r).getLsbD i = x.getLsbD ((i + r) % w) := by
  rw [BitVec.getLsbD_rotateRight, Nat.mod_eq_of_lt hr]
  by_cases h : i < w - r
  · rw [decide_eq_true h, cond_true, Nat.mod_eq_of_lt (by omega), Nat.add_comm]
  · rw [decide_eq_false h, cond_false, Nat.mod_eq_sub_mod (by omega), Nat.mod_eq_of_lt (by omega)]
    simp [hi]
    congr 1
    omega

theorem ror_ror (x : BitVec w) (a b : Nat) (h : a + b < w) : (x.rotateRight a).rotateRight b = x.rotateRight (a + b) := by
  apply BitVec.eq_of_getLsbD_eq
  intro i hi
  rw [ror_bit _ _ _ (by omega) hi, ror_bit _ _ _ (by omega) (Nat.mod_lt _ (by omega)), ror_bit _ _ _ h hi]
  congr 1
  rw [Nat.mod_add_mod]
  congr 1
  omega

theorem ror_xor (x y : BitVec w) (a : Nat) (h : a < w) : (x ^^^ y).rotateRight a = x.rotateRight a ^^^ y.rotateRight a := by
  apply BitVec.eq_of_getLsbD_eq
  intro i hi
  rw [BitVec.getLsbD_xor, ror_bit _ _ _ h hi, ror_bit _ _ _ h hi, ror_bit _ _ _ h hi, BitVec.getLsbD_xor]

theorem Sigma_eq (A B C : Nat) (x : BitVec w) (h1 : A ≤ B) (h2 : B ≤ C) (h3 : C < w) :
    Sigma A B C x = bigSigma (A, B, C) x := by
  rw [Sigma, bigSigma, ror_xor _ _ _ (by omega), ror_xor _ _ _ (by omega), ror_xor _ _ _ (by omega),
    ror_ror _ _ _ (by omega), ror_ror _ _ _ (by omega), ror_ror _ _ _ (by omega),
    show B - A + A = B by omega, show C - B + B = C by omega]
  show _ = x.rotateRight A ^^^ x.rotateRight B ^^^ x.rotateRight C
  ac_rfl

theorem sigma_eq (A B C : Nat) (x : BitVec w) : sigma A B C x = smallSigma (A, B, C) x := rfl

theorem choice_eq (x y z : BitVec w) : choice x y z = Ch x y z := by
  apply BitVec.eq_of_getLsbD_eq
  intro i hi
  simp only [choice, Ch, BitVec.getLsbD_xor, BitVec.getLsbD_and, BitVec.getLsbD_not, hi, decide_true]
  cases x.getLsbD i <;> cases y.getLsbD i <;> cases z.getLsbD i <;> rfl

theorem majority_eq (x y z : BitVec w) : majority x y z = Maj x y z := by
  apply BitVec.eq_of_getLsbD_eq
  intro i hi
  simp only [majority, Maj, BitVec.getLsbD_xor, BitVec.getLsbD_and, BitVec.getLsbD_or]
  cases x.getLsbD i <;> cases y.getLsbD i <;> cases z.getLsbD i <;> rfl

/-! ### Schedule -/

/-- The parameters of the code against those of the standard. -/
structure Matches (p : Params w) (q : Sha2 w) : Prop where
  strength : p.strength ≠ 160
  words : p.stateWords = 8
  rounds : p.rounds = q.rounds
  few : 16 ≤ p.rounds
  eight : p.rounds % 8 = 0
  K : p.K = q.K
  H : p.H = q.H
  digest : p.digest / 8 = q.digestBytes
  hlen : p.H.length = 8
  s0 : ∀ x, sigma0 p x = smallSigma q.small0 x
  s1 : ∀ x, sigma1 p x = smallSigma q.small1 x
  S0 : ∀ x, Sigma0 p x = bigSigma q.big0 x
  S1 : ∀ x, Sigma1 p x = bigSigma q.big1 x

theorem foldl_length {α β : Type} (f : List α → β → List α) (h : ∀ l b, (f l b).length = l.length) (bs : List β) :
    ∀ l, (bs.foldl f l).length = l.length := by
  induction bs with
  | nil => intro l; rfl
  | cons b bs ih => intro l; rw [List.foldl_cons, ih, h]

theorem konstant_length (p : Params w) (l : List (BitVec w)) : (konstant p l).length = l.length :=
  foldl_length _ (fun _ _ => List.length_set ..) _ _

theorem rd_konstant_upto (p : Params w) (l : List (BitVec w)) (n : Nat) : ∀ i,
    rd ((List.range n).foldl (konstant1 p) l) i = if i < n ∧ i < l.length then rd l i + rd p.K i else rd l i := by
  induction n with
  | zero => intro i; simp
  | succ n ih =>
    intro i
    rw [List.range_succ, List.foldl_append, List.foldl_cons, List.foldl_nil, konstant1, rd_set, ih, ih,
      foldl_length _ (fun l r => by rw [konstant1, List.length_set])]
    by_cases h : n = i
    · subst h
      by_cases hl : n < l.length
      · rw [if_pos ⟨rfl, hl⟩, if_neg (by omega), if_pos (by omega)]
      · rw [if_neg (by omega), if_neg (by omega), if_neg (by omega)]
    · rw [if_neg (by omega)]
      by_cases h2 : i < n ∧ i < l.length
      · rw [if_pos h2, if_pos (by omega)]
      · rw [if_neg h2, if_neg (by omega)]

theorem prepare_length (p : Params w) (l : List (BitVec w)) (r : Nat) : (prepare p l r).length = l.length := by
  unfold prepare
  split <;> rw [List.length_set]

theorem scheduleScalar_length (p : Params w) (l : List (BitVec w)) : (scheduleScalar p l).length = l.length := by
  rw [scheduleScalar, konstant_length, foldl_length _ (prepare_length p)]

theorem rd_prepare (p : Params w) (q : Sha2 w) (hm : Matches p q) (M : Nat → BitVec w) (l : List (BitVec w)) (n : Nat)
    (hn : 16 + n ≤ l.length) (h0 : ∀ i, i < 16 → rd l i = M i) :
    ∀ i, i < 16 + n → rd ((List.range' 16 n).foldl (prepare p) l) i = q.W M i := by
  induction n with
  | zero =>
    intro i hi
    rw [Sha2.W, if_pos (by omega)]
    exact h0 i (by omega)
  | succ n ih =>
    intro i hi
    have ih := ih (by omega)
    rw [List.range'_concat, List.foldl_append, List.foldl_cons, List.foldl_nil, prepare, if_neg hm.strength, rd_set,
      foldl_length _ (prepare_length p)]
    by_cases h : 16 + 1 * n = i
    · rw [if_pos ⟨h, by omega⟩, hm.s0, hm.s1, ih _ (by omega), ih _ (by omega), ih _ (by omega), ih _ (by omega), h]
      conv => rhs; rw [Sha2.W, if_neg (by omega)]
      ac_rfl
    · rw [if_neg (by omega)]
      exact ih i (by omega)

/-- The scheduled buffer holds `W_t + K_t`. -/
theorem rd_schedule (p : Params w) (q : Sha2 w) (hm : Matches p q) (M : Nat → BitVec w) (l : List (BitVec w))
    (hl : l.length = p.rounds) (h0 : ∀ i, i < 16 → rd l i = M i) (t : Nat) (ht : t < p.rounds) :
    rd (scheduleScalar p l) t = q.W M t + q.K.getD t 0 := by
  have hf := hm.few
  rw [scheduleScalar, konstant, rd_konstant_upto, foldl_length _ (prepare_length p), if_pos (by omega), ← hm.K]
  rw [rd_prepare p q hm M l (p.rounds - 16) (by omega) h0 t (by omega)]
  rfl

/-! ### Rounds -/

/-- The working variables at round `r` in the rotating state. -/
def view (p : Params w) (r : Nat) (s : List (BitVec w)) : Vars w :=
  let v := fun k => rd s ((p.rounds + k - r) % 8)
  ⟨v 0, v 1, v 2, v 3, v 4, v 5, v 6, v 7⟩

theorem list8 {α : Type} (s : List α) (h : s.length = 8) : ∃ a b c d e f g i, s = [a, b, c, d, e, f, g, i] := by
  match s, h with
  | [a, b, c, d, e, f, g, i], _ => exact ⟨a, b, c, d, e, f, g, i, rfl⟩

theorem mod8 (n k r : Nat) (h : r < n) : (n + k - r) % 8 = ((n - r) % 8 + k) % 8 := by omega
theorem mod8' (n k r : Nat) (h : r < n) : (n + k - (r + 1)) % 8 = ((n - r) % 8 + k + 7) % 8 := by omega

theorem round_length (p : Params w) (wk s : List (BitVec w)) (r : Nat) : (round p wk s r).length = s.length := by
  unfold round
  dsimp only
  split <;> simp

theorem round_view (p : Params w) (q : Sha2 w) (hm : Matches p q) (M : Nat → BitVec w) (wk s : List (BitVec w))
    (hs : s.length = 8) (r : Nat) (hr : r < p.rounds) (hwk : rd wk r = q.W M r + q.K.getD r 0) :
    view p (r + 1) (round p wk s r) = q.step M (view p r s) r := by
  obtain ⟨x0, x1, x2, x3, x4, x5, x6, x7, rfl⟩ := list8 s hs
  unfold round view
  simp only [hm.words, if_neg hm.strength]
  simp only [mod8 _ _ _ hr, mod8' _ _ _ hr, hwk, choice_eq, majority_eq, hm.S0, hm.S1, Sha2.step]
  have hc : (p.rounds - r) % 8 < 8 := Nat.mod_lt _ (by omega)
  generalize (p.rounds - r) % 8 = c at hc
  match c, hc with
  | 0, _ | 1, _ | 2, _ | 3, _ | 4, _ | 5, _ | 6, _ | 7, _ =>
    simp [rd, BitVec.add_assoc, BitVec.add_comm]
    ac_rfl

theorem rounds_view (p : Params w) (q : Sha2 w) (hm : Matches p q) (M : Nat → BitVec w) (wk s : List (BitVec w))
    (hs : s.length = 8) (hwk : ∀ t, t < p.rounds → rd wk t = q.W M t + q.K.getD t 0) (n : Nat) (hn : n ≤ p.rounds) :
    view p n ((List.range n).foldl (round p wk) s) = (List.range n).foldl (q.step M) (view p 0 s) := by
  induction n with
  | zero => rfl
  | succ n ih =>
    rw [List.range_succ, List.foldl_append, List.foldl_append, List.foldl_cons, List.foldl_nil, List.foldl_cons,
      List.foldl_nil, ← ih (by omega)]
    exact round_view p q hm M wk _ (by rw [foldl_length _ (round_length p wk), hs]) n (by omega) (hwk n (by omega))

theorem view_zero (p : Params w) (h8 : p.rounds % 8 = 0) (s : List (BitVec w)) : view p 0 s = Vars.ofList s := by
  have : ∀ k, k < 8 → (p.rounds + k - 0) % 8 = k := by omega
  unfold view Vars.ofList
  simp only [this 0, this 1, this 2, this 3, this 4, this 5, this 6, this 7, Nat.reduceLT]
  rfl

theorem view_end (p : Params w) (s : List (BitVec w)) : view p p.rounds s = Vars.ofList s := by
  have : ∀ k, p.rounds + k - p.rounds = k := by omega
  simp [view, Vars.ofList, rd, this]

theorem toList_length (v : Vars w) : v.toList.length = 8 := rfl

theorem toList_ofList (s : List (BitVec w)) (h : s.length = 8) : (Vars.ofList s).toList = s := by
  obtain ⟨x0, x1, x2, x3, x4, x5, x6, x7, rfl⟩ := list8 s h
  rfl

theorem ofList_toList (v : Vars w) : Vars.ofList v.toList = v := rfl

theorem summarize_eq (p : Params w) (h : p.strength ≠ 160) (s t : List (BitVec w)) (hs : s.length = 8) (ht : t.length = 8) :
    summarize p s t = (Vars.mk (rd t 0 + rd s 0) (rd t 1 + rd s 1) (rd t 2 + rd s 2) (rd t 3 + rd s 3) (rd t 4 + rd s 4)
      (rd t 5 + rd s 5) (rd t 6 + rd s 6) (rd t 7 + rd s 7)).toList := by
  obtain ⟨x0, x1, x2, x3, x4, x5, x6, x7, rfl⟩ := list8 s hs
  obtain ⟨y0, y1, y2, y3, y4, y5, y6, y7, rfl⟩ := list8 t ht
  unfold summarize
  rw [if_pos h]
  simp [List.range_succ, rd, Vars.toList, BitVec.add_comm]

/-- The compression function on a scheduled buffer, given the message words. -/
theorem compress_words (p : Params w) (q : Sha2 w) (hm : Matches p q) (M : Nat → BitVec w) (wk s : List (BitVec w))
    (hs : s.length = 8) (hwk : ∀ t, t < p.rounds → rd wk t = q.W M t + q.K.getD t 0) :
    compress p s wk = (let h := Vars.ofList s
      let v := (List.range q.rounds).foldl (q.step M) h
      (⟨h.a + v.a, h.b + v.b, h.c + v.c, h.d + v.d, h.e + v.e, h.f + v.f, h.g + v.g, h.h + v.h⟩ : Vars w)).toList := by
  have key := rounds_view p q hm M wk s hs hwk p.rounds (Nat.le_refl _)
  rw [view_end, view_zero p hm.eight] at key
  rw [compress, summarize_eq p hm.strength _ _ (by rw [foldl_length _ (round_length p wk), hs]) hs, ← hm.rounds]
  dsimp only
  rw [← key]
  rfl

/-! ### The vectorised schedule -/

theorem prepare1_length (p : Params w) (r : Nat) (x l : List (BitVec w)) (o : Nat) :
    (prepare1 p r x l o).length = l.length := by rw [prepare1, List.length_set]

theorem prepare8_eq (p : Params w) (h : p.strength ≠ 160) (l : List (BitVec w)) (r : Nat) (hr : 16 ≤ r) :
    prepare8 p l r = (List.range' r 8).foldl (prepare p) l := by
  have key : ∀ n, n ≤ 8 → (List.range n).foldl (prepare1 p r ((List.range 8).map fun o => sigma0 p (rd l (r - 15 + o)))) l
      = (List.range' r n).foldl (prepare p) l ∧
      ∀ j, j < r → rd ((List.range' r n).foldl (prepare p) l) j = rd l j := by
    intro n
    induction n with
    | zero => intro _; exact ⟨rfl, fun _ _ => rfl⟩
    | succ n ih =>
      intro hn
      obtain ⟨h1, h2⟩ := ih (by omega)
      rw [@List.range_succ n, List.range'_concat, List.foldl_append, List.foldl_append, h1]
      simp only [List.foldl_cons, List.foldl_nil, Nat.one_mul]
      constructor
      · rw [prepare1, prepare, if_neg h, rd_map_range _ _ _ (by omega), show r - 16 + n = r + n - 16 by omega,
          show r - 7 + n = r + n - 7 by omega, show r - 2 + n = r + n - 2 by omega, h2 (r + n - 15) (by omega),
          show r - 15 + n = r + n - 15 by omega]
      · intro j hj
        rw [prepare, if_neg h, rd_set, if_neg (by omega)]
        exact h2 j hj
  exact (key 8 (Nat.le_refl _)).1

theorem scheduleSigma_eq (p : Params w) (h : p.rounds % 8 = 0) (l : List (BitVec w)) :
    scheduleSigma p l = scheduleScalar p l := by
  unfold scheduleSigma
  by_cases hs : p.strength = 160
  · rw [if_neg (by simp [hs])]
  · rw [if_pos hs, scheduleScalar]
    congr 1
    have key : ∀ n, (List.range n).foldl (fun b i => prepare8 p b (16 + 8 * i)) l
        = (List.range' 16 (8 * n)).foldl (prepare p) l := by
      intro n
      induction n with
      | zero => rfl
      | succ n ih =>
        rw [List.range_succ, List.foldl_append, ih, List.foldl_cons, List.foldl_nil, prepare8_eq p hs _ _ (by omega),
          ← List.foldl_append]
        congr 1
        rw [show 8 * (n + 1) = 8 * n + 8 by omega, ← List.range'_append]
        simp
    rw [key]
    congr 2
    omega

theorem schedule_eq (b : Build) (p : Params w) (h : p.rounds % 8 = 0) (l : List (BitVec w)) :
    schedule b p l = scheduleScalar p l := by
  unfold schedule
  split
  · exact scheduleSigma_eq p h l
  · rfl

end Verif.Sha
