import Verif.Spec.Validate
import Verif.Lemmas.Codec2
import Verif.Lemmas.Connect
import Verif.Props.Merkle
import Mathlib.Algebra.BigOperators.Group.Finset.Basic
import Mathlib.Algebra.Order.BigOperators.Group.Finset
import Mathlib.Algebra.BigOperators.Intervals
/-!
# C17, C26, C27: subsidy, locks, block checks
-/
namespace Verif.Validate
open Verif Spec Finset

/-! ## C17 -/

/-- With BIP42 the subsidy is the initial subsidy divided by two to the number of completed intervals, for every height. -/
theorem C17_halving (height interval initial : Nat) (hs : initial < 2 ^ 64) :
    subsidy height interval initial true = initial / 2 ^ (height / interval) := by
  unfold subsidy shiftRight64
  split
  · rename_i h
    rw [Nat.div_eq_of_lt (lt_of_lt_of_le hs (Nat.pow_le_pow_right (by omega) h.2))]
  · rename_i h
    rw [Nat.mod_eq_of_lt (by simpa using h), Nat.shiftRight_eq_div_pow]

/-- The subsidy never grows. -/
theorem C17_monotone (h1 h2 interval initial : Nat) (hs : initial < 2 ^ 64) (h : h1 ≤ h2) :
    subsidy h2 interval initial true ≤ subsidy h1 interval initial true := by
  rw [C17_halving _ _ _ hs, C17_halving _ _ _ hs]
  exact Nat.div_le_div_left (Nat.pow_le_pow_right (by omega) (Nat.div_le_div_right h)) (Nat.pos_of_ne_zero (by simp))

/-- Without BIP42 it starts again after 64 halvings. -/
theorem C17_without_bip42 (height interval initial : Nat) (hi : 0 < interval) :
    subsidy (height + 64 * interval) interval initial false = subsidy height interval initial false := by
  unfold subsidy shiftRight64
  simp only [Bool.false_eq_true, false_and, if_false]
  rw [Nat.add_mul_div_right _ _ hi, Nat.add_mod_right]

theorem sum_intervals (f : Nat → Nat) (i : Nat) (hi : 0 < i) (k : Nat) :
    ∑ h ∈ range (i * k), f (h / i) = i * ∑ j ∈ range k, f j := by
  induction k with
  | zero => simp
  | succ k ih =>
    rw [Nat.mul_succ, sum_range_add, ih, sum_range_succ, Nat.mul_add]
    congr 1
    rw [sum_congr rfl (g := fun _ => f k)]
    · simp
    · intro x hx
      rw [mem_range] at hx
      rw [Nat.mul_add_div hi, Nat.div_eq_of_lt hx, Nat.add_zero]

theorem sum_le_intervals (f : Nat → Nat) (i : Nat) (hi : 0 < i) (K : Nat) (hz : ∀ k, K ≤ k → f k = 0) (N : Nat) :
    ∑ h ∈ range N, f (h / i) ≤ i * ∑ j ∈ range K, f j := by
  rw [← sum_intervals f i hi K]
  rcases Nat.le_total N (i * K) with h | h
  · exact sum_le_sum_of_subset (range_mono h)
  · obtain ⟨m, rfl⟩ := Nat.exists_eq_add_of_le h
    rw [sum_range_add]
    have : ∑ x ∈ range m, f ((i * K + x) / i) = 0 := by
      apply sum_eq_zero
      intro x _
      apply hz
      rw [Nat.mul_add_div hi]; exact Nat.le_add_right _ _
    omega

theorem sum_halves (s K : Nat) : ∑ k ∈ range K, s / 2 ^ k ≤ 2 * s := by
  have : ∑ k ∈ range K, s / 2 ^ k + 2 * (s / 2 ^ K) ≤ 2 * s := by
    induction K with
    | zero => simp
    | succ K ih =>
      rw [sum_range_succ]
      have : s / 2 ^ (K + 1) = s / 2 ^ K / 2 := by rw [Nat.div_div_eq_div_mul, pow_succ]
      rw [this]
      generalize s / 2 ^ K = q at *
      omega
  generalize s / 2 ^ K = q at *
  omega

/-- However many blocks there are, at most twice the first interval's subsidy is ever issued. -/
theorem C17_total (interval initial : Nat) (hi : 0 < interval) (hs : initial < 2 ^ 64) (N : Nat) :
    ∑ h ∈ range N, subsidy h interval initial true ≤ 2 * interval * initial := by
  have e : ∀ h, subsidy h interval initial true = initial / 2 ^ (h / interval) := fun h => C17_halving h _ _ hs
  simp only [e]
  refine le_trans (sum_le_intervals (fun k => initial / 2 ^ k) interval hi 64 ?_ N) ?_
  · intro k hk
    exact Nat.div_eq_of_lt (lt_of_lt_of_le hs (Nat.pow_le_pow_right (by omega) hk))
  · have := Nat.mul_le_mul_left interval (sum_halves initial 64)
    calc _ ≤ interval * (2 * initial) := this
      _ = _ := by ring

/-- Mainnet (50 coins, 210000 blocks): the supply is never more than 2099999997690000 satoshis, below 21 million coins, and
this is reached at block 6930000. -/
theorem C17_mainnet (N : Nat) :
    ∑ h ∈ range N, subsidy h 210000 5000000000 true ≤ 2099999997690000 ∧
    (6930000 ≤ N → ∑ h ∈ range N, subsidy h 210000 5000000000 true = 2099999997690000) := by
  have e : ∀ h, subsidy h 210000 5000000000 true = 5000000000 / 2 ^ (h / 210000) := fun h => C17_halving h _ _ (by norm_num)
  simp only [e]
  have hz : ∀ k, 33 ≤ k → 5000000000 / 2 ^ k = 0 := fun k hk =>
    Nat.div_eq_of_lt (lt_of_lt_of_le (by norm_num) (Nat.pow_le_pow_right (by omega) hk))
  have hv : ∑ j ∈ range 33, 5000000000 / 2 ^ j = 9999999989 := by decide +kernel
  have hle := sum_le_intervals (fun k => 5000000000 / 2 ^ k) 210000 (by omega) 33 hz N
  simp only [hv] at hle
  refine ⟨by omega, ?_⟩
  intro hN
  have h1 := sum_intervals (fun k => 5000000000 / 2 ^ k) 210000 (by omega) 33
  simp only [hv] at h1
  have h2 : ∑ h ∈ range (210000 * 33), 5000000000 / 2 ^ (h / 210000) ≤ ∑ h ∈ range N, 5000000000 / 2 ^ (h / 210000) :=
    sum_le_sum_of_subset (range_mono (by omega))
  omega

example : subsidy 0 210000 5000000000 true = 5000000000 ∧ subsidy 209999 210000 5000000000 true = 5000000000 ∧
    subsidy 210000 210000 5000000000 true = 2500000000 ∧ subsidy (210000 * 64) 210000 5000000000 true = 0 ∧
    subsidy (210000 * 64) 210000 5000000000 false = 5000000000 := by decide

/-! ## C26 -/

/-- A transaction is reported absolutely locked exactly if it is not final at the block's height and time, the time being
the median time past with BIP113 and the block's timestamp otherwise. -/
theorem C26_absolute (t : Tx) (height : Nat) (timestamp mtp : UInt32) (bip113 : Bool) :
    isAbsoluteLocked t height timestamp mtp bip113 = true ↔ ¬ Final t height (if bip113 then mtp else timestamp).toNat := by
  unfold isAbsoluteLocked Final
  simp only [Bool.not_eq_true', Bool.or_eq_false_iff, decide_eq_false_iff_not, not_or, beq_eq_false_iff_ne, ne_eq,
    and_assoc]
  refine and_congr Iff.rfl (and_congr Iff.rfl ?_)
  rw [← Bool.not_eq_true, List.all_eq_true]
  simp [isFinal]

/-- Once not absolutely locked, never again as height and times grow. -/
theorem C26_absolute_monotone (t : Tx) (h h' : Nat) (ts ts' mtp mtp' : UInt32) (bip113 : Bool) (hh : h ≤ h') (ht : ts ≤ ts')
    (hm : mtp ≤ mtp') (hu : isAbsoluteLocked t h ts mtp bip113 = false) : isAbsoluteLocked t h' ts' mtp' bip113 = false := by
  rw [← Bool.not_eq_true, C26_absolute, not_not] at hu ⊢
  unfold Final at hu ⊢
  rcases hu with h0 | h0 | h0
  · exact .inl h0
  · refine .inr (.inl (lt_of_lt_of_le h0 ?_))
    split
    · exact hh
    · cases bip113
      · exact UInt32.le_iff_toNat_le.1 ht
      · exact UInt32.le_iff_toNat_le.1 hm
  · exact .inr (.inr h0)

theorem and_ffff (s : UInt32) : (s &&& 0xffff).toNat = s.toNat % 65536 := by
  rw [UInt32.toNat_and]
  exact Nat.and_two_pow_sub_one_eq_mod s.toNat 16

theorem shl_nine (s : UInt32) : ((s &&& 0xffff) <<< 9).toNat = 512 * (s.toNat % 65536) := by
  rw [UInt32.toNat_shiftLeft, and_ffff]
  have : (9 : UInt32).toNat % 32 = 9 := rfl
  rw [this, Nat.shiftLeft_eq, Nat.mod_eq_of_lt]
  · ring
  · have := Nat.mod_lt s.toNat (show 65536 > 0 by norm_num)
    omega

/-- The relative lock of one input is BIP68's. -/
theorem C26_relative (sequence : UInt32) (height : Nat) (mtp : UInt32) (prevHeight : Nat) (prevMtp : UInt32) :
    inputRelativeLocked sequence height mtp prevHeight prevMtp = true ↔
      SequenceLocked sequence height mtp.toNat prevHeight prevMtp.toNat := by
  unfold inputRelativeLocked SequenceLocked
  split
  · rename_i h; simp [h]
  · rename_i h
    rw [Bool.not_eq_true] at h
    simp only [h, true_and]
    split
    · rw [decide_eq_true_eq, shl_nine]; omega
    · rw [decide_eq_true_eq, and_ffff]; omega

/-- Once a relative lock is satisfied it stays satisfied as height and median time past grow. -/
theorem C26_relative_monotone (sequence : UInt32) (h h' : Nat) (m m' : UInt32) (prevHeight : Nat) (prevMtp : UInt32)
    (hh : h ≤ h') (hm : m ≤ m') (hu : inputRelativeLocked sequence h m prevHeight prevMtp = false) :
    inputRelativeLocked sequence h' m' prevHeight prevMtp = false := by
  rw [← Bool.not_eq_true, C26_relative] at hu ⊢
  have := UInt32.le_iff_toNat_le.1 hm
  intro hl
  apply hu
  obtain ⟨h1, h2, h3⟩ := hl
  refine ⟨h1, h2, ?_⟩
  split at h3 <;> rename_i hb
  · rw [if_pos hb]; omega
  · rw [if_neg hb]; omega

/-- A non-coinbase transaction confirms in a block exactly if, for each input: with BIP68 and version two or more it is not
sequence locked; a coinbase output it spends is not that of genesis and is at least 100 blocks deep; the output is confirmed
at or below the block and not spent below it. -/
theorem C26_confirm (v : View) (c : Ctx) (t : Tx) (hc : isCoinbase t = false)
    (hh : ∀ i ∈ t.inputs, (v.metadata (keyOf i.point)).height + 100 < 2 ^ 64) :
    txConfirm v c t = none ↔ ∀ i ∈ t.inputs,
      let m := v.metadata (i.point.hash, i.point.index)
      (c.bip68 = true → 2 ≤ t.version.toNat → ¬ SequenceLocked i.sequence c.height c.mtp.toNat m.height m.mtp.toNat) ∧
      (m.coinbase = true → m.height ≠ 0 ∧ m.height + 100 ≤ c.height) ∧ m.height ≤ c.height ∧ c.height ≤ m.spender.toNat := by
  unfold txConfirm
  rw [hc]
  simp only [Bool.false_eq_true, if_false]
  have hrel : (c.bip68 && txRelativeLocked v t c.height c.mtp) = true ↔ c.bip68 = true ∧ 2 ≤ t.version.toNat ∧
      ∃ i ∈ t.inputs, SequenceLocked i.sequence c.height c.mtp.toNat (v.metadata (keyOf i.point)).height (v.metadata (keyOf i.point)).mtp.toNat := by
    rw [Bool.and_eq_true]
    refine and_congr Iff.rfl ?_
    unfold txRelativeLocked
    have hv : t.version < 2 ↔ t.version.toNat < 2 := UInt32.lt_iff_toNat_lt
    split
    · rename_i h; rw [hv] at h; simp; omega
    · rename_i h
      rw [hv] at h
      simp only [List.any_eq_true, C26_relative]
      constructor
      · intro h'; exact ⟨by omega, h'⟩
      · exact fun h' => h'.2
  have himm : txImmature v t c.height = true ↔ ∃ i ∈ t.inputs, ¬ (((v.metadata (keyOf i.point)).coinbase = true →
      (v.metadata (keyOf i.point)).height ≠ 0 ∧ (v.metadata (keyOf i.point)).height + 100 ≤ c.height) ∧
      ((v.metadata (keyOf i.point)).coinbase = false → (v.metadata (keyOf i.point)).height ≤ c.height)) := by
    unfold txImmature
    simp only [List.any_eq_true]
    constructor
    · rintro ⟨i, hi, h⟩
      refine ⟨i, hi, ?_⟩
      have := hh i hi
      cases hcb : (v.metadata (keyOf i.point)).coinbase
      · simp only [hcb, Bool.false_eq_true, if_false, decide_eq_true_eq] at h
        simp; omega
      · simp only [hcb, if_true, isCoinbaseImmature, Bool.or_eq_true, beq_iff_eq, decide_eq_true_eq, cadd_of_lt this] at h
        simp; omega
    · rintro ⟨i, hi, h⟩
      refine ⟨i, hi, ?_⟩
      have := hh i hi
      cases hcb : (v.metadata (keyOf i.point)).coinbase
      · simp only [hcb] at h
        simp only [Bool.false_eq_true, if_false, decide_eq_true_eq]
        simp at h; omega
      · simp only [hcb] at h
        simp only [if_true, isCoinbaseImmature, Bool.or_eq_true, beq_iff_eq, decide_eq_true_eq, cadd_of_lt this]
        simp at h; omega
  have hunc : txUnconfirmed v t c.height = true ↔ ∃ i ∈ t.inputs, c.height < (v.metadata (keyOf i.point)).height := by
    simp [txUnconfirmed]
  have hdbl : txDoubleSpent v t c.height = true ↔ ∃ i ∈ t.inputs, (v.metadata (keyOf i.point)).spender.toNat < c.height := by
    simp [txDoubleSpent]
  constructor
  · intro h i hi
    have n1 : ¬ (c.bip68 && txRelativeLocked v t c.height c.mtp) = true := by intro hx; rw [if_pos hx] at h; simp at h
    rw [if_neg n1] at h
    have n2 : ¬ txImmature v t c.height = true := by intro hx; rw [if_pos hx] at h; simp at h
    rw [if_neg n2] at h
    have n3 : ¬ txUnconfirmed v t c.height = true := by intro hx; rw [if_pos hx] at h; simp at h
    rw [if_neg n3] at h
    have n4 : ¬ txDoubleSpent v t c.height = true := by intro hx; rw [if_pos hx] at h; simp at h
    rw [hrel] at n1
    rw [himm] at n2
    rw [hunc] at n3
    rw [hdbl] at n4
    push Not at n1 n2 n3 n4
    exact ⟨fun hb hv => n1 hb hv i hi, (n2 i hi).1, n3 i hi, n4 i hi⟩
  · intro h
    rw [if_neg, if_neg, if_neg, if_neg]
    · rw [hdbl]; push Not; exact fun i hi => (h i hi).2.2.2
    · rw [hunc]; push Not; exact fun i hi => (h i hi).2.2.1
    · rw [himm]; push Not; exact fun i hi => ⟨(h i hi).2.1, fun _ => (h i hi).2.2.1⟩
    · rw [hrel]; push Not; exact fun hb hv i hi => (h i hi).1 hb hv

example : SequenceLocked 10 109 0 100 0 ∧ ¬ SequenceLocked 10 110 0 100 0 ∧ SequenceLocked 0x00400002 0 1523 0 500 ∧
    ¬ SequenceLocked 0x00400002 0 1524 0 500 ∧ ¬ SequenceLocked 0x80000010 0 0 0 0 := by
  unfold SequenceLocked; decide

/-! ## C27 -/

theorem nullPoint_iff (p : Point) : pointNull p = true ↔ NullPoint p := by
  simp [pointNull, NullPoint, and_comm]

theorem coinbase_iff (t : Tx) : isCoinbase t = true ↔ CoinbaseTx t := by
  unfold isCoinbase CoinbaseTx
  split
  · rename_i i h
    rw [nullPoint_iff, h]
    constructor
    · intro hn; exact ⟨i, rfl, hn⟩
    · rintro ⟨j, hj, hn⟩; simp at hj; exact hj ▸ hn
  · rename_i h
    simp only [Bool.false_eq_true, false_iff]
    rintro ⟨i, hi, _⟩
    exact h i hi

theorem txCheck_iff (t : Tx) (hs : t.Sized) (hl : ∀ i ∈ t.inputs, (opsData i.script.ops).length < 2 ^ 64) :
    txCheck t = none ↔ TxValid t := by
  unfold txCheck
  have he : isEmpty t = true ↔ t.inputs = [] ∨ t.outputs = [] := by simp [isEmpty]
  have hn : isNullNonCoinbase t = true ↔ ∃ i ∈ t.inputs, NullPoint i.point := by simp [isNullNonCoinbase, nullPoint_iff]
  have hsz : ∀ i, t.inputs = [i] → (isInvalidCoinbaseSize t = true ↔ ¬ (2 ≤ (opsData i.script.ops).length ∧ (opsData i.script.ops).length ≤ 100)) := by
    intro i hi
    have e : i.script.serializedSize false = (opsData i.script.ops).length := by
      have := Script.size_ok (hs.1 i (by simp [hi])).1 false (by simpa [Script.toData] using hl i (by simp [hi]))
      simpa [Script.toData] using this
    unfold isInvalidCoinbaseSize
    rw [hi]
    simp only [e, Bool.or_eq_true, decide_eq_true_eq]
    omega
  constructor
  · intro h
    have n1 : ¬ isEmpty t = true := by intro hx; rw [if_pos hx] at h; simp at h
    rw [if_neg n1] at h
    have n2 : ¬ (isCoinbase t && isInvalidCoinbaseSize t) = true := by intro hx; rw [if_pos hx] at h; simp at h
    rw [if_neg n2] at h
    have n3 : ¬ (!isCoinbase t && isNullNonCoinbase t) = true := by intro hx; rw [if_pos hx] at h; simp at h
    rw [he] at n1
    push Not at n1
    refine ⟨n1.1, n1.2, ?_, ?_⟩
    · intro hc i hi
      obtain ⟨j, hj, _⟩ := id hc
      rw [Bool.and_eq_true, coinbase_iff, hsz j hj] at n2
      have : i = j := by simpa [hj] using hi
      subst this
      by_contra hx
      exact n2 ⟨hc, hx⟩
    · intro hc i hi hnull
      apply n3
      rw [Bool.and_eq_true, hn, Bool.not_eq_true', ← Bool.not_eq_true, coinbase_iff]
      exact ⟨hc, i, hi, hnull⟩
  · rintro ⟨h1, h2, h3, h4⟩
    rw [if_neg (by rw [he]; push Not; exact ⟨h1, h2⟩), if_neg, if_neg]
    · rw [Bool.and_eq_true, hn, Bool.not_eq_true', ← Bool.not_eq_true, coinbase_iff]
      rintro ⟨hc, i, hi, hnull⟩
      exact h4 hc i hi hnull
    · rw [Bool.and_eq_true, coinbase_iff]
      rintro ⟨hc, hx⟩
      obtain ⟨j, hj, _⟩ := id hc
      rw [hsz j hj] at hx
      exact hx (h3 hc j (by simp [hj]))

theorem firstError_none {α : Type} (f : α → Option Code) (l : List α) : firstError f l = none ↔ ∀ t ∈ l, f t = none := by
  induction l with
  | nil => simp [firstError]
  | cons t ts ih =>
    unfold firstError
    cases h : f t with
    | some e => simp [h]
    | none => simp [h, ih]

theorem forwardLoop_iff (v : View) (ts : List Tx) : ∀ hashes, forwardLoop v hashes ts = true ↔
    ∃ (i : Nat) (ti : Tx), ts[i]? = some ti ∧ ∃ inp ∈ ti.inputs, inp.point.hash ∈ hashes ∨ ∃ (j : Nat) (tj : Tx), j < i ∧ ts[j]? = some tj ∧ inp.point.hash = v.txid tj := by
  induction ts with
  | nil => simp [forwardLoop]
  | cons t ts ih =>
    intro hashes
    unfold forwardLoop
    split
    · rename_i h
      simp only [true_iff]
      simp only [List.any_eq_true, List.contains_eq_mem, decide_eq_true_eq] at h
      obtain ⟨inp, h1, h2⟩ := h
      exact ⟨0, t, rfl, inp, h1, .inl h2⟩
    · rename_i h
      simp only [List.any_eq_true, List.contains_eq_mem, decide_eq_true_eq, not_exists, not_and] at h
      rw [ih]
      constructor
      · rintro ⟨i, ti, h1, inp, h2, h3⟩
        refine ⟨i + 1, ti, h1, inp, h2, ?_⟩
        rcases h3 with h3 | ⟨j, tj, hj, h4, h5⟩
        · rw [List.mem_cons] at h3
          rcases h3 with h3 | h3
          · exact .inr ⟨0, t, by omega, rfl, h3⟩
          · exact .inl h3
        · exact .inr ⟨j + 1, tj, by omega, h4, h5⟩
      · rintro ⟨i, ti, h1, inp, h2, h3⟩
        cases i with
        | zero =>
          simp only [List.getElem?_cons_zero, Option.some.injEq] at h1
          subst h1
          rcases h3 with h3 | ⟨j, tj, hj, _⟩
          · exact absurd h3 (h inp h2)
          · omega
        | succ i =>
          refine ⟨i, ti, h1, inp, h2, ?_⟩
          rcases h3 with h3 | ⟨j, tj, hj, h4, h5⟩
          · exact .inl (List.mem_cons_of_mem _ h3)
          · cases j with
            | zero =>
              simp only [List.getElem?_cons_zero, Option.some.injEq] at h4
              subst h4
              exact .inl (by rw [h5]; simp)
            | succ j => exact .inr ⟨j, tj, by omega, h4, h5⟩

theorem forward_iff (v : View) (txs : List Tx) : isForwardReference v txs = true ↔ ForwardRef v.txid txs := by
  unfold isForwardReference ForwardRef
  cases txs with
  | nil => simp
  | cons t ts =>
    simp only
    rw [forwardLoop_iff]
    constructor
    · rintro ⟨i, ti, h1, inp, h2, h3⟩
      rcases h3 with h3 | ⟨j, tj, hj, h4, h5⟩
      · simp at h3
      · have hi : i < ts.length := by
          rcases Nat.lt_or_ge i ts.length with h | h
          · exact h
          · rw [List.getElem?_eq_none (by simpa using h)] at h1; simp at h1
        rw [List.getElem?_reverse hi] at h1
        rw [List.getElem?_reverse (by omega)] at h4
        refine ⟨ts.length - 1 - i + 1, ts.length - 1 - j + 1, ti, tj, by omega, by omega, h1, h4, inp, h2, h5⟩
    · rintro ⟨i, j, ti, tj, hi, hij, h1, h2, inp, h3, h4⟩
      obtain ⟨i, rfl⟩ : ∃ k, i = k + 1 := ⟨i - 1, by omega⟩
      obtain ⟨j, rfl⟩ : ∃ k, j = k + 1 := ⟨j - 1, by omega⟩
      simp only [List.getElem?_cons_succ] at h1 h2
      have hj : j < ts.length := by
        rcases Nat.lt_or_ge j ts.length with h | h
        · exact h
        · rw [List.getElem?_eq_none h] at h2; simp at h2
      refine ⟨ts.length - 1 - i, ti, ?_, inp, h3, .inr ⟨ts.length - 1 - j, tj, by omega, ?_, h4⟩⟩
      · rw [List.getElem?_reverse (by omega)]
        have : ts.length - 1 - (ts.length - 1 - i) = i := by omega
        rw [this]; exact h1
      · rw [List.getElem?_reverse (by omega)]
        have : ts.length - 1 - (ts.length - 1 - j) = j := by omega
        rw [this]; exact h2

theorem insertLoop_iff (ks : List Key) : ∀ seen, insertLoop seen ks = false ↔ ks.Nodup ∧ ∀ k ∈ ks, k ∉ seen := by
  induction ks with
  | nil => simp [insertLoop]
  | cons k ks ih =>
    intro seen
    unfold insertLoop
    split
    · rename_i h
      simp only [List.contains_eq_mem, decide_eq_true_eq] at h
      simp only [Bool.true_eq_false, false_iff, not_and, not_forall]
      intro _
      exact ⟨k, by simp, by simpa using h⟩
    · rename_i h
      simp only [List.contains_eq_mem, decide_eq_true_eq] at h
      rw [ih, List.nodup_cons]
      constructor
      · rintro ⟨h1, h2⟩
        refine ⟨⟨fun hk => h2 k hk (by simp), h1⟩, ?_⟩
        intro x hx
        rcases List.mem_cons.1 hx with rfl | hx
        · exact h
        · exact fun hs => h2 x hx (List.mem_cons_of_mem _ hs)
      · rintro ⟨⟨h1, h2⟩, h3⟩
        refine ⟨h2, ?_⟩
        intro x hx hs
        rcases List.mem_cons.1 hs with rfl | hs
        · exact h1 hx
        · exact h3 x (List.mem_cons_of_mem _ hx) hs

theorem doubleSpend_iff (txs : List Tx) : isInternalDoubleSpend txs = false ↔ (spentKeys txs).Nodup := by
  unfold isInternalDoubleSpend spentKeys
  cases txs with
  | nil => simp
  | cons t ts =>
    simp only [List.tail_cons, insertLoop_iff, List.not_mem_nil, not_false_eq_true, implies_true, and_true]
    rfl

/-- `check` accepts exactly the blocks that satisfy the rules (and, if identity is asked, whose header commits to their
transactions). -/
theorem C27_check (v : View) (b : Block) (identity : Bool) (hs : b.Sized) (hl : (b.toData false).length < 2 ^ 64)
    (hi : ∀ t ∈ b.txs, ∀ i ∈ t.inputs, (opsData i.script.ops).length < 2 ^ 64) :
    blockCheck v b identity = none ↔ BlockValid v.txid b ∧
      (identity = true → Merkle.Spec.IsRoot v.pair (b.txs.map v.txid) b.header.merkleRoot) := by
  have hsize := Block.size_ok hs false hl
  have hroot : ∀ (hne : b.txs ≠ []), isInvalidMerkleRoot v b = false ↔ Merkle.Spec.IsRoot v.pair (b.txs.map v.txid) b.header.merkleRoot := by
    intro hne
    unfold isInvalidMerkleRoot merkleRootOf
    rw [decide_eq_false_iff_not, not_not]
    exact (Merkle.C15_root v.pair nullHash v.build (b.txs.map v.txid)).2.1 _ (by simpa using hne)
  have htx : firstError txCheck b.txs = none ↔ ∀ t ∈ b.txs, TxValid t := by
    rw [firstError_none]
    exact forall₂_congr fun t ht => txCheck_iff t (hs t ht) (hi t ht)
  unfold blockCheck
  cases hb : b.txs with
  | nil =>
    simp only [List.isEmpty_nil, if_true, reduceCtorEq, false_iff, not_and]
    intro h; exact absurd hb h.nonempty
  | cons t ts =>
    have hne : b.txs ≠ [] := by simp [hb]
    rw [hb] at htx
    simp only [List.isEmpty_cons, Bool.false_eq_true, if_false]
    have hmax : maxBlockSize = 1000000 := rfl
    have hfirst : isFirstNonCoinbase (t :: ts) = true ↔ ¬ CoinbaseTx t := by
      simp only [isFirstNonCoinbase, Bool.not_eq_true', ← Bool.not_eq_true, coinbase_iff]
    have hextra : isExtraCoinbases (t :: ts) = true ↔ ∃ x ∈ ts, CoinbaseTx x := by
      simp only [isExtraCoinbases, List.any_eq_true, coinbase_iff]
    constructor
    · intro h
      have n1 : ¬ b.serializedSize false > maxBlockSize := by intro hx; rw [if_pos hx] at h; simp at h
      rw [if_neg n1] at h
      have n2 : ¬ isFirstNonCoinbase (t :: ts) = true := by intro hx; rw [if_pos hx] at h; simp at h
      rw [if_neg n2] at h
      have n3 : ¬ isExtraCoinbases (t :: ts) = true := by intro hx; rw [if_pos hx] at h; simp at h
      rw [if_neg n3] at h
      have n4 : ¬ isForwardReference v (t :: ts) = true := by intro hx; rw [if_pos hx] at h; simp at h
      rw [if_neg n4] at h
      have n5 : ¬ isInternalDoubleSpend (t :: ts) = true := by intro hx; rw [if_pos hx] at h; simp at h
      rw [if_neg n5] at h
      have n6 : ¬ (identity && isInvalidMerkleRoot v b) = true := by intro hx; rw [if_pos hx] at h; simp at h
      rw [if_neg n6, htx] at h
      rw [hfirst, not_not] at n2
      rw [hextra] at n3
      push Not at n3
      rw [forward_iff] at n4
      rw [Bool.not_eq_true, doubleSpend_iff] at n5
      refine ⟨⟨hne, by omega, ?_, ?_, by rw [hb]; exact n4, by rw [hb]; exact n5, by rw [hb]; exact h⟩, ?_⟩
      · intro x hx; rw [hb] at hx; simp at hx; exact hx ▸ n2
      · intro x hx; rw [hb] at hx; exact n3 x hx
      · intro hid
        rw [hid, Bool.true_and, Bool.not_eq_true, hroot hne, hb] at n6
        exact n6
    · rintro ⟨h, hr⟩
      rw [if_neg, if_neg, if_neg, if_neg, if_neg, if_neg]
      · rw [htx]; rw [← hb]; exact h.txs
      · intro hx
        rw [Bool.and_eq_true] at hx
        have := hr hx.1
        rw [← hb, ← hroot hne, hx.2] at this
        simp at this
      · rw [Bool.not_eq_true, doubleSpend_iff, ← hb]; exact h.spends
      · rw [forward_iff, ← hb]; exact h.ordered
      · rw [hextra]; push Not; intro x hx; exact h.others x (by rw [hb]; exact hx)
      · rw [hfirst, not_not]; exact h.first t (by rw [hb]; rfl)
      · have := h.size; omega


theorem ite_firstOf {p q : Prop} [Decidable p] (h : p ↔ q) (c e : Code) (rest : Option Code) (R : List (Prop × Code))
    (hr : ¬ q → (rest = some e ↔ FirstOf R e)) : (if p then some c else rest) = some e ↔ FirstOf ((q, c) :: R) e := by
  unfold FirstOf
  by_cases hq : q
  · rw [if_pos (h.2 hq)]
    constructor
    · intro he; exact .inl ⟨hq, (Option.some.inj he).symm⟩
    · rintro (⟨_, rfl⟩ | ⟨hn, _⟩)
      · rfl
      · exact absurd hq hn
  · rw [if_neg (mt h.1 hq), hr hq]
    constructor
    · intro he; exact .inr ⟨hq, he⟩
    · rintro (⟨hn, _⟩ | ⟨_, he⟩)
      · exact absurd hn hq
      · exact he

/-- A transaction is rejected with the code of the first rule it breaks. -/
theorem C27_transaction_codes (t : Tx) (e : Code) (hs : t.Sized) (hl : ∀ i ∈ t.inputs, (opsData i.script.ops).length < 2 ^ 64) :
    txCheck t = some e ↔ FirstOf (txRules t) e := by
  have he : isEmpty t = true ↔ t.inputs = [] ∨ t.outputs = [] := by simp [isEmpty]
  have hn : isNullNonCoinbase t = true ↔ ∃ i ∈ t.inputs, NullPoint i.point := by simp [isNullNonCoinbase, nullPoint_iff]
  have hz : (isCoinbase t && isInvalidCoinbaseSize t) = true ↔
      (CoinbaseTx t ∧ ∃ i ∈ t.inputs, (opsData i.script.ops).length < 2 ∨ 100 < (opsData i.script.ops).length) := by
    rw [Bool.and_eq_true, coinbase_iff]
    refine and_congr_right fun hc => ?_
    obtain ⟨i, hi, _⟩ := hc
    have e : i.script.serializedSize false = (opsData i.script.ops).length := by
      have := Script.size_ok (hs.1 i (by simp [hi])).1 false (by simpa [Script.toData] using hl i (by simp [hi]))
      simpa [Script.toData] using this
    unfold isInvalidCoinbaseSize
    rw [hi]
    simp [e]
  have hnn : (!isCoinbase t && isNullNonCoinbase t) = true ↔ (¬ CoinbaseTx t ∧ ∃ i ∈ t.inputs, NullPoint i.point) := by
    rw [Bool.and_eq_true, hn, Bool.not_eq_true', ← Bool.not_eq_true, coinbase_iff]
  unfold txCheck
  exact ite_firstOf he _ _ _ _ fun _ => ite_firstOf hz _ _ _ _ fun _ => ite_firstOf hnn _ _ _ _ fun _ => by simp [FirstOf]

/-- A block is rejected with the code of the first rule it breaks, or with that of its first invalid transaction; for a
missing coinbase and an internal double spend the code is replaced by invalid_transaction_commitment exactly when the
transaction list is of malleated form. -/
theorem C27_codes (v : View) (b : Block) (identity : Bool) (e : Code) (hs : b.Sized) (hl : (b.toData false).length < 2 ^ 64) :
    blockCheck v b identity = some e ↔
      FirstOf (blockRules v.txid b (identity = true ∧ ¬ Merkle.Spec.IsRoot v.pair (b.txs.map v.txid) b.header.merkleRoot)
        (if isMalleated v b.txs then .invalid_transaction_commitment else .first_not_coinbase)
        (if isMalleated v b.txs then .invalid_transaction_commitment else .block_internal_double_spend)
        ++ [(firstError txCheck b.txs = some e, e)]) e := by
  have hsize := Block.size_ok hs false hl
  have hmax : maxBlockSize = 1000000 := rfl
  have q1 : b.txs.isEmpty = true ↔ b.txs = [] := by simp
  have q2 : b.serializedSize false > maxBlockSize ↔ 1000000 < (b.toData false).length := by omega
  have q4 : isExtraCoinbases b.txs = true ↔ ∃ t ∈ b.txs.tail, CoinbaseTx t := by
    cases b.txs with
    | nil => simp [isExtraCoinbases]
    | cons t ts => simp only [isExtraCoinbases, List.any_eq_true, coinbase_iff, List.tail_cons]
  have q5 := forward_iff v b.txs
  have q6 : isInternalDoubleSpend b.txs = true ↔ ¬ (spentKeys b.txs).Nodup := by
    rw [← doubleSpend_iff, Bool.not_eq_false]
  unfold blockCheck malleatedOr
  refine ite_firstOf q1 _ _ _ _ fun hne => ?_
  have q3 : isFirstNonCoinbase b.txs = true ↔ ¬ ∃ t, b.txs.head? = some t ∧ CoinbaseTx t := by
    cases hb : b.txs with
    | nil => exact absurd hb hne
    | cons t ts => simp only [isFirstNonCoinbase, Bool.not_eq_true', ← Bool.not_eq_true, coinbase_iff]; simp
  have q7 : (identity && isInvalidMerkleRoot v b) = true ↔
      (identity = true ∧ ¬ Merkle.Spec.IsRoot v.pair (b.txs.map v.txid) b.header.merkleRoot) := by
    rw [Bool.and_eq_true]
    refine and_congr_right fun _ => ?_
    unfold isInvalidMerkleRoot merkleRootOf
    rw [decide_eq_true_eq]
    exact not_congr ((Merkle.C15_root v.pair nullHash v.build (b.txs.map v.txid)).2.1 _ (by simpa using hne))
  refine ite_firstOf q2 _ _ _ _ fun _ => ite_firstOf q3 _ _ _ _ fun _ => ite_firstOf q4 _ _ _ _ fun _ =>
    ite_firstOf q5 _ _ _ _ fun _ => ite_firstOf q6 _ _ _ _ fun _ => ite_firstOf q7 _ _ _ _ fun _ => ?_
  simp [FirstOf]

/-! A two transaction block: a coinbase paying 50 to an output and a spend of an earlier output (txid = the locktime). -/
def toyHash (n : UInt32) : Hash := Hash.of (List.replicate 31 0 ++ [n.toUInt8])
def toyView : View where
  txid := fun t => toyHash t.locktime
  wtxid := fun t => toyHash t.locktime
  pair := fun a b => if a = b then a else toyHash 99
  prevout := fun _ => none
  metadata := fun _ => ⟨false, 0, 0, 0⟩
  build := .scalar
def toyTx (id : UInt32) (points : List Point) (values : List UInt64) : Tx :=
  Tx.make 1 (points.map fun p => { point := p, script := Script.ofOps [{ code := 81 }, { code := 81 }], witness := Witness.ofStack [], sequence := 0xffffffff })
    (values.map fun x => { value := x, script := Script.ofOps [{ code := 81 }] }) id
def toyCoinbase : Tx := toyTx 1 [{ hash := nullHash, index := 0xffffffff }] [5000000003]
def toySpend : Tx := toyTx 2 [{ hash := toyHash 7, index := 0 }, { hash := toyHash 7, index := 1 }] [10, 20]
def toyBlock (txs : List Tx) : Block := { header := { version := 1, previous := nullHash, merkleRoot := toyHash 99, timestamp := 0, bits := 0, nonce := 0 }, txs := txs }

example : blockCheck toyView (toyBlock [toyCoinbase, toySpend]) true = none ∧
    blockCheck toyView (toyBlock [toyCoinbase, toySpend, toySpend]) true = some .block_internal_double_spend ∧
    blockCheck toyView (toyBlock [toyCoinbase, toySpend, toyTx 7 [{ hash := toyHash 8, index := 0 }] [30]]) true = some .forward_reference ∧
    blockCheck toyView (toyBlock [toyCoinbase, toyTx 3 [{ hash := toyHash 8, index := 0 }, { hash := nullHash, index := 0xffffffff }] [1]]) true =
      some .previous_output_null := by decide +kernel

end Verif.Validate
