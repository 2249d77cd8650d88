import Verif.Model.Number
import Verif.Spec.Number
import Verif.Lemmas.Stream
import Mathlib.Data.Nat.Log
import Mathlib.Tactic.Ring
import Mathlib.Tactic.Linarith
/-!
# Property C14: script numbers
-/
namespace Verif.Num
open Verif.Spec

theorem pow256 (k : Nat) : (256 : Nat) ^ k = 2 ^ (8 * k) := by
  rw [show (256 : Nat) = 2 ^ 8 by norm_num, ← pow_mul]

theorem pow256' {k : Nat} (h : 0 < k) : (256 : Nat) ^ k = 2 * 2 ^ (8 * k - 1) := by
  rw [pow256, ← pow_succ']; congr 1; omega

theorem log2_of {n k : Nat} (h1 : 2 ^ k ≤ n) (h2 : n < 2 ^ (k + 1)) : Nat.log2 n = k := by
  rw [Nat.log2_eq_log_two]
  exact (Nat.log_eq_iff (.inr ⟨by norm_num, by have := Nat.two_pow_pos k; omega⟩)).2 ⟨h1, h2⟩

theorem log2_bounds {n : Nat} (h : n ≠ 0) : 2 ^ Nat.log2 n ≤ n ∧ n < 2 ^ (Nat.log2 n + 1) := by
  rw [Nat.log2_eq_log_two]
  exact ⟨Nat.pow_log_le_self 2 h, Nat.lt_pow_succ_log_self (by norm_num) n⟩

/-- `is_negated` says the top bit of the top byte is set. -/
theorem isNegated_iff {n k : Nat} (hk : 0 < k) (hlo : 256 ^ (k - 1) ≤ n) (hhi : n < 256 ^ k) :
    isNegated n = true ↔ 2 ^ (8 * k - 1) ≤ n := by
  have hn : n ≠ 0 := by have : 0 < 256 ^ (k - 1) := by positivity
                        omega
  have hb := log2_bounds hn
  rw [pow256] at hlo hhi
  have l1 : 8 * (k - 1) ≤ Nat.log2 n := by
    by_contra hc
    have : 2 ^ (Nat.log2 n + 1) ≤ 2 ^ (8 * (k - 1)) := Nat.pow_le_pow_right (by norm_num) (by omega)
    omega
  have l2 : Nat.log2 n < 8 * k := by
    by_contra hc
    have : 2 ^ (8 * k) ≤ 2 ^ Nat.log2 n := Nat.pow_le_pow_right (by norm_num) (by omega)
    omega
  unfold isNegated bitWidth
  rw [if_neg hn]
  simp only [bne_iff_ne, ne_eq, hn, not_false_eq_true, Bool.and_eq_true, beq_iff_eq, true_and]
  constructor
  · intro h
    have : Nat.log2 n = 8 * k - 1 := by omega
    rw [← this]; exact hb.1
  · intro h
    have : Nat.log2 n = 8 * k - 1 := log2_of h (by rw [show 8 * k - 1 + 1 = 8 * k by omega]; exact hhi)
    omega

theorem byteWidth_pos {n : Nat} (h : n ≠ 0) : 0 < byteWidth n ∧ 256 ^ (byteWidth n - 1) ≤ n ∧ n < 256 ^ byteWidth n := by
  unfold byteWidth
  rw [if_neg h]
  have hb := log2_bounds h
  refine ⟨by omega, ?_, ?_⟩
  · rw [Nat.add_sub_cancel, pow256]
    exact (Nat.pow_le_pow_right (by norm_num) (by omega)).trans hb.1
  · rw [pow256]
    exact lt_of_lt_of_le hb.2 (Nat.pow_le_pow_right (by norm_num) (by omega))

theorem byteWidth_unique {n k : Nat} (hk : 0 < k) (h1 : 256 ^ (k - 1) ≤ n) (h2 : n < 256 ^ k) : byteWidth n = k := by
  have hn : n ≠ 0 := by have : 0 < 256 ^ (k - 1) := by positivity
                        omega
  obtain ⟨a, b, c⟩ := byteWidth_pos hn
  have p1 : byteWidth n - 1 < k := by
    by_contra hc
    have : 256 ^ k ≤ 256 ^ (byteWidth n - 1) := Nat.pow_le_pow_right (by norm_num) (by omega)
    omega
  have p2 : k - 1 < byteWidth n := by
    by_contra hc
    have : 256 ^ byteWidth n ≤ 256 ^ (k - 1) := Nat.pow_le_pow_right (by norm_num) (by omega)
    omega
  omega

theorem leBytes_length (n v : Nat) : (leBytes n v).length = n := by
  induction n generalizing v with
  | zero => rfl
  | succ n ih => simp [leBytes, ih]

/-- Value of a string in terms of its last byte. -/
theorem leNat_concat (init : Bytes) (last : UInt8) :
    leNat (init ++ [last]) = leNat init + 256 ^ init.length * last.toNat := by
  rw [leNat_append]; simp [leNat]

theorem top_iff (init : Bytes) (last : UInt8) :
    2 ^ (8 * (init ++ [last]).length - 1) ≤ leNat (init ++ [last]) ↔ 0x80 ≤ last := by
  rw [leNat_concat, UInt8.le_iff_toNat_le]
  simp only [List.length_append, List.length_cons, List.length_nil]
  have h := leNat_lt init
  have e : (2 : Nat) ^ (8 * (init.length + (0 + 1)) - 1) = 256 ^ init.length * 128 := by
    rw [pow256, show (128 : Nat) = 2 ^ 7 by norm_num, ← pow_add]; congr 1
  rw [e]
  have hp : 0 < 256 ^ init.length := by positivity
  change _ ↔ 128 ≤ last.toNat
  constructor
  · intro h1
    by_contra hc
    have : 256 ^ init.length * (last.toNat + 1) ≤ 256 ^ init.length * 128 := Nat.mul_le_mul_left _ (by omega)
    rw [Nat.mul_add] at this
    omega
  · intro h1
    have := Nat.mul_le_mul_left (256 ^ init.length) h1
    omega

/-- `integer<Size>::from_chunk` fails exactly on strings longer than `Size`, and otherwise gives the denoted number. -/
theorem C14_decode (size width : Nat) (hw : 8 * size ≤ width) (b : Bytes) :
    integerFromChunk size width b = if b.length ≤ size then some (scriptNum b) else none := by
  unfold integerFromChunk
  by_cases hb : b = []
  · subst hb; simp [scriptNum]
  rw [if_neg hb]
  by_cases hl : b.length ≤ size
  · rw [if_neg (by omega), if_pos hl]
    obtain ⟨init, last, rfl⟩ : ∃ init last, b = init ++ [last] :=
      ⟨b.dropLast, b.getLast hb, (List.dropLast_concat_getLast hb).symm⟩
    have hlast : (init ++ [last]).getLastD 0 = last := by simp
    rw [hlast]
    have hk : 0 < (init ++ [last]).length := by simp
    have hlt := leNat_lt (init ++ [last])
    have htop := top_iff init last
    have hneg : isNegated last.toNat = true ↔ 0x80 ≤ last := by
      rw [UInt8.le_iff_toNat_le]
      change _ ↔ 128 ≤ last.toNat
      by_cases h0 : last.toNat = 0
      · rw [h0]; simp [isNegated]
      · have := isNegated_iff (n := last.toNat) (k := 1) (by omega) (by simp; omega)
          (by have := last.toNat_lt; simpa using this)
        simpa using this
    unfold scriptNum
    rw [if_neg hb]
    generalize hL : (init ++ [last]).length = L at *
    generalize hU : leNat (init ++ [last]) = U at *
    have hpL := pow256' hk
    rw [hpL] at hlt
    have h2L : (2 : Nat) ^ (8 * L) = 2 * 2 ^ (8 * L - 1) := by rw [← pow256, hpL]
    have hmono : (2 : Nat) ^ (8 * L - 1) ≤ 2 ^ (width - 1) := Nat.pow_le_pow_right (by norm_num) (by omega)
    have hw2 : (2 : Nat) ^ width = 2 * 2 ^ (width - 1) := by rw [← pow_succ']; congr 1; omega
    by_cases hc : 0x80 ≤ last
    · have hU1 := htop.2 hc
      simp only []
      rw [if_pos (hneg.2 hc), if_pos hU1]
      congr 1
      have hL2 : U < 2 ^ (8 * L - 1 + 1) := by rw [pow_succ']; omega
      have hUw : U < 2 ^ width := by omega
      have hbw : bitWidthS width (toSigned width U) = 8 * L := by
        unfold bitWidthS toSigned
        split
        · rw [if_neg (by omega)]
          unfold bitWidth
          rw [Int.toNat_natCast, if_neg (by have := Nat.two_pow_pos (8 * L - 1); omega), log2_of hU1 hL2]
          omega
        · rename_i hc
          rw [if_pos (by have : (U : Int) < 2 ^ width := by exact_mod_cast hUw
                         omega)]
          by_contra hne
          have : (2 : Nat) ^ (8 * L) ≤ 2 ^ (width - 1) := Nat.pow_le_pow_right (by norm_num) (by omega)
          omega
      have hmod : (toSigned width U % 2 ^ width).toNat = U := by
        have hUi : (U : Int) < 2 ^ width := by exact_mod_cast hUw
        unfold toSigned
        split
        · rw [Int.emod_eq_of_lt (by omega) hUi]; simp
        · rw [Int.sub_emod, Int.emod_self, sub_zero, Int.emod_emod, Int.emod_eq_of_lt (by omega) hUi]; simp
      have hnz : toSigned width U ≠ 0 := by
        intro h0
        rw [h0] at hbw
        simp [bitWidthS, bitWidth] at hbw
        omega
      unfold toUnnegated
      have hneg2 : isNegatedS width (toSigned width U) = true := by
        unfold isNegatedS
        rw [hbw]; simp [hnz]
      rw [hneg2]
      simp only [Bool.not_true, Bool.false_eq_true, if_false]
      unfold clearRight
      rw [hmod, hbw]
      have htb : U.testBit (8 * L - 1) = true := by
        rw [Nat.testBit_eq_decide_div_mod_eq]
        have : U / 2 ^ (8 * L - 1) = 1 := by
          apply Nat.div_eq_of_lt_le <;> omega
        rw [this]; decide
      simp only [htb, if_true]
      unfold toSigned
      rw [if_pos (by omega)]
      push_cast [hU1]
      ring
    · have hU1 : ¬ 2 ^ (8 * L - 1) ≤ U := fun h => hc (htop.1 h)
      simp only []
      rw [if_neg (fun h => hc (hneg.1 h)), if_neg hU1]
      congr 1
      unfold toSigned
      rw [if_pos (by omega)]
  · rw [if_pos (by omega), if_neg hl]

theorem encode_cases (x : Int) (hx : x ≠ 0) (b : Bytes) (hb : b = toLittleEndianSize x.natAbs) :
    b.length = byteWidth x.natAbs ∧ 0 < byteWidth x.natAbs ∧ leNat b = x.natAbs ∧
      (isNegated x.natAbs = true ↔ 2 ^ (8 * b.length - 1) ≤ leNat b) := by
  have hn : x.natAbs ≠ 0 := by omega
  obtain ⟨h1, h2, h3⟩ := byteWidth_pos hn
  have hl : b.length = byteWidth x.natAbs := by rw [hb]; exact leBytes_length _ _
  have hv : leNat b = x.natAbs := by rw [hb]; exact leNat_leBytes_of_lt h3
  refine ⟨hl, h1, hv, ?_⟩
  rw [hl, hv]
  exact isNegated_iff h1 h2 h3

theorem or80 (c : UInt8) (h : c < 0x80) : (c ||| 0x80).toNat = c.toNat + 128 := by
  have h1 : c.toNat < 128 := by simpa [UInt8.lt_iff_toNat_lt] using h
  rw [UInt8.toNat_or]
  change c.toNat ||| 2 ^ 7 = _
  rw [Nat.or_comm]
  have := Nat.two_pow_add_eq_or_of_lt (i := 7) (b := c.toNat) (by omega) 1
  simpa [Nat.add_comm] using this.symm

/-- Encoding then reading the denoted number gives the integer back. -/
theorem C14_encode_denotes (x : Int) : scriptNum (chunkFromInteger x) = x := by
  unfold chunkFromInteger
  by_cases hx : x = 0
  · subst hx; simp [scriptNum]
  rw [if_neg hx]
  obtain ⟨hl, hpos, hv, hneg⟩ := encode_cases x hx _ rfl
  simp only
  generalize hb : toLittleEndianSize x.natAbs = b at *
  have hbne : b ≠ [] := by rintro rfl; simp at hl; omega
  by_cases hN : isNegated x.natAbs = true
  · simp only [hN, Bool.true_and, decide_eq_true_eq, if_true]
    split
    · rename_i hxn
      have ht : 2 ^ (8 * (b ++ [negativeSign]).length - 1) ≤ leNat (b ++ [negativeSign]) := (top_iff _ _).2 (by decide)
      unfold scriptNum
      rw [if_neg (by simp), if_pos ht, leNat_concat, hv]
      have e : (2 : Int) ^ (8 * (b ++ [negativeSign]).length - 1) = 256 ^ b.length * 128 := by
        have : (2 : Nat) ^ (8 * (b ++ [negativeSign]).length - 1) = 256 ^ b.length * 128 := by
          rw [pow256, show (128 : Nat) = 2 ^ 7 by norm_num, ← pow_add]; congr 1; simp; omega
        exact_mod_cast this
      rw [e, show negativeSign.toNat = 128 from rfl]
      push_cast
      rw [abs_of_neg hxn]
      omega
    · rename_i hxn
      have ht : ¬ 2 ^ (8 * (b ++ [positiveSign]).length - 1) ≤ leNat (b ++ [positiveSign]) :=
        fun h => absurd ((top_iff _ _).1 h) (by decide)
      unfold scriptNum
      rw [if_neg (by simp), if_neg ht, leNat_concat, hv, show positiveSign.toNat = 0 from rfl]
      omega
  · simp only [hN, Bool.false_and, Bool.false_eq_true, if_false, decide_eq_true_eq]
    obtain ⟨init, last, rfl⟩ : ∃ init last, b = init ++ [last] :=
      ⟨b.dropLast, b.getLast hbne, (List.dropLast_concat_getLast hbne).symm⟩
    have hlast : ¬ 0x80 ≤ last := fun h => hN (hneg.2 ((top_iff _ _).2 h))
    have hlt : last < 0x80 := by simpa using hlast
    split
    · rename_i hxn
      rw [List.dropLast_concat, show (init ++ [last]).getLastD 0 = last by simp]
      have ht : 2 ^ (8 * (init ++ [last ||| 0x80]).length - 1) ≤ leNat (init ++ [last ||| 0x80]) :=
        (top_iff _ _).2 (by rw [UInt8.le_iff_toNat_le, or80 _ hlt]; simp)
      unfold scriptNum
      rw [if_neg (by simp), if_pos ht, leNat_concat, or80 _ hlt]
      rw [leNat_concat] at hv
      have e : (2 : Int) ^ (8 * (init ++ [last ||| 0x80]).length - 1) = 256 ^ init.length * 128 := by
        have : (2 : Nat) ^ (8 * (init ++ [last ||| 0x80]).length - 1) = 256 ^ init.length * 128 := by
          rw [pow256, show (128 : Nat) = 2 ^ 7 by norm_num, ← pow_add]; congr 1; simp; omega
        exact_mod_cast this
      rw [e]
      have hv' : (leNat init : Int) + 256 ^ init.length * last.toNat = x.natAbs := by exact_mod_cast hv
      push_cast
      rw [mul_add]
      omega
    · rename_i hxn
      unfold scriptNum
      rw [if_neg (by simp), if_neg (fun h => hlast ((top_iff _ _).1 h)), hv]
      omega

/-- The encoding is minimal. -/
theorem C14_encode_minimal (x : Int) : MinimalNum (chunkFromInteger x) := by
  unfold chunkFromInteger
  by_cases hx : x = 0
  · subst hx; simp [MinimalNum]
  rw [if_neg hx]
  obtain ⟨hl, hpos, hv, hneg⟩ := encode_cases x hx _ rfl
  obtain ⟨_, hlo, hhi⟩ := byteWidth_pos (n := x.natAbs) (by omega)
  simp only
  generalize hb : toLittleEndianSize x.natAbs = b at *
  have hbne : b ≠ [] := by rintro rfl; simp at hl; omega
  obtain ⟨init, last, rfl⟩ : ∃ init last, b = init ++ [last] :=
    ⟨b.dropLast, b.getLast hbne, (List.dropLast_concat_getLast hbne).symm⟩
  have hlast0 : last ≠ 0 := by
    rintro rfl
    rw [leNat_concat] at hv
    have := leNat_lt init
    rw [← hl] at hlo
    simp at hlo hv
    omega
  by_cases hN : isNegated x.natAbs = true
  · have h80 : 0x80 ≤ last := (top_iff _ _).1 (hneg.1 hN)
    simp only [hN, Bool.true_and, decide_eq_true_eq, if_true]
    split <;> exact .inr ⟨_, _, rfl, .inr ⟨_, _, rfl, h80⟩⟩
  · simp only [hN, Bool.false_and, Bool.false_eq_true, if_false, decide_eq_true_eq]
    have hlast : ¬ 0x80 ≤ last := fun h => hN (hneg.2 ((top_iff _ _).2 h))
    have hlt : last < 0x80 := by simpa using hlast
    split
    · rw [List.dropLast_concat, show (init ++ [last]).getLastD 0 = last by simp]
      refine .inr ⟨_, _, rfl, .inl ⟨?_, ?_⟩⟩
      · intro h
        have := congrArg UInt8.toNat h
        rw [or80 _ hlt] at this
        simp at this
      · intro h
        have := congrArg UInt8.toNat h
        rw [or80 _ hlt] at this
        apply hlast0
        rw [← UInt8.toNat_inj]
        simp at this ⊢
        exact this
    · exact .inr ⟨_, _, rfl, .inl ⟨hlast0, fun h => hlast (by rw [h]; decide)⟩⟩


theorem scriptNum_concat (init : Bytes) (last : UInt8) :
    scriptNum (init ++ [last]) =
      if 0x80 ≤ last then -((leNat init + 256 ^ init.length * (last.toNat % 128) : Nat) : Int)
      else ((leNat init + 256 ^ init.length * (last.toNat % 128) : Nat) : Int) := by
  unfold scriptNum
  rw [if_neg (by simp)]
  simp only [top_iff]
  have e : (2 : Int) ^ (8 * (init ++ [last]).length - 1) = 256 ^ init.length * 128 := by
    have : (2 : Nat) ^ (8 * (init ++ [last]).length - 1) = 256 ^ init.length * 128 := by
      rw [pow256, show (128 : Nat) = 2 ^ 7 by norm_num, ← pow_add]; congr 1; simp; omega
    exact_mod_cast this
  have hlt := last.toNat_lt
  split
  · rename_i h
    rw [UInt8.le_iff_toNat_le] at h
    change 128 ≤ last.toNat at h
    rw [e, leNat_concat]
    have hm : last.toNat % 128 + 128 = last.toNat := by omega
    have : (256 : Int) ^ init.length * (last.toNat : Int) =
        256 ^ init.length * ((last.toNat % 128 : Nat) : Int) + 256 ^ init.length * 128 := by
      rw [← mul_add]; congr 1; exact_mod_cast hm.symm
    push_cast at this ⊢
    omega
  · rename_i h
    rw [UInt8.le_iff_toNat_le] at h
    have h' : ¬ 128 ≤ last.toNat := h
    rw [leNat_concat, Nat.mod_eq_of_lt (by omega)]

theorem mag_bounds {init : Bytes} {last : UInt8} (h : MinimalNum (init ++ [last])) :
    (scriptNum (init ++ [last])) ≠ 0 ∧ 2 ^ (8 * init.length - 1) ≤ (scriptNum (init ++ [last])).natAbs ∧
      (scriptNum (init ++ [last])).natAbs < 2 ^ (8 * init.length + 7) := by
  have hab : (scriptNum (init ++ [last])).natAbs = leNat init + 256 ^ init.length * (last.toNat % 128) := by
    rw [scriptNum_concat]; split <;> omega
  have hp : 0 < 256 ^ init.length := by positivity
  have hmono : 2 ^ (8 * init.length - 1) ≤ 256 ^ init.length := by
    rw [pow256]; exact Nat.pow_le_pow_right (by norm_num) (by omega)
  have hlow : 2 ^ (8 * init.length - 1) ≤ leNat init + 256 ^ init.length * (last.toNat % 128) := by
    rcases h with h | ⟨i, l, h, h2⟩
    · simp at h
    · obtain ⟨rfl, hl⟩ := List.append_inj' h rfl
      simp at hl; subst hl
      rcases h2 with ⟨h3, h4⟩ | ⟨i', p, rfl, h3⟩
      · have : 1 ≤ last.toNat % 128 := by
          have hlt := last.toNat_lt
          have a1 : last.toNat ≠ 0 := fun e => h3 (by rw [← UInt8.toNat_inj]; simpa using e)
          have a2 : last.toNat ≠ 128 := fun e => h4 (by rw [← UInt8.toNat_inj]; simpa using e)
          omega
        have := Nat.mul_le_mul_left (256 ^ init.length) this
        omega
      · have := (top_iff i' p).2 h3
        omega
  have hpos := Nat.two_pow_pos (8 * init.length - 1)
  refine ⟨fun e => ?_, by rw [hab]; exact hlow, ?_⟩
  · rw [e] at hab; simp at hab; omega
  · rw [hab, pow_add, ← pow256]
    have h1 := leNat_lt init
    have h2 : last.toNat % 128 + 1 ≤ 128 := by omega
    have := Nat.mul_le_mul_left (256 ^ init.length) h2
    rw [Nat.mul_add] at this
    norm_num
    omega

/-- Two minimal strings denoting the same number are equal. -/
theorem minimal_unique {a b : Bytes} (ha : MinimalNum a) (hb : MinimalNum b) (h : scriptNum a = scriptNum b) : a = b := by
  rcases List.eq_nil_or_concat a with rfl | ⟨ia, la, rfl⟩
  · rcases List.eq_nil_or_concat b with rfl | ⟨ib, lb, rfl⟩
    · rfl
    · rw [List.concat_eq_append] at *
      exact absurd h.symm (mag_bounds hb).1
  · rcases List.eq_nil_or_concat b with rfl | ⟨ib, lb, rfl⟩
    · rw [List.concat_eq_append] at *
      exact absurd h (mag_bounds ha).1
    · simp only [List.concat_eq_append] at *
      obtain ⟨a1, a2, a3⟩ := mag_bounds ha
      obtain ⟨b1, b2, b3⟩ := mag_bounds hb
      rw [h] at a2 a3
      have hl : ia.length = ib.length := by
        have p1 : 8 * ia.length - 1 < 8 * ib.length + 7 :=
          (Nat.pow_lt_pow_iff_right (by norm_num : 1 < 2)).1 (lt_of_le_of_lt a2 b3)
        have p2 : 8 * ib.length - 1 < 8 * ia.length + 7 :=
          (Nat.pow_lt_pow_iff_right (by norm_num : 1 < 2)).1 (lt_of_le_of_lt b2 a3)
        omega
      have hla := la.toNat_lt
      have hlb := lb.toNat_lt
      have key : leNat (ia ++ [la]) = leNat (ib ++ [lb]) := by
        rw [scriptNum_concat, scriptNum_concat] at h
        rw [scriptNum_concat] at b1
        simp only [UInt8.le_iff_toNat_le] at h b1
        change (if 128 ≤ la.toNat then _ else _) = (if 128 ≤ lb.toNat then _ else _) at h
        change (if 128 ≤ lb.toNat then _ else _) ≠ _ at b1
        rw [leNat_concat, leNat_concat]
        rw [hl] at h ⊢
        have ea : la.toNat = la.toNat % 128 + (if 128 ≤ la.toNat then 128 else 0) := by split <;> omega
        have eb : lb.toNat = lb.toNat % 128 + (if 128 ≤ lb.toNat then 128 else 0) := by split <;> omega
        rw [ea, eb, Nat.mul_add, Nat.mul_add]
        by_cases c1 : 128 ≤ la.toNat <;> by_cases c2 : 128 ≤ lb.toNat <;> simp only [c1, c2, if_true, if_false] at h b1 ⊢
        all_goals omega
      exact leNat_inj (by simp [hl]) key

/-- The encoding is the unique minimal string: encoding the denoted number of a minimal string gives it back. -/
theorem C14_encode_unique (b : Bytes) (h : MinimalNum b) : chunkFromInteger (scriptNum b) = b :=
  minimal_unique (C14_encode_minimal _) h (C14_encode_denotes _)

/-- Minimality is really shortest length. -/
theorem C14_minimal_shortest (a b : Bytes) (ha : MinimalNum a) (h : scriptNum a = scriptNum b) : a.length ≤ b.length := by
  rcases List.eq_nil_or_concat a with rfl | ⟨ia, la, rfl⟩
  · simp
  · rw [List.concat_eq_append] at *
    obtain ⟨a1, a2, a3⟩ := mag_bounds ha
    rcases List.eq_nil_or_concat b with rfl | ⟨ib, lb, rfl⟩
    · exact absurd h a1
    · simp only [List.concat_eq_append] at *
      have hab : (scriptNum (ib ++ [lb])).natAbs = leNat ib + 256 ^ ib.length * (lb.toNat % 128) := by
        rw [scriptNum_concat]; split <;> omega
      have hub : (scriptNum (ib ++ [lb])).natAbs < 2 ^ (8 * ib.length + 7) := by
        rw [hab, pow_add, ← pow256]
        have h1 := leNat_lt ib
        have h2 : lb.toNat % 128 + 1 ≤ 128 := by omega
        have := Nat.mul_le_mul_left (256 ^ ib.length) h2
        rw [Nat.mul_add] at this
        norm_num
        omega
      rw [h] at a2
      have p1 : 8 * ia.length - 1 < 8 * ib.length + 7 :=
        (Nat.pow_lt_pow_iff_right (by norm_num : 1 < 2)).1 (lt_of_le_of_lt a2 hub)
      simp; omega

theorem scriptNum_range {b : Bytes} {size : Nat} (hs : 0 < size) (hl : b.length ≤ size) :
    -(2 ^ (8 * size - 1) - 1) ≤ scriptNum b ∧ scriptNum b ≤ 2 ^ (8 * size - 1) - 1 := by
  have hp : (1 : Int) ≤ 2 ^ (8 * size - 1) := by exact_mod_cast Nat.one_le_two_pow
  unfold scriptNum
  split
  · constructor <;> omega
  · rename_i hb
    have hk : 0 < b.length := List.length_pos_iff.2 hb
    have h1 := leNat_lt b
    rw [pow256' hk] at h1
    have h2 : (2 : Nat) ^ (8 * b.length - 1) ≤ 2 ^ (8 * size - 1) := Nat.pow_le_pow_right (by norm_num) (by omega)
    have h1' : (leNat b : Int) < 2 * 2 ^ (8 * b.length - 1) := by exact_mod_cast h1
    have h2' : (2 : Int) ^ (8 * b.length - 1) ≤ 2 ^ (8 * size - 1) := by exact_mod_cast h2
    split
    · rename_i h3
      have h3' : (2 : Int) ^ (8 * b.length - 1) ≤ leNat b := by exact_mod_cast h3
      constructor <;> omega
    · rename_i h3
      have h3' : (leNat b : Int) < 2 ^ (8 * b.length - 1) := by exact_mod_cast (not_le.1 h3)
      constructor <;> omega

/-- Decoding never leaves `±(2^(8*size-1) - 1)`. -/
theorem C14_decode_range (size width : Nat) (hs : 0 < size) (hw : 8 * size ≤ width) (b : Bytes) (x : Int)
    (h : integerFromChunk size width b = some x) : -(2 ^ (8 * size - 1) - 1) ≤ x ∧ x ≤ 2 ^ (8 * size - 1) - 1 := by
  rw [C14_decode size width hw] at h
  split at h
  · rename_i hl
    simp at h; subst h
    exact scriptNum_range hs hl
  · simp at h

theorem encode_length_le_iff (size : Nat) (hs : 0 < size) (x : Int) :
    (chunkFromInteger x).length ≤ size ↔ -(2 ^ (8 * size - 1) - 1) ≤ x ∧ x ≤ 2 ^ (8 * size - 1) - 1 := by
  constructor
  · intro h
    have := scriptNum_range hs h
    rwa [C14_encode_denotes] at this
  · intro h
    have hp : (1 : Int) ≤ 2 ^ (8 * size - 1) := by exact_mod_cast Nat.one_le_two_pow
    have hm := C14_encode_minimal x
    have hd := C14_encode_denotes x
    rcases List.eq_nil_or_concat (chunkFromInteger x) with he | ⟨ia, la, he⟩
    · rw [he]; simp
    · rw [List.concat_eq_append] at he
      rw [he] at hm hd ⊢
      obtain ⟨a1, a2, a3⟩ := mag_bounds hm
      rw [hd] at a2
      have : x.natAbs < 2 ^ (8 * size - 1) := by
        have : (x.natAbs : Int) < 2 ^ (8 * size - 1) := by omega
        exact_mod_cast this
      have p1 := (Nat.pow_lt_pow_iff_right (by norm_num : 1 < 2)).1 (lt_of_le_of_lt a2 this)
      simp; omega

/-- Round trip: what `from_integer` writes, `integer<Size>::from_chunk` reads back, exactly when it fits. -/
theorem C14_roundtrip (size width : Nat) (hs : 0 < size) (hw : 8 * size ≤ width) (x : Int) :
    integerFromChunk size width (chunkFromInteger x) =
      if -(2 ^ (8 * size - 1) - 1) ≤ x ∧ x ≤ 2 ^ (8 * size - 1) - 1 then some x else none := by
  rw [C14_decode size width hw, C14_encode_denotes]
  simp only [encode_length_le_iff size hs]

/-- Reading an integer stack element directly gives the same result as reading its encoding. -/
theorem C14_integer_variant (size width : Nat) (hs : 0 < size) (hw : 8 * size ≤ width) (x : Int) :
    integerFromInteger size x = integerFromChunk size width (chunkFromInteger x) := by
  rw [C14_roundtrip size width hs hw]
  unfold integerFromInteger
  split <;> split <;> first | rfl | omega

theorem scriptNum_eq_zero (b : Bytes) :
    scriptNum b = 0 ↔ b = [] ∨ ∃ init last, b = init ++ [last] ∧ (∀ c ∈ init, c = 0) ∧ (last = 0 ∨ last = 0x80) := by
  rcases List.eq_nil_or_concat b with rfl | ⟨init, last, rfl⟩
  · simp [scriptNum]
  · rw [List.concat_eq_append, scriptNum_concat]
    have hz : ∀ l : Bytes, leNat l = 0 ↔ ∀ c ∈ l, c = 0 := by
      intro l
      induction l with
      | nil => simp [leNat]
      | cons c l ih =>
        simp only [leNat, List.mem_cons, forall_eq_or_imp, ← ih, Nat.add_eq_zero_iff, Nat.mul_eq_zero]
        rw [← UInt8.toNat_inj]
        simp
    have hlt := last.toNat_lt
    have hl : last.toNat % 128 = 0 ↔ (last = 0 ∨ last = 0x80) := by
      rw [← UInt8.toNat_inj, ← UInt8.toNat_inj]
      change _ ↔ (last.toNat = 0 ∨ last.toNat = 128)
      omega
    have hp : (256 : Nat) ^ init.length ≠ 0 := by positivity
    have main : (leNat init + 256 ^ init.length * (last.toNat % 128) = 0) ↔
        (∀ c ∈ init, c = 0) ∧ (last = 0 ∨ last = 0x80) := by
      rw [Nat.add_eq_zero_iff, Nat.mul_eq_zero, hz, ← hl]; tauto
    constructor
    · intro h
      exact .inr ⟨init, last, rfl, main.1 (by split at h <;> omega)⟩
    · rintro (h | ⟨i, l, h, h1⟩)
      · simp at h
      · obtain ⟨rfl, h3⟩ := List.append_inj' h rfl
        simp at h3; subst h3
        have := main.2 h1
        rw [this]; simp

/-- A chunk is false exactly when it denotes zero (including negative zero, at any length). -/
theorem C14_boolean (b : Bytes) : booleanFromChunk b = false ↔ scriptNum b = 0 := by
  rw [scriptNum_eq_zero]
  unfold booleanFromChunk
  rcases List.eq_nil_or_concat b with rfl | ⟨init, last, rfl⟩
  · simp
  · rw [List.concat_eq_append, if_neg (by simp)]
    rw [show (init ++ [last]).getLastD 0 = last by simp, List.dropLast_concat]
    have key : (init ++ [last] = [] ∨ ∃ i l, init ++ [last] = i ++ [l] ∧ (∀ c ∈ i, c = 0) ∧ (l = 0 ∨ l = 0x80)) ↔
        ((∀ c ∈ init, c = 0) ∧ (last = 0 ∨ last = 0x80)) := by
      constructor
      · rintro (h | ⟨i, l, h, h1⟩)
        · simp at h
        · obtain ⟨rfl, h3⟩ := List.append_inj' h rfl
          simp at h3; subst h3; exact h1
      · intro h; exact .inr ⟨_, _, rfl, h⟩
    rw [key]
    unfold positiveSign negativeSign
    by_cases h : last = 0 ∨ last = 0x80
    · have : (last == 0 || last == 0x80) = true := by simpa using h
      simp [this, h]
    · have : (last == 0 || last == 0x80) = false := by simpa using h
      simp [this, h]

/-- Boolean and integer stack elements have the truth value of their encodings. -/
theorem C14_boolean_variant (x : Int) (v : Bool) :
    booleanFromInteger x = booleanFromChunk (chunkFromInteger x) ∧ v = booleanFromChunk (chunkFromBool v) := by
  constructor
  · have := C14_boolean (chunkFromInteger x)
    rw [C14_encode_denotes] at this
    unfold booleanFromInteger
    by_cases h : x = 0
    · rw [this.2 h, h]; rfl
    · have h2 : booleanFromChunk (chunkFromInteger x) = true := by
        rw [← Bool.not_eq_false, this]; exact h
      rw [h2]; simpa using h
  · cases v <;> decide

theorem encode_one : chunkFromInteger 1 = [1] := by decide

/-- The minimal boolean form is accepted exactly for `[]` and `[1]`, whichever variant holds it. -/
theorem C14_minimal_boolean (b : Bytes) (x : Int) :
    (minimalBoolFromChunk b = if b = [] then some false else if b = [1] then some true else none) ∧
    minimalBoolFromInteger x = minimalBoolFromChunk (chunkFromInteger x) := by
  have h1 : ∀ b : Bytes, minimalBoolFromChunk b = if b = [] then some false else if b = [1] then some true else none := by
    intro b
    unfold minimalBoolFromChunk
    rcases b with _ | ⟨c, _ | ⟨d, l⟩⟩
    · simp
    · simp only [List.length_cons, List.length_nil, List.headD_cons]
      by_cases hc : c = 1
      · subst hc; decide
      · simp [hc]
    · simp
  refine ⟨h1 b, ?_⟩
  rw [h1]
  unfold minimalBoolFromInteger
  by_cases h0 : x = 0
  · subst h0; decide
  · by_cases h2 : x = 1
    · subst h2; decide
    · have e0 : chunkFromInteger x ≠ [] := fun e => h0 (by rw [← C14_encode_denotes x, e]; rfl)
      have e1 : chunkFromInteger x ≠ [1] := fun e => h2 (by rw [← C14_encode_denotes x, e]; decide)
      simp [h0, h2, e0, e1]

/-- Concrete instances. -/
example : chunkFromInteger (-255) = [0xff, 0x80] ∧ chunkFromInteger 127 = [0x7f] ∧ chunkFromInteger 128 = [0x80, 0] ∧
    chunkFromInteger (-1) = [0x81] ∧ integerFromChunk 4 32 [1, 0, 0, 0x80] = some (-1) ∧
    integerFromChunk 4 32 [0, 0, 0, 0, 0x80] = none := by decide
example : MinimalNum [0xff, 0x80] := .inr ⟨[0xff], 0x80, rfl, .inr ⟨[], 0xff, rfl, by decide⟩⟩
example : booleanFromChunk [0, 0x80] = false ∧ booleanFromChunk [0x80, 0] = true := by decide

end Verif.Num
