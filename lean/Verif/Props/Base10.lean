import Verif.Model.Base10
import Verif.Spec.Base10
import Verif.Props.Radix
/-!
# C56: base10 amounts
-/
namespace Verif.Base10
open Verif Verif.Base10.Spec

theorem isDigit_iff (c : UInt8) : isDigit c = true ↔ Digit c := by
  unfold isDigit Digit; rw [Bool.and_eq_true, decide_eq_true_iff, decide_eq_true_iff]

theorem foldl_value (s : Bytes) : ∀ v, s.foldl (fun v c => v * 10 + (c.toNat - 48)) v = v * 10 ^ s.length + value s := by
  induction s with
  | nil => intro v; simp [value]
  | cons c s ih =>
    intro v
    rw [List.foldl_cons, ih, List.length_cons, value, Nat.pow_succ]
    rw [Nat.add_mul, Nat.mul_assoc, Nat.mul_comm 10]
    omega

theorem digitsVal_eq (s : Bytes) : digitsVal s = value s := by
  unfold digitsVal; rw [foldl_value]; omega

theorem value_append (a b : Bytes) : value (a ++ b) = value a * 10 ^ b.length + value b := by
  have := digitsVal_eq (a ++ b)
  unfold digitsVal at this
  rw [List.foldl_append, foldl_value, foldl_value] at this
  rw [← this]; simp

theorem value_zeros (n : Nat) : value (List.replicate n 48) = 0 := by
  induction n with
  | zero => rfl
  | succ n ih => rw [List.replicate_succ, value, ih]; simp

theorem value_lt {s : Bytes} (h : ∀ c ∈ s, Digit c) : value s < 10 ^ s.length := by
  induction s with
  | nil => decide
  | cons c s ih =>
    have := ih fun c hc => h c (by simp [hc])
    have hc := (h c (by simp)).2
    have hc' : c.toNat ≤ 57 := hc
    rw [value, List.length_cons, Nat.pow_succ]
    have : (c.toNat - 48) * 10 ^ s.length ≤ 9 * 10 ^ s.length := Nat.mul_le_mul_right _ (by omega)
    omega

theorem value_eq_zero {s : Bytes} (h : ∀ c ∈ s, Digit c) : value s = 0 ↔ s.all (· == 48) = true := by
  induction s with
  | nil => simp [value]
  | cons c s ih =>
    have hi := ih fun c hc => h c (by simp [hc])
    have hc := h c (by simp)
    have h1 : 48 ≤ c.toNat := hc.1
    rw [value, List.all_cons, Bool.and_eq_true, ← hi]
    have hp : 0 < 10 ^ s.length := Nat.pow_pos (by decide)
    constructor
    · intro hh
      have h2 : (c.toNat - 48) * 10 ^ s.length = 0 := by omega
      rcases Nat.mul_eq_zero.1 h2 with h2 | h2
      · refine ⟨?_, by omega⟩
        rw [beq_iff_eq]
        apply UInt8.toNat_inj.1
        show c.toNat = 48
        omega
      · omega
    · rintro ⟨h2, h3⟩
      rw [beq_iff_eq] at h2
      subst h2
      rw [h3]; simp

theorem split_point (s : Bytes) (h : (s.takeWhile (· ≠ 46) ++ (s.dropWhile (· ≠ 46)).drop 1).all isDigit = true) :
    Denotes s (value (s.takeWhile (· ≠ 46) ++ (s.dropWhile (· ≠ 46)).drop 1)) ((s.dropWhile (· ≠ 46)).drop 1).length := by
  rw [List.all_append, Bool.and_eq_true, List.all_eq_true, List.all_eq_true] at h
  have h1 : ∀ c ∈ s.takeWhile (· ≠ 46), Digit c := fun c hc => (isDigit_iff c).1 (h.1 c hc)
  have h2 : ∀ c ∈ (s.dropWhile (· ≠ 46)).drop 1, Digit c := fun c hc => (isDigit_iff c).1 (h.2 c hc)
  have hs := List.takeWhile_append_dropWhile (p := (· ≠ (46 : UInt8))) (l := s)
  cases hd : s.dropWhile (· ≠ 46) with
  | nil =>
    rw [hd, List.append_nil] at hs
    rw [hd] at h2
    simp only [List.drop_nil, List.append_nil, List.length_nil]
    rw [hs]
    rw [hs] at h1
    exact Denotes.whole s h1
  | cons c t =>
    have hc : c = 46 := by
      have := List.head?_dropWhile_not (· ≠ (46 : UInt8)) s
      rw [hd] at this
      simpa using this
    subst hc
    rw [hd] at h2 hs
    have := Denotes.point _ t h1 (by simpa using h2)
    rw [List.append_assoc, List.singleton_append, hs] at this
    simpa using this

theorem denotes_split {s : Bytes} {num scale : Nat} (h : Denotes s num scale) :
    (s.takeWhile (· ≠ 46) ++ (s.dropWhile (· ≠ 46)).drop 1).all isDigit = true ∧ num = value (s.takeWhile (· ≠ 46) ++ (s.dropWhile (· ≠ 46)).drop 1) ∧
      scale = ((s.dropWhile (· ≠ 46)).drop 1).length := by
  have hne : ∀ c : UInt8, Digit c → (decide (c ≠ 46)) = true := by
    rintro c ⟨h1, -⟩
    rw [decide_eq_true_iff]; rintro rfl; exact absurd h1 (by decide)
  cases h with
  | whole w hw =>
    have ht : s.takeWhile (· ≠ 46) = s := by
      have := List.takeWhile_append_of_pos (l₂ := []) (p := fun c : UInt8 => decide (c ≠ 46)) (l₁ := s) fun c hc => hne c (hw c hc)
      simpa using this
    have hd : s.dropWhile (· ≠ 46) = [] := by
      have := List.dropWhile_append_of_pos (l₂ := []) (p := fun c : UInt8 => decide (c ≠ 46)) (l₁ := s) fun c hc => hne c (hw c hc)
      simpa using this
    rw [ht, hd, List.drop_nil, List.append_nil]
    refine ⟨?_, rfl, rfl⟩
    rw [List.all_eq_true]; exact fun c hc => (isDigit_iff c).2 (hw c hc)
  | point w f hw hf =>
    have hw' : ∀ c ∈ w, (decide (c ≠ 46)) = true := fun c hc => hne c (hw c hc)
    rw [List.append_assoc, List.singleton_append, List.takeWhile_append_of_pos hw', List.dropWhile_append_of_pos hw', List.takeWhile_cons_of_neg (by simp),
      List.dropWhile_cons_of_neg (by simp), List.append_nil, List.drop_succ_cons, List.drop_zero]
    refine ⟨?_, rfl, rfl⟩
    rw [List.all_append, Bool.and_eq_true, List.all_eq_true, List.all_eq_true]
    exact ⟨fun c hc => (isDigit_iff c).2 (hw c hc), fun c hc => (isDigit_iff c).2 (hf c hc)⟩

/-- **C56**: decoding an amount succeeds exactly for a decimal text (digits, at most one point) whose value scaled by the number of places fits 64 bits
when rounded up, and, if strict, needs no rounding; and yields that. -/
theorem C56_decode (s : Bytes) (places : Nat) (strict : Bool) (n : Nat) : decode s places strict = some n ↔
    ∃ num scale, Denotes s num scale ∧ IsCeil num scale places n ∧ n < 2 ^ 64 ∧ (strict = true → num * 10 ^ places = n * 10 ^ scale) := by
  have hkey : ∀ (w f : Bytes), (∀ c ∈ w, Digit c) → (∀ c ∈ f, Digit c) →
      ((let value := w ++ f ++ List.replicate (places - f.length) 48
        let truncated := if places < f.length then !(f.drop places).all (· == 48) else false
        let value := if places < f.length then value.take (w.length + places) else value
        (if strict && truncated then none
        else
          match (if value ≠ [] then parseDec value else some 0) with
          | none => none
          | some number => if truncated && number == 2 ^ 64 - 1 then none else some (number + if truncated then 1 else 0)) : Option Nat) = some n ↔
        IsCeil (value (w ++ f)) f.length places n ∧ n < 2 ^ 64 ∧ (strict = true → value (w ++ f) * 10 ^ places = n * 10 ^ f.length)) := by
    intro w f hw hf
    have hparse : ∀ v : Bytes, (if v ≠ [] then parseDec v else some 0) = if value v < 2 ^ 64 then some (value v) else none := by
      intro v
      by_cases hv : v = []
      · subst hv; rfl
      · rw [if_pos hv]; unfold parseDec; rw [digitsVal_eq]
    by_cases hp : places < f.length
    · simp only [hp, if_true]
      have hval : (w ++ f ++ List.replicate (places - f.length) 48).take (w.length + places) = w ++ f.take places := by
        rw [show places - f.length = 0 by omega, List.replicate_zero, List.append_nil, List.take_append, List.take_of_length_le (by omega)]
        congr 2; omega
      rw [hval, hparse]
      have hcut : value (w ++ f) = value (w ++ f.take places) * 10 ^ (f.length - places) + value (f.drop places) := by
        conv => lhs; rw [← List.take_append_drop places f, ← List.append_assoc, value_append, List.length_drop]
      have hdl := value_lt (s := f.drop places) fun c hc => hf c (List.mem_of_mem_drop hc)
      rw [List.length_drop] at hdl
      have hz := value_eq_zero (s := f.drop places) fun c hc => hf c (List.mem_of_mem_drop hc)
      have hpow : 10 ^ f.length = 10 ^ (f.length - places) * 10 ^ places := by rw [← Nat.pow_add]; congr 1; omega
      have hpp : 0 < 10 ^ places := Nat.pow_pos (by decide)
      have hq : 0 < 10 ^ (f.length - places) := Nat.pow_pos (by decide)
      have hceil : ∀ n, IsCeil (value (w ++ f)) f.length places n ↔ n = value (w ++ f.take places) + if value (f.drop places) = 0 then 0 else 1 := by
        intro n
        unfold IsCeil
        rw [hpow, hcut]
        generalize value (w ++ f.take places) = a
        generalize value (f.drop places) = r at *
        generalize 10 ^ (f.length - places) = q at *
        generalize 10 ^ places = t at *
        have hle : ∀ m, (a * q + r) * t ≤ m * (q * t) ↔ a * q + r ≤ m * q := by
          intro m
          rw [← Nat.mul_assoc]
          exact Nat.mul_le_mul_right_iff hpp
        simp only [hle]
        have hmin : ∀ m, a * q + r ≤ m * q ↔ a + (if r = 0 then 0 else 1) ≤ m := by
          intro m
          split
          · rename_i h0
            subst h0
            exact ⟨fun h => Nat.le_of_mul_le_mul_right (by simpa using h) hq, fun h => by simpa using Nat.mul_le_mul_right q h⟩
          · rename_i h0
            constructor
            · intro h
              have : a * q < m * q := by omega
              exact Nat.lt_of_mul_lt_mul_right this
            · intro h
              have := Nat.mul_le_mul_right q h
              rw [Nat.add_mul, Nat.one_mul] at this
              omega
        simp only [hmin]
        constructor
        · rintro ⟨h1, h2⟩
          have := h2 _ (Nat.le_refl _)
          omega
        · rintro rfl
          exact ⟨Nat.le_refl _, fun m h => h⟩
      rw [hceil]
      have hexact : value (w ++ f) * 10 ^ places = n * 10 ^ f.length ↔ value (w ++ f) = n * 10 ^ (f.length - places) := by
        rw [hpow, ← Nat.mul_assoc]
        exact Nat.mul_right_cancel_iff hpp
      rw [hexact, hcut]
      by_cases h0 : value (f.drop places) = 0
      · have := hz.1 h0
        rw [this, h0]
        simp only [Bool.not_true, Bool.and_false, Bool.false_eq_true, if_false, if_true, Bool.false_and, Nat.add_zero]
        by_cases hlt : value (w ++ f.take places) < 2 ^ 64
        · simp only [if_pos hlt, Option.some.injEq]
          constructor
          · rintro rfl; exact ⟨rfl, by omega, fun _ => rfl⟩
          · rintro ⟨rfl, _⟩; rfl
        · simp only [if_neg hlt, reduceCtorEq, false_iff]
          rintro ⟨rfl, h, _⟩; omega
      · have hf' : ((f.drop places).all (· == 48)) = false := by
          rw [Bool.eq_false_iff]; exact fun h => h0 (hz.2 h)
        rw [hf', if_neg h0]
        simp only [Bool.not_false, Bool.and_true, Bool.true_and, if_true]
        cases strict
        · simp only [Bool.false_eq_true, if_false, false_implies, and_true]
          by_cases hlt : value (w ++ f.take places) < 2 ^ 64
          · simp only [if_pos hlt]
            split
            · rename_i h; rw [beq_iff_eq] at h
              simp only [reduceCtorEq, false_iff]; rintro ⟨rfl, h⟩; omega
            · rename_i h; rw [beq_iff_eq] at h
              simp only [Option.some.injEq]
              constructor
              · rintro rfl; exact ⟨rfl, by omega⟩
              · rintro ⟨rfl, _⟩; rfl
          · simp only [if_neg hlt, reduceCtorEq, false_iff]
            rintro ⟨rfl, h⟩; omega
        · simp only [if_true, reduceCtorEq, false_iff, true_implies]
          rintro ⟨rfl, _, h⟩
          rw [Nat.add_mul] at h
          omega
    · simp only [hp, if_false, Bool.and_false, Bool.false_eq_true, Bool.false_and, Nat.add_zero]
      rw [hparse, value_append, value_zeros, List.length_replicate, Nat.add_zero]
      have hpow : 10 ^ places = 10 ^ (places - f.length) * 10 ^ f.length := by rw [← Nat.pow_add]; congr 1; omega
      have hpp : 0 < 10 ^ f.length := Nat.pow_pos (by decide)
      have hceil : IsCeil (value (w ++ f)) f.length places n ↔ n = value (w ++ f) * 10 ^ (places - f.length) := by
        unfold IsCeil
        rw [hpow, ← Nat.mul_assoc]
        simp only [Nat.mul_le_mul_right_iff hpp]
        constructor
        · rintro ⟨h1, h2⟩; have := h2 _ (Nat.le_refl _); omega
        · rintro rfl; exact ⟨Nat.le_refl _, fun m h => h⟩
      rw [hceil]
      by_cases hlt : value (w ++ f) * 10 ^ (places - f.length) < 2 ^ 64
      · simp only [if_pos hlt, Option.some.injEq]
        constructor
        · rintro rfl; exact ⟨rfl, by omega, fun _ => by rw [hpow, Nat.mul_assoc]⟩
        · rintro ⟨rfl, _⟩; rfl
      · simp only [if_neg hlt, reduceCtorEq, false_iff]
        rintro ⟨rfl, h, _⟩; omega
  unfold decode
  dsimp only
  split
  · rename_i hall
    have hall' := hall
    rw [List.all_append, Bool.and_eq_true, List.all_eq_true, List.all_eq_true] at hall'
    refine (hkey _ _ (fun c hc => (isDigit_iff c).1 (hall'.1 c hc)) (fun c hc => (isDigit_iff c).1 (hall'.2 c hc))).trans ?_
    constructor
    · intro h
      exact ⟨_, _, split_point s hall, h⟩
    · rintro ⟨num, scale, hd, h⟩
      obtain ⟨-, rfl, rfl⟩ := denotes_split hd
      exact h
  · rename_i hall
    simp only [reduceCtorEq, false_iff]
    rintro ⟨num, scale, hd, -⟩
    exact hall (denotes_split hd).1

/-! ## Encoding -/

theorem digit_ofNat : ∀ k < 10, Digit (UInt8.ofNat (48 + k)) ∧ (UInt8.ofNat (48 + k)).toNat - 48 = k ∧ (k ≠ 0 → UInt8.ofNat (48 + k) ≠ 48) := by
  unfold Digit; decide +kernel

theorem formatDec_spec (n : Nat) : value (formatDec n) = n ∧ (∀ c ∈ formatDec n, Digit c) ∧ formatDec n ≠ [] ∧ ((formatDec n).head? = some 48 → n = 0) := by
  induction n using Nat.strongRecOn with
  | ind n ih =>
    unfold formatDec
    split
    · rename_i h
      obtain ⟨h1, h2, h3⟩ := digit_ofNat n h
      refine ⟨?_, ?_, by simp, ?_⟩
      · rw [value, h2]; simp [value]
      · intro c hc; rw [List.mem_singleton.1 hc]; exact h1
      · intro hh
        rw [List.head?_cons] at hh
        injection hh with hh
        exact Classical.byContradiction fun hn => h3 hn hh
    · rename_i h
      obtain ⟨i1, i2, i3, i4⟩ := ih (n / 10) (by omega)
      obtain ⟨h1, h2, h3⟩ := digit_ofNat (n % 10) (by omega)
      refine ⟨?_, ?_, by simp, ?_⟩
      · rw [value_append, i1]; simp [value, h2]; omega
      · intro c hc
        rcases List.mem_append.1 hc with hc | hc
        · exact i2 c hc
        · rw [List.mem_singleton.1 hc]; exact h1
      · intro hh
        cases hf : formatDec (n / 10) with
        | nil => exact absurd hf i3
        | cons x t =>
          rw [hf] at hh i4
          have := i4 (by simpa using hh)
          omega

theorem trimRight_spec (c : UInt8) (s : Bytes) : ∃ k, s = trimRight c s ++ List.replicate k c ∧ ∀ a, trimRight c s ≠ a ++ [c] := by
  unfold trimRight
  refine ⟨(s.reverse.takeWhile (· == c)).length, ?_, ?_⟩
  · have h := List.takeWhile_append_dropWhile (p := (· == c)) (l := s.reverse)
    have h2 := congrArg List.reverse h
    rw [List.reverse_append, List.reverse_reverse] at h2
    conv => lhs; rw [← h2]
    congr 1
    rw [← List.reverse_replicate]
    congr 1
    apply List.eq_replicate_iff.2
    refine ⟨rfl, fun b hb => ?_⟩
    have : ∀ (l : Bytes), ∀ b ∈ l.takeWhile (· == c), b = c := by
      intro l
      induction l with
      | nil => intro b hb; simp at hb
      | cons x l ih =>
        intro b hb
        rw [List.takeWhile_cons] at hb
        split at hb
        · rename_i hx
          rcases List.mem_cons.1 hb with rfl | hb
          · exact beq_iff_eq.1 hx
          · exact ih b hb
        · simp at hb
    exact this _ b hb
  · intro a h
    have h2 := congrArg List.reverse h
    rw [List.reverse_reverse, List.reverse_append] at h2
    have h3 := List.head?_dropWhile_not (· == c) s.reverse
    rw [h2] at h3
    simp at h3

theorem trimRight_zeros_point (w f : Bytes) : trimRight 48 (w ++ [46] ++ f) = w ++ [46] ++ trimRight 48 f := by
  unfold trimRight
  rw [List.reverse_append, List.dropWhile_append]
  split
  · rename_i h
    rw [List.isEmpty_iff] at h
    rw [h]
    simp
  · simp

/-- The canonical text of an amount: whole digits without needless leading zeros, then, unless empty, a point and decimals not ending in zero. -/
def Canonical (s : Bytes) (n places : Nat) : Prop :=
  ∃ w f : Bytes, s = (if f = [] then w else w ++ [46] ++ f) ∧ (∀ c ∈ w, Digit c) ∧ (∀ c ∈ f, Digit c) ∧ w ≠ [] ∧ (w.head? = some 48 → w = [48]) ∧
    (∀ a, f ≠ a ++ [48]) ∧ f.length ≤ places ∧ value (w ++ f) * 10 ^ (places - f.length) = n

/-- **C56**: the encoding is the canonical decimal text of the amount. -/
theorem C56_encode (n places : Nat) : Canonical (encode n places) n places := by
  obtain ⟨h1, h2, h3, h4⟩ := formatDec_spec n
  unfold encode
  dsimp only
  generalize ht : List.replicate (places + 1 - (formatDec n).length) 48 ++ formatDec n = text
  have hdig : ∀ c ∈ text, Digit c := by
    intro c hc
    rw [← ht] at hc
    rcases List.mem_append.1 hc with hc | hc
    · rw [List.eq_of_mem_replicate hc]; exact ⟨by decide, by decide⟩
    · exact h2 c hc
  have hval : value text = n := by rw [← ht, value_append, value_zeros, h1]; omega
  have hlen : places + 1 ≤ text.length := by rw [← ht, List.length_append, List.length_replicate]; omega
  have hhead : (text.take (text.length - places)).head? = some 48 → text.take (text.length - places) = [48] := by
    intro hh
    by_cases hl : (formatDec n).length ≤ places
    · have : text.length = places + 1 := by rw [← ht, List.length_append, List.length_replicate]; omega
      rw [this, show places + 1 - places = 1 by omega] at hh ⊢
      cases text with
      | nil => simp at hh
      | cons c t => simp at hh ⊢; exact hh
    · have hr : places + 1 - (formatDec n).length = 0 := by omega
      rw [hr, List.replicate_zero, List.nil_append] at ht
      subst ht
      rw [List.head?_take, if_neg (by omega)] at hh
      have hn := h4 hh
      subst hn
      have h0 : formatDec 0 = [48] := by unfold formatDec; rfl
      rw [h0] at hl ⊢
      have : places = 0 := by simp at hl; exact hl
      subst this
      rfl
  generalize hw : text.take (text.length - places) = w at *
  generalize hf : text.drop (text.length - places) = f at *
  have hwf : w ++ f = text := by rw [← hw, ← hf, List.take_append_drop]
  have hfl : f.length = places := by rw [← hf, List.length_drop]; omega
  have hwl : w ≠ [] := by
    intro h
    have := congrArg List.length hwf
    rw [h, List.nil_append] at this
    omega
  rw [trimRight_zeros_point]
  obtain ⟨k, hk1, hk2⟩ := trimRight_spec 48 f
  generalize trimRight 48 f = g at *
  have hgd : ∀ c ∈ g, Digit c := fun c hc => hdig c (by rw [← hwf, hk1]; simp [hc])
  have hwd : ∀ c ∈ w, Digit c := fun c hc => hdig c (by rw [← hwf]; simp [hc])
  have hgl : g.length + k = places := by rw [← hfl, hk1, List.length_append, List.length_replicate]
  refine ⟨w, g, ?_, hwd, hgd, hwl, hhead, hk2, by omega, ?_⟩
  · have nopoint : ∀ u : Bytes, u ≠ [] → (∀ c ∈ u, Digit c) → ∀ v, trimRight 46 (v ++ u) = v ++ u := by
      intro u hu hd v
      obtain ⟨a, l, rfl⟩ : ∃ a l, u = a ++ [l] := ⟨u.dropLast, u.getLast hu, (List.dropLast_concat_getLast hu).symm⟩
      have hl := hd l (by simp)
      unfold trimRight
      rw [← List.append_assoc, List.reverse_append]
      simp only [List.reverse_singleton, List.singleton_append]
      rw [List.dropWhile_cons_of_neg]
      · simp
      · rw [beq_iff_eq]; rintro rfl; exact absurd hl.1 (by decide)
    by_cases hg : g = []
    · subst hg
      rw [if_pos rfl, List.append_nil]
      have h5 : trimRight 46 (w ++ [46]) = trimRight 46 w := by
        unfold trimRight
        rw [List.reverse_append]
        simp
      have := nopoint w hwl hwd []
      rw [List.nil_append] at this
      rw [h5, this]
    · rw [if_neg hg]
      exact nopoint g hg hgd _
  · rw [show places - g.length = k by omega, ← hval, ← hwf, hk1, ← List.append_assoc, value_append (w ++ g), value_zeros, List.length_replicate]
    omega

/-- **C56**: decoding an encoded amount gives the amount, strictly. -/
theorem C56_roundtrip (n places : Nat) (hn : n < 2 ^ 64) (strict : Bool) : decode (encode n places) places strict = some n := by
  rw [C56_decode]
  obtain ⟨w, f, hs, hw, hf, -, -, -, hl, hv⟩ := C56_encode n places
  have hpow : 10 ^ places = 10 ^ (places - f.length) * 10 ^ f.length := by rw [← Nat.pow_add]; congr 1; omega
  have hpp : 0 < 10 ^ f.length := Nat.pow_pos (by decide)
  have he : value (w ++ f) * 10 ^ places = n * 10 ^ f.length := by rw [hpow, ← Nat.mul_assoc, hv]
  have hc : IsCeil (value (w ++ f)) f.length places n := by
    unfold IsCeil
    rw [he]
    exact ⟨Nat.le_refl _, fun m h => Nat.le_of_mul_le_mul_right h hpp⟩
  by_cases h : f = []
  · subst h
    rw [if_pos rfl] at hs
    rw [List.append_nil] at hc he
    exact ⟨value w, 0, by rw [hs]; exact Denotes.whole w hw, hc, hn, fun _ => he⟩
  · rw [if_neg h] at hs
    exact ⟨value (w ++ f), f.length, by rw [hs]; exact Denotes.point w f hw hf, hc, hn, fun _ => he⟩

/-- One bitcoin and a half, a satoshi, an amount rounded up, and an unparsable one. -/
example : encode 150000000 8 = Radix.ascii "1.5" ∧ encode 1 8 = Radix.ascii "0.00000001" ∧ decode (Radix.ascii "0.000000011") 8 false = some 2 ∧
    decode (Radix.ascii "0.000000011") 8 true = none ∧ decode (Radix.ascii "1.2.3") 8 false = none := by
  refine ⟨?_, ?_, by decide +kernel, by decide +kernel, by decide +kernel⟩
  · unfold encode; simp [formatDec]; decide +kernel
  · unfold encode; simp [formatDec]; decide +kernel

end Verif.Base10
