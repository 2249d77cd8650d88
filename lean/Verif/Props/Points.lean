import Verif.Model.Points
import Mathlib.Data.List.Sort
import Mathlib.Data.List.Perm.Subperm
/-!
# C77: selection of coins
-/
namespace Verif.Points
open Verif

/-- The sum, without limit. -/
def total (l : List PointValue) : Nat := (l.map fun p => p.value.toNat).sum

/-- What the standard library promises: a partition keeps the elements and puts those that satisfy the predicate first; a sort keeps the
elements and leaves none before one that it must follow. -/
structure Library.OK (lib : Library) : Prop where
  partition : ∀ p l, ((lib.partition p l).1 ++ (lib.partition p l).2).Perm l ∧ (∀ x ∈ (lib.partition p l).1, p x = true) ∧
    ∀ x ∈ (lib.partition p l).2, p x = false
  ascending : ∀ l, (lib.sort (fun a b => a.value < b.value) l).Perm l ∧
    (lib.sort (fun a b => a.value < b.value) l).Pairwise fun a b => a.value ≤ b.value
  descending : ∀ l, (lib.sort (fun a b => a.value > b.value) l).Perm l ∧
    (lib.sort (fun a b => a.value > b.value) l).Pairwise fun a b => b.value ≤ a.value

theorem value_eq (l : List PointValue) : value l = min (total l) (2 ^ 64 - 1) := by
  have key : ∀ (l : List PointValue) (a : Nat), a ≤ 2 ^ 64 - 1 →
      l.foldl (fun t p => cadd t p.value.toNat) a = min (a + total l) (2 ^ 64 - 1) := by
    intro l
    induction l with
    | nil => intro a ha; simp [total]; omega
    | cons p l ih =>
      intro a ha
      rw [List.foldl_cons, ih _ (by unfold cadd maxSize; omega)]
      unfold cadd maxSize total
      simp only [List.map_cons, List.sum_cons]
      omega
  have := key l 0 (by omega)
  simpa [value] using this

theorem value_ge (l : List PointValue) (m : UInt64) : value l ≥ m.toNat ↔ m.toNat ≤ total l := by
  rw [value_eq]
  have := m.toNat_lt
  omega

theorem minElement_some (p : PointValue) (l : List PointValue) :
    ∃ q, minElement (fun a b => decide (a.value < b.value)) (p :: l) = some q ∧ q ∈ p :: l ∧ ∀ x ∈ p :: l, q.value ≤ x.value := by
  suffices h : ∀ (l : List PointValue) (p : PointValue), ∃ q, l.foldl (fun best q => if decide (q.value < best.value) = true then q else best) p = q ∧
      (q = p ∨ q ∈ l) ∧ q.value ≤ p.value ∧ ∀ x ∈ l, q.value ≤ x.value by
    obtain ⟨q, h1, h2, h3, h4⟩ := h l p
    refine ⟨q, by unfold minElement; exact congrArg some h1, by simpa using h2, ?_⟩
    intro x hx
    rcases List.mem_cons.1 hx with rfl | hx
    · exact h3
    · exact h4 x hx
  intro l
  induction l with
  | nil => intro p; exact ⟨p, rfl, .inl rfl, UInt64.le_refl _, by simp⟩
  | cons a l ih =>
    intro p
    rw [List.foldl_cons]
    by_cases h : a.value < p.value
    · rw [if_pos (by simpa using h)]
      obtain ⟨q, h1, h2, h3, h4⟩ := ih a
      refine ⟨q, h1, ?_, ?_, ?_⟩
      · rcases h2 with rfl | h2 <;> simp [*]
      · exact UInt64.le_trans h3 (UInt64.le_of_lt h)
      · intro x hx
        rcases List.mem_cons.1 hx with rfl | hx
        · exact h3
        · exact h4 x hx
    · rw [if_neg (by simpa using h)]
      obtain ⟨q, h1, h2, h3, h4⟩ := ih p
      refine ⟨q, h1, ?_, h3, ?_⟩
      · rcases h2 with rfl | h2 <;> simp [*]
      · intro x hx
        rcases List.mem_cons.1 hx with rfl | hx
        · exact UInt64.le_trans h3 (UInt64.not_lt.1 h)
        · exact h4 x hx

/-- What the loop takes: the shortest prefix that reaches the minimum, or all. -/
theorem take_eq (m : UInt64) (l out : List PointValue) (ho : total out < m.toNat) :
    ∃ k, take m out l = out ++ l.take k ∧ k ≤ l.length ∧ (∀ j, j < k → total (out ++ l.take j) < m.toNat) ∧
      (m.toNat ≤ total (out ++ l) → m.toNat ≤ total (out ++ l.take k)) := by
  induction l generalizing out with
  | nil => exact ⟨0, by simp [take], by simp, by simp, by simp⟩
  | cons p l ih =>
    unfold take
    by_cases h : m.toNat ≤ total (out ++ [p])
    · rw [if_pos ((value_ge _ _).2 h)]
      refine ⟨1, by simp, by simp, ?_, fun _ => by simpa using h⟩
      intro j hj
      have : j = 0 := by omega
      subst this
      simpa using ho
    · rw [if_neg (fun hc => h ((value_ge _ _).1 hc))]
      obtain ⟨k, h1, h2, h3, h4⟩ := ih (out ++ [p]) (by omega)
      refine ⟨k + 1, by rw [h1]; simp, by simp; omega, ?_, ?_⟩
      · intro j hj
        cases j with
        | zero => simpa using ho
        | succ j =>
          have := h3 j (by omega)
          simpa using this
      · intro hh
        have := h4 (by simpa using hh)
        simpa using this

/-- The largest are the most. -/
theorem sublist_total : ∀ {s l : List Nat}, s.Sublist l → l.Pairwise (fun a b => b ≤ a) → s.sum ≤ (l.take s.length).sum
  | _, _, .slnil, _ => by simp
  | s, _, .cons (l₂ := l) a h, hp => by
    have ih := sublist_total h (List.pairwise_cons.1 hp).2
    refine Nat.le_trans ih ?_
    cases hn : s.length with
    | zero => simp
    | succ n =>
      have hle : n + 1 ≤ l.length := by rw [← hn]; exact h.length_le
      rw [List.take_succ_cons, List.sum_cons, List.take_succ_eq_append_getElem (by omega), List.sum_append]
      have := (List.pairwise_cons.1 hp).1 l[n] (List.getElem_mem _)
      simp
      omega
  | _, _, .cons_cons (l₁ := s) (l₂ := l) a h, hp => by
    have ih := sublist_total h (List.pairwise_cons.1 hp).2
    simp only [List.length_cons, List.take_succ_cons, List.sum_cons]
    omega

theorem total_perm {a b : List PointValue} (h : a.Perm b) : total a = total b := (h.map _).sum_nat

theorem fewest {s l : List PointValue} (h : s.Subperm l) (hp : l.Pairwise fun a b => b.value ≤ a.value) :
    total s ≤ total (l.take s.length) := by
  have h1 : (s.map fun p => p.value.toNat).Subperm (l.map fun p => p.value.toNat) := by
    obtain ⟨t, ht, hs⟩ := h
    exact ⟨t.map _, ht.map _, hs.map _⟩
  have h2 : (l.map fun p => p.value.toNat).Pairwise (fun a b => b ≤ a) := by
    rw [List.pairwise_map]
    exact hp.imp fun h => UInt64.le_iff_toNat_le.1 h
  have hsort := List.perm_insertionSort (fun a b : Nat => b ≤ a) (s.map fun p => p.value.toNat)
  have h3 : ((s.map fun p => p.value.toNat).insertionSort fun a b => b ≤ a).Pairwise (fun a b => b ≤ a) :=
    List.pairwise_insertionSort _ _
  have h4 := List.sublist_of_subperm_of_pairwise (hsort.subperm.trans h1) h3 h2
  have h5 := sublist_total h4 h2
  rw [hsort.sum_nat, hsort.length_eq, List.length_map, ← List.map_take] at h5
  exact h5

/-! ## C77 -/

theorem single_le {p : PointValue} {l : List PointValue} (h : p ∈ l) : p.value.toNat ≤ total l := by
  induction l with
  | nil => cases h
  | cons a l ih =>
    unfold total at *
    rw [List.map_cons, List.sum_cons]
    rcases List.mem_cons.1 h with rfl | h
    · omega
    · have := ih h; omega

theorem nonempty_of_total {m : UInt64} {s : List PointValue} (hm : m ≠ 0) (h : m.toNat ≤ total s) : 1 ≤ s.length := by
  cases s with
  | cons a s => simp
  | nil =>
    exfalso
    apply hm
    have : m.toNat = 0 := by simpa [total] using h
    exact UInt64.toNat_inj.1 this

/-- **Greedy selection**: it takes coins that are there, none twice. If the coins do not reach the minimum it takes none, and if they do
what it takes does. No choice of fewer coins reaches a minimum that is not zero. If one coin suffices it takes one, of the least value of
those that do. -/
theorem C77_greedy (lib : Library) (hl : lib.OK) (unspent : List PointValue) (minimum : UInt64) :
    (greedy lib unspent minimum).Subperm unspent ∧
    (total unspent < minimum.toNat → greedy lib unspent minimum = []) ∧
    (minimum.toNat ≤ total unspent → minimum.toNat ≤ total (greedy lib unspent minimum)) ∧
    (∀ s : List PointValue, s.Subperm unspent → minimum ≠ 0 → minimum.toNat ≤ total s → (greedy lib unspent minimum).length ≤ s.length) ∧
    (∀ c ∈ unspent, minimum ≤ c.value → ∃ p ∈ unspent, greedy lib unspent minimum = [p] ∧ minimum ≤ p.value ∧
      ∀ q ∈ unspent, minimum ≤ q.value → p.value ≤ q.value) := by
  unfold greedy
  by_cases hv : value unspent < minimum.toNat
  · rw [if_pos hv]
    have ht : total unspent < minimum.toNat := by
      by_contra hc
      have := (value_ge unspent minimum).2 (by omega)
      omega
    refine ⟨List.nil_subperm, fun _ => rfl, fun h => absurd h (by omega), fun _ _ _ _ => by simp, ?_⟩
    intro c hc hm
    have := single_le hc
    have := UInt64.le_iff_toNat_le.1 hm
    omega
  rw [if_neg hv]
  have ht : minimum.toNat ≤ total unspent := (value_ge unspent minimum).1 (by omega)
  split
  · rename_i p
    refine ⟨List.Subperm.refl _, fun h => absurd h (by omega), fun h => h, ?_, ?_⟩
    · intro s _ hm h
      exact nonempty_of_total hm h
    · intro c hc hm
      rw [List.mem_singleton] at hc
      subst hc
      refine ⟨c, by simp, rfl, hm, ?_⟩
      intro q hq _
      rw [List.mem_singleton.1 hq]
      exact UInt64.le_refl _
  · obtain ⟨h1, h2, h3⟩ := hl.partition (fun p => decide (p.value < minimum)) unspent
    dsimp only
    generalize hparts : lib.partition (fun p => decide (p.value < minimum)) unspent = parts at *
    obtain ⟨a, b⟩ := parts
    dsimp only at *
    cases b with
    | cons p b =>
      obtain ⟨q, h4, h5, h6⟩ := minElement_some p b
      rw [h4]
      have hq : minimum ≤ q.value := by have := h3 q h5; simpa using this
      have hmem : q ∈ unspent := h1.mem_iff.1 (List.mem_append_right _ h5)
      refine ⟨List.singleton_subperm_iff.2 hmem, fun h => absurd h (by omega), fun _ => ?_, ?_, ?_⟩
      · have := UInt64.le_iff_toNat_le.1 hq
        simpa [total] using this
      · intro s _ hm h
        exact nonempty_of_total hm h
      · intro _ _ _
        refine ⟨q, hmem, rfl, hq, ?_⟩
        intro x hx hm
        rcases List.mem_append.1 (h1.mem_iff.2 hx) with hx | hx
        · have := h2 x hx
          simp only [decide_eq_true_eq] at this
          exact absurd hm (UInt64.not_le.2 this)
        · exact h6 x hx
    | nil =>
      dsimp only [minElement]
      rw [List.append_nil] at h1 ⊢
      obtain ⟨h4, h5⟩ := hl.descending a
      generalize lib.sort (fun x y => decide (x.value > y.value)) a = d at *
      have hall : ∀ c ∈ unspent, ¬ minimum ≤ c.value := by
        intro c hc
        have := h2 c (h1.mem_iff.2 hc)
        exact UInt64.not_le.2 (by simpa using this)
      have hd : d.Perm unspent := h4.trans h1
      rw [← total_perm hd] at ht
      by_cases h0 : minimum.toNat = 0
      · -- nothing is below zero
        have hz : minimum = 0 := UInt64.toNat_inj.1 h0
        have hun : unspent = [] := by
          cases hu : unspent with
          | nil => rfl
          | cons c l =>
            exact absurd (by rw [hz]; exact UInt64.zero_le) (hall c (by rw [hu]; simp))
        have hdn : d = [] := by rw [hun] at hd; exact hd.eq_nil
        rw [hdn]
        simp only [take]
        refine ⟨List.nil_subperm, fun _ => trivial, fun _ => by omega, fun _ _ _ _ => by simp, ?_⟩
        intro c hc hm
        exact absurd hm (hall c hc)
      · obtain ⟨k, h6, h7, h8, h9⟩ := take_eq minimum d [] (by simp [total]; omega)
        rw [h6]
        simp only [List.nil_append] at *
        refine ⟨((List.take_sublist k d).subperm).trans hd.subperm, fun h => ?_, fun _ => h9 ht, ?_, ?_⟩
        · rw [total_perm hd] at ht; omega
        · intro s hs _ hst
          have := fewest (hs.trans hd.symm.subperm) h5
          by_contra hlt
          rw [List.length_take] at hlt
          have := h8 s.length (by omega)
          omega
        · intro c hc hm
          exact absurd hm (hall c hc)

/-- **Individual selection**: every coin that suffices alone, as often as it is there, in ascending order of value. -/
theorem C77_individual (lib : Library) (hl : lib.OK) (unspent : List PointValue) (minimum : UInt64) :
    (individual lib unspent minimum).Pairwise (fun a b => a.value ≤ b.value) ∧
    ∀ p, (individual lib unspent minimum).count p = if minimum ≤ p.value then unspent.count p else 0 := by
  unfold individual
  obtain ⟨h1, h2⟩ := hl.ascending (unspent.filter fun p => p.value ≥ minimum)
  refine ⟨h2, fun p => ?_⟩
  rw [h1.count_eq]
  split
  · rename_i h
    rw [List.count_filter (by simpa using h)]
  · rename_i h
    rw [List.count_eq_zero]
    simp [h]

/-- A library. -/
def insertion : Library where
  partition p l := (l.filter p, l.filter fun x => !p x)
  sort less l := l.insertionSort fun a b => less b a = false

/-- Non-vacuity: the library meets its conditions. -/
theorem insertion_ok : insertion.OK where
  partition p l := by
    refine ⟨List.filter_append_perm p l, ?_, ?_⟩
    · intro x hx; exact (List.mem_filter.1 hx).2
    · intro x hx; simpa using (List.mem_filter.1 hx).2
  ascending l := by
    refine ⟨List.perm_insertionSort _ _, ?_⟩
    have : (l.insertionSort fun a b : PointValue => a.value ≤ b.value).Pairwise fun a b => a.value ≤ b.value := by
      haveI : IsTotal PointValue (fun a b => a.value ≤ b.value) := ⟨fun a b => UInt64.le_total _ _⟩
      haveI : IsTrans PointValue (fun a b => a.value ≤ b.value) := ⟨fun a b c => UInt64.le_trans⟩
      exact List.pairwise_insertionSort _ _
    unfold insertion
    simpa using this
  descending l := by
    refine ⟨List.perm_insertionSort _ _, ?_⟩
    have : (l.insertionSort fun a b : PointValue => b.value ≤ a.value).Pairwise fun a b => b.value ≤ a.value := by
      haveI : IsTotal PointValue (fun a b => b.value ≤ a.value) := ⟨fun a b => UInt64.le_total _ _⟩
      haveI : IsTrans PointValue (fun a b => b.value ≤ a.value) := ⟨fun a b c h1 h2 => UInt64.le_trans h2 h1⟩
      exact List.pairwise_insertionSort _ _
    unfold insertion
    simpa using this

def coin (v : UInt64) : PointValue := ⟨{ hash := nullHash, index := 0 }, v⟩
/-- Three coins of five reach 12, in descending order; one reaches 4, the least that does; none reach 30. -/
example : greedy insertion [coin 2, coin 5, coin 1, coin 4, coin 7] 13 = [coin 7, coin 5, coin 4] ∧
    greedy insertion [coin 2, coin 5, coin 1, coin 4, coin 7] 3 = [coin 4] ∧
    greedy insertion [coin 2, coin 5, coin 1, coin 4, coin 7] 30 = [] ∧
    individual insertion [coin 2, coin 5, coin 1, coin 4, coin 7] 4 = [coin 4, coin 5, coin 7] := by
  decide +kernel

end Verif.Points
