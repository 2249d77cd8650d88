import Verif.Lemmas.UnicodeTables
/-!
# Lemmas on Unicode normalization
-/
namespace Verif.Unicode
open Spec

/-! ## Decomposition -/

def Ends (f p : Nat) : Prop :=
  1 ≤ f ∧ ((sBase ≤ p ∧ p < sBase + sCount) ∨ maxPoint < p ∨ indexEnds f (decompose p) = true)

theorem all_ends (p : Nat) : Ends 4 p := by
  refine ⟨by omega, ?_⟩
  by_cases h : maxPoint < p
  · exact .inr (.inl h)
  · refine .inr (.inr ?_)
    have hp : p < 8704 * 128 := by unfold maxPoint at h; omega
    have h7 : p >>> 7 = p / 128 := by rw [Nat.shiftRight_eq_div_pow]
    have hb : p / 128 < 8704 := by omega
    have h1 := allBelow_spec (allBelow_spec index1_check (p / 128 / 128) (by omega)) (p / 128 % 128) (by omega)
    rw [show 128 * (p / 128 / 128) + p / 128 % 128 = p / 128 by omega] at h1
    have h1 := of_decide_eq_true h1
    unfold decompose
    rw [h7]
    generalize at' 16 decompositionIndex1 (p / 128) = b at h1
    have h2 := allBelow_spec (allBelow_spec index2_check b h1) (p % 128) (by omega)
    rw [Nat.mul_comm b 128]
    exact h2

theorem mapping_syllable (k : Bool) {p : Nat} (h : sBase ≤ p ∧ p < sBase + sCount) :
    mapping k p = some (if (p - sBase) % tCount = 0 then [lBase + (p - sBase) / nCount, vBase + (p - sBase) % nCount / tCount]
      else [lBase + (p - sBase) / nCount, vBase + (p - sBase) % nCount / tCount, tBase + (p - sBase) % tCount]) := by
  unfold mapping
  rw [if_pos h]

theorem jamo_leaf (k : Bool) {p : Nat} (h1 : lBase ≤ p) (h2 : p < lBase + 256) : mapping k p = none ∧ ccc p = 0 := by
  have h := allBelow_spec jamo_check (p - lBase) (by omega)
  rw [show lBase + (p - lBase) = p by omega] at h
  simp only [Bool.and_eq_true, beq_iff_eq] at h
  cases k
  · exact ⟨h.1.2, h.2⟩
  · exact ⟨h.1.1, h.2⟩

/-- One level of the recursion. -/
theorem decomposeOne_succ (f : Nat) (k : Bool) (p : Nat) : decomposeOne (f + 1) k p =
    if sBase ≤ p ∧ p < sBase + sCount then (mapping k p).getD [] else
    match mapping k p with
    | none => [p]
    | some l => l.flatMap (decomposeOne f k) := by
  rw [decomposeOne]
  by_cases hs : sBase ≤ p ∧ p < sBase + sCount
  · rw [if_pos hs, if_pos hs, mapping_syllable k hs]
    dsimp only
    by_cases ht : (p - sBase) % tCount = 0
    · rw [if_neg (by omega), if_pos ht]; rfl
    · rw [if_pos ht, if_neg ht]; rfl
  · rw [if_neg hs, if_neg hs]
    unfold mapping
    rw [if_neg hs]
    by_cases h1 : maxPoint < p
    · rw [if_pos h1, if_pos (.inl h1)]
    · rw [if_neg h1]
      by_cases h2 : decompose p = 0
      · rw [if_pos h2, if_pos (.inr (.inl h2))]
      · rw [if_neg h2]
        by_cases h3 : isCompatible (at' 32 decompositionPool (decompose p)) = true ∧ k = false
        · rw [if_pos (by rw [h3.1, h3.2]; rfl), if_pos (.inr (.inr h3))]
        · rw [if_neg (by
            intro hc
            rw [Bool.and_eq_true] at hc
            exact h3 ⟨hc.1, by simpa using hc.2⟩), if_neg (by
            rintro (h | h | h)
            · exact h1 h
            · exact h2 h
            · exact h3 h)]
          dsimp only
          rw [List.flatMap_map]

theorem ends_component {f p : Nat} {k : Bool} {l : List Nat} (hs : ¬ (sBase ≤ p ∧ p < sBase + sCount)) (h : Ends (f + 1) p)
    (hm : mapping k p = some l) {q : Nat} (hq : q ∈ l) : Ends f q := by
  unfold mapping at hm
  rw [if_neg hs] at hm
  split at hm
  · simp at hm
  · rename_i hn
    rw [Option.some.injEq] at hm
    subst hm
    rw [List.mem_map] at hq
    obtain ⟨c, hc, rfl⟩ := hq
    rw [List.mem_range] at hc
    obtain ⟨-, h | h | h⟩ := h
    · exact absurd h hs
    · exact absurd (.inl h) hn
    · rw [indexEnds, Bool.or_eq_true] at h
      rcases h with h | h
      · exact absurd (.inr (.inl (by simpa using h))) hn
      · have h := allBelow_spec h c hc
        simp only [Bool.or_eq_true, Bool.and_eq_true, decide_eq_true_eq, bne_iff_ne] at h
        rcases h with ⟨h0, h | h⟩ | h
        · exact ⟨by omega, .inl h⟩
        · exact ⟨by omega, .inr (.inl h)⟩
        · refine ⟨?_, .inr (.inr h)⟩
          cases f with
          | zero => simp [indexEnds] at h
          | succ f => omega

theorem decomposeOne_stable (k : Bool) : ∀ (f p : Nat), Ends f p → decomposeOne (f + 1) k p = decomposeOne f k p
  | 0, p, h => by obtain ⟨h, -⟩ := h; omega
  | f + 1, p, h => by
    rw [decomposeOne_succ (f + 1), decomposeOne_succ f]
    by_cases hs : sBase ≤ p ∧ p < sBase + sCount
    · rw [if_pos hs, if_pos hs]
    · rw [if_neg hs, if_neg hs]
      cases hm : mapping k p with
      | none => rfl
      | some l =>
        dsimp only
        have : ∀ m : List Nat, (∀ q ∈ m, q ∈ l) → m.flatMap (decomposeOne (f + 1) k) = m.flatMap (decomposeOne f k) := by
          intro m
          induction m with
          | nil => exact fun _ => rfl
          | cons q m ih =>
            intro hm'
            rw [List.flatMap_cons, List.flatMap_cons, ih (fun r hr => hm' r (List.mem_cons_of_mem _ hr)),
              decomposeOne_stable k f q (ends_component hs h hm (hm' q List.mem_cons_self))]
        exact this l fun _ hq => hq

theorem full_none {k : Bool} {p : Nat} (h : mapping k p = none) : fullDecompose k p = [p] := by
  unfold fullDecompose
  rw [decomposeOne_succ, h]
  by_cases hs : sBase ≤ p ∧ p < sBase + sCount
  · rw [mapping_syllable k hs] at h; simp at h
  · rw [if_neg hs]

/-- The syllable's mapping consists of jamo. -/
theorem syllable_jamo {k : Bool} {p : Nat} (hs : sBase ≤ p ∧ p < sBase + sCount) {l : List Nat} (h : mapping k p = some l) :
    ∀ q ∈ l, mapping k q = none := by
  rw [mapping_syllable k hs, Option.some.injEq] at h
  subst h
  have h1 : (p - sBase) / nCount < 19 := by simp only [sCount, nCount, lCount, vCount, tCount] at hs ⊢; omega
  have h2 : (p - sBase) % nCount / tCount < 21 := by simp only [nCount, vCount, tCount]; omega
  have h3 : (p - sBase) % tCount < 28 := by simp only [tCount]; omega
  generalize (p - sBase) / nCount = x at *
  generalize (p - sBase) % nCount / tCount = y at *
  generalize (p - sBase) % tCount = z at *
  intro q hq
  have : lBase ≤ q ∧ q < lBase + 256 := by
    split at hq <;> simp only [List.mem_cons, List.not_mem_nil, or_false] at hq <;> simp only [lBase, vBase, tBase] at hq ⊢ <;> omega
  exact (jamo_leaf k this.1 this.2).1

theorem full_some {k : Bool} {p : Nat} {l : List Nat} (h : mapping k p = some l) : fullDecompose k p = l.flatMap (fullDecompose k) := by
  by_cases hs : sBase ≤ p ∧ p < sBase + sCount
  · have hj := syllable_jamo hs h
    unfold fullDecompose
    rw [decomposeOne_succ, if_pos hs, h]
    dsimp only [Option.getD]
    clear h
    induction l with
    | nil => rfl
    | cons q l ih =>
      rw [List.flatMap_cons, ← ih fun r hr => hj r (List.mem_cons_of_mem _ hr)]
      have := full_none (hj q List.mem_cons_self)
      unfold fullDecompose at this
      rw [this]
      rfl
  · have e : fullDecompose k p = l.flatMap (decomposeOne 3 k) := by
      unfold fullDecompose
      rw [decomposeOne_succ, if_neg hs, h]
    rw [e]
    have he := all_ends p
    have : ∀ m : List Nat, (∀ q ∈ m, q ∈ l) → m.flatMap (decomposeOne 3 k) = m.flatMap (fullDecompose k) := by
      intro m
      induction m with
      | nil => exact fun _ => rfl
      | cons q m ih =>
        intro hm'
        rw [List.flatMap_cons, List.flatMap_cons, ih (fun r hr => hm' r (List.mem_cons_of_mem _ hr)),
          ← decomposeOne_stable k 3 q (ends_component hs he h (hm' q List.mem_cons_self))]
        rfl
    exact this l fun _ hq => hq

theorem fullAll_of {k : Bool} : ∀ l : List Nat, (∀ q ∈ l, Full k q (fullDecompose k q)) → FullAll k l (l.flatMap (fullDecompose k))
  | [], _ => .nil
  | q :: l, h => by
    rw [List.flatMap_cons]
    exact .cons (h q List.mem_cons_self) (fullAll_of l fun r hr => h r (List.mem_cons_of_mem _ hr))

theorem full_of_ends (k : Bool) : ∀ (f p : Nat), Ends f p → Full k p (fullDecompose k p)
  | 0, p, h => by obtain ⟨h, -⟩ := h; omega
  | f + 1, p, h => by
    cases hm : mapping k p with
    | none => rw [full_none hm]; exact .leaf hm
    | some l =>
      rw [full_some hm]
      refine .node hm (fullAll_of l fun q hq => ?_)
      by_cases hs : sBase ≤ p ∧ p < sBase + sCount
      · have := syllable_jamo hs hm q hq
        rw [full_none this]
        exact .leaf this
      · exact full_of_ends k f q (ends_component hs h hm hq)

theorem full_unique {k : Bool} {p : Nat} {a : List Nat} (h : Full k p a) : a = fullDecompose k p ∧ ∀ q ∈ a, mapping k q = none := by
  refine Full.rec (motive_1 := fun p a _ => a = fullDecompose k p ∧ ∀ q ∈ a, mapping k q = none)
    (motive_2 := fun l a _ => a = l.flatMap (fullDecompose k) ∧ ∀ q ∈ a, mapping k q = none) ?_ ?_ ?_ ?_ h
  · intro p hm
    refine ⟨(full_none hm).symm, fun q hq => ?_⟩
    rw [List.mem_singleton] at hq
    rw [hq]; exact hm
  · intro p l out hm _ ih
    exact ⟨ih.1.trans (full_some hm).symm, ih.2⟩
  · exact ⟨rfl, fun q hq => by simp at hq⟩
  · intro p l a b _ _ h1 h2
    refine ⟨by rw [List.flatMap_cons, ← h1.1, ← h2.1], fun q hq => ?_⟩
    rw [List.mem_append] at hq
    exact hq.elim (h1.2 q) (h2.2 q)

theorem full_leaves (k : Bool) (p : Nat) : ∀ q ∈ fullDecompose k p, fullDecompose k q = [q] := fun q hq =>
  full_none ((full_unique (full_of_ends k 4 p (all_ends p))).2 q hq)

/-! ## Canonical ordering -/

/-- Insertion of a character before a sequence in canonical order. -/
def insC (x : Nat) : List Nat → List Nat
  | [] => [x]
  | y :: l => if 0 < ccc y ∧ ccc y < ccc x then y :: insC x l else x :: y :: l

def order' (l : List Nat) : List Nat := l.foldr insC []

theorem insC_starter {x : Nat} (h : ccc x = 0) (l : List Nat) : insC x l = x :: l := by
  cases l with
  | nil => rfl
  | cons y l => rw [insC, if_neg (by omega)]

/-- Begins with a starter, or empty. -/
def StartsFresh (l : List Nat) : Prop := ∀ x r, l = x :: r → ccc x = 0

theorem insC_run {x : Nat} (hx : ccc x ≠ 0) {n : List Nat} (hn : StartsFresh n) : ∀ s : List Nat, (∀ y ∈ s, ccc y ≠ 0) →
    insC x (s ++ n) = sortInsert x s ++ n
  | [], _ => by
    rw [List.nil_append, sortInsert]
    cases n with
    | nil => rfl
    | cons y n => rw [insC, if_neg (by have := hn y n rfl; omega)]; rfl
  | y :: s, h => by
    rw [List.cons_append, insC, sortInsert]
    have hy := h y List.mem_cons_self
    by_cases hlt : ccc y < ccc x
    · rw [if_pos ⟨by omega, hlt⟩, if_pos hlt, insC_run hx hn s fun z hz => h z (List.mem_cons_of_mem _ hz)]
      rfl
    · rw [if_neg (by omega), if_neg hlt]
      rfl

theorem mem_sortInsert {x z : Nat} : ∀ {s : List Nat}, z ∈ sortInsert x s ↔ z = x ∨ z ∈ s
  | [] => by simp [sortInsert]
  | y :: s => by
    rw [sortInsert]
    split
    · rw [List.mem_cons, mem_sortInsert, List.mem_cons]
      constructor
      · rintro (h | h | h)
        · exact .inr (.inl h)
        · exact .inl h
        · exact .inr (.inr h)
      · rintro (h | h | h)
        · exact .inr (.inl h)
        · exact .inl h
        · exact .inr (.inr h)
    · rw [List.mem_cons]

theorem order_run {n : List Nat} (hn : StartsFresh n) : ∀ run : List Nat, (∀ y ∈ run, ccc y ≠ 0) →
    run.foldr insC n = stableSort run ++ n ∧ ∀ y ∈ stableSort run, ccc y ≠ 0
  | [], _ => ⟨rfl, fun y hy => by simp [stableSort] at hy⟩
  | x :: run, h => by
    have ih := order_run hn run fun y hy => h y (List.mem_cons_of_mem _ hy)
    have hx := h x List.mem_cons_self
    refine ⟨?_, fun y hy => ?_⟩
    · rw [List.foldr_cons, ih.1, insC_run hx hn _ ih.2]
      rfl
    · have hy : y ∈ sortInsert x (stableSort run) := hy
      rw [mem_sortInsert] at hy
      rcases hy with rfl | hy
      · exact hx
      · exact ih.2 y hy

theorem order_starters (n : List Nat) : ∀ s : List Nat, (∀ y ∈ s, ccc y = 0) → s.foldr insC n = s ++ n
  | [], _ => rfl
  | x :: s, h => by
    rw [List.foldr_cons, order_starters n s fun y hy => h y (List.mem_cons_of_mem _ hy), insC_starter (h x List.mem_cons_self)]
    rfl

theorem sort_small (run : List Nat) (h : ¬ 1 < run.length) : stableSort run = run := by
  match run, h with
  | [], _ => rfl
  | [x], _ => rfl
  | _ :: _ :: _, h => simp at h

theorem mem_takeWhile {p : Nat → Bool} : ∀ {l : List Nat} {x : Nat}, x ∈ l.takeWhile p → p x = true
  | y :: l, x, h => by
    rw [List.takeWhile_cons] at h
    split at h
    · rename_i hy
      rw [List.mem_cons] at h
      rcases h with rfl | h
      · exact hy
      · exact mem_takeWhile h
    · simp at h

theorem dropWhile_head {p : Nat → Bool} : ∀ {l : List Nat} {x : Nat} {r : List Nat}, l.dropWhile p = x :: r → p x = false
  | y :: l, x, r, h => by
    rw [List.dropWhile_cons] at h
    split at h
    · exact dropWhile_head h
    · rename_i hy
      rw [List.cons.injEq] at h
      rw [← h.1]
      simpa using hy

theorem order'_fresh {l : List Nat} (h : StartsFresh l) : StartsFresh (order' l) := by
  cases l with
  | nil => intro x r hx; simp [order'] at hx
  | cons y l =>
    intro x r hx
    have hy := h y l rfl
    rw [order', List.foldr_cons, insC_starter hy, List.cons.injEq] at hx
    rw [← hx.1]; exact hy

theorem orderLoop_eq : ∀ (fuel : Nat) (l : List Nat), l.length ≤ fuel → orderLoop fuel l = order' l
  | 0, l, h => by
    have : l = [] := List.length_eq_zero_iff.1 (by omega)
    subst this; rfl
  | fuel + 1, [], _ => rfl
  | fuel + 1, x :: l, h => by
    rw [orderLoop]
    generalize ha : (x :: l).takeWhile (fun p => ccc p == 0) = a
    generalize hb : (x :: l).dropWhile (fun p => ccc p == 0) = b
    generalize hc : b.takeWhile (fun p => ccc p != 0) = c
    generalize hd : b.dropWhile (fun p => ccc p != 0) = d
    have e1 : x :: l = a ++ b := by rw [← ha, ← hb, List.takeWhile_append_dropWhile]
    have e2 : b = c ++ d := by rw [← hc, ← hd, List.takeWhile_append_dropWhile]
    have h1 : ∀ y ∈ a, ccc y = 0 := fun y hy => by
      rw [← ha] at hy; simpa using mem_takeWhile hy
    have h2 : ∀ y ∈ c, ccc y ≠ 0 := fun y hy => by
      rw [← hc] at hy; simpa using mem_takeWhile hy
    have h3 : StartsFresh d := fun y r hy => by
      rw [← hd] at hy; simpa using dropWhile_head hy
    have hlen : d.length ≤ fuel := by
      have hl : (x :: l).length = a.length + (c.length + d.length) := by rw [e1, e2, List.length_append, List.length_append]
      have : a ≠ [] ∨ c ≠ [] := by
        by_cases hx : ccc x = 0
        · left
          rw [← ha, List.takeWhile_cons, if_pos (by simpa using hx)]
          simp
        · right
          have hb' : b = x :: l := by rw [← hb, List.dropWhile_cons, if_neg (by simpa using hx)]
          rw [← hc, hb', List.takeWhile_cons, if_pos (by simpa using hx)]
          simp
      rcases this with h | h
      · have := List.length_pos_iff.2 h; omega
      · have := List.length_pos_iff.2 h; omega
    have hs : (if 1 < c.length then stableSort c else c) = stableSort c := by
      split
      · rfl
      · rename_i hl; exact (sort_small c hl).symm
    rw [hs, orderLoop_eq fuel d hlen]
    rw [show order' (x :: l) = (a ++ (c ++ d)).foldr insC [] by rw [← e2, ← e1]; rfl, List.foldr_append, List.foldr_append]
    rw [show d.foldr insC [] = order' d from rfl, (order_run (order'_fresh h3) c h2).1, order_starters _ a h1, List.append_assoc]
    intro h; cases h

theorem canonicalOrder_eq (l : List Nat) : canonicalOrder l = order' l := by
  unfold canonicalOrder
  split
  · rename_i h
    match l, h with
    | [], _ => rfl
    | [x], _ => rfl
    | _ :: _ :: _, h => exact absurd h (by simp only [List.length_cons]; omega)
  · exact orderLoop_eq _ l (Nat.le_refl _)

theorem reorders_trans {a b c : List Nat} (h : Reorders a b) (k : Reorders b c) : Reorders a c := by
  induction h with
  | refl => exact k
  | step h _ ih => exact .step h (ih k)

theorem reorders_cons (x : Nat) {a b : List Nat} (h : Reorders a b) : Reorders (x :: a) (x :: b) := by
  induction h with
  | refl => exact .refl _
  | step h _ ih =>
    cases h with
    | swap u v a b h h0 => exact .step (.swap (x :: u) v a b h h0) ih

theorem reorders_insC (x : Nat) : ∀ l : List Nat, Reorders (x :: l) (insC x l)
  | [] => .refl _
  | y :: l => by
    rw [insC]
    split
    · rename_i h
      exact .step (.swap [] l x y h.2 h.1) (reorders_cons y (reorders_insC x l))
    · exact .refl _

theorem reorders_order : ∀ l : List Nat, Reorders l (order' l)
  | [] => .refl _
  | x :: l => reorders_trans (reorders_cons x (reorders_order l)) (reorders_insC x (order' l))

/-- In canonical order, recursively. -/
def Ord : List Nat → Prop
  | [] => True
  | [_] => True
  | x :: y :: l => ¬ (ccc y < ccc x ∧ 0 < ccc y) ∧ Ord (y :: l)

theorem Ord.tail {x : Nat} {l : List Nat} (h : Ord (x :: l)) : Ord l := by
  cases l with
  | nil => trivial
  | cons y l => exact h.2

theorem ord_iff (l : List Nat) : Ord l ↔ Ordered l := by
  constructor
  · intro h u
    induction u generalizing l with
    | nil =>
      intro v a b he
      rw [he] at h
      exact h.1
    | cons z u ih =>
      intro v a b he
      rw [he] at h
      exact ih _ h.tail v a b rfl
  · intro h
    induction l with
    | nil => trivial
    | cons x l ih =>
      cases l with
      | nil => trivial
      | cons y l =>
        refine ⟨h [] l x y rfl, ih fun u v a b he => ?_⟩
        exact h (x :: u) v a b (by rw [he]; rfl)

theorem insC_ord (x : Nat) : ∀ l : List Nat, Ord l → Ord (insC x l)
  | [], _ => trivial
  | y :: l, h => by
    rw [insC]
    split
    · rename_i hc
      have ih := insC_ord x l h.tail
      cases l with
      | nil =>
        rw [insC] at ih ⊢
        exact ⟨by omega, trivial⟩
      | cons z l =>
        rw [insC] at ih ⊢
        split at ih
        · rename_i hz
          rw [if_pos hz]
          exact ⟨h.1, ih⟩
        · rename_i hz
          rw [if_neg hz]
          exact ⟨by omega, ih⟩
    · rename_i hc
      exact ⟨by omega, h⟩

theorem order_ord : ∀ l : List Nat, Ord (order' l)
  | [] => trivial
  | x :: l => insC_ord x _ (order_ord l)

theorem insC_comm {a b : Nat} (h : ccc b < ccc a) (h0 : 0 < ccc b) : ∀ l : List Nat, insC a (insC b l) = insC b (insC a l)
  | [] => by
    show (if 0 < ccc b ∧ ccc b < ccc a then b :: [a] else a :: [b]) = (if 0 < ccc a ∧ ccc a < ccc b then a :: [b] else b :: [a])
    rw [if_pos ⟨h0, h⟩, if_neg (by omega)]
  | y :: l => by
    have ih := insC_comm h h0 l
    by_cases hb : 0 < ccc y ∧ ccc y < ccc b
    · have ha : 0 < ccc y ∧ ccc y < ccc a := ⟨hb.1, by omega⟩
      rw [show insC b (y :: l) = y :: insC b l by rw [insC, if_pos hb], show insC a (y :: l) = y :: insC a l by rw [insC, if_pos ha],
        show insC a (y :: insC b l) = y :: insC a (insC b l) by rw [insC, if_pos ha],
        show insC b (y :: insC a l) = y :: insC b (insC a l) by rw [insC, if_pos hb], ih]
    · rw [show insC b (y :: l) = b :: y :: l by rw [insC, if_neg hb]]
      by_cases ha : 0 < ccc y ∧ ccc y < ccc a
      · rw [show insC a (y :: l) = y :: insC a l by rw [insC, if_pos ha],
          show insC b (y :: insC a l) = b :: y :: insC a l by rw [insC, if_neg hb],
          show insC a (b :: y :: l) = b :: insC a (y :: l) by rw [insC, if_pos ⟨h0, h⟩],
          show insC a (y :: l) = y :: insC a l by rw [insC, if_pos ha]]
      · rw [show insC a (y :: l) = a :: y :: l by rw [insC, if_neg ha],
          show insC a (b :: y :: l) = b :: insC a (y :: l) by rw [insC, if_pos ⟨h0, h⟩],
          show insC a (y :: l) = a :: y :: l by rw [insC, if_neg ha],
          show insC b (a :: y :: l) = b :: a :: y :: l by rw [insC, if_neg (by omega)]]

theorem order_append (u w : List Nat) : order' (u ++ w) = u.foldr insC (order' w) := by
  unfold order'; rw [List.foldr_append]

theorem order_reorder {a b : List Nat} (h : Reorder a b) : order' a = order' b := by
  cases h with
  | swap u v a b h h0 =>
    rw [order_append, order_append]
    congr 1
    exact insC_comm h h0 (order' v)

theorem order_reorders {a b : List Nat} (h : Reorders a b) : order' a = order' b := by
  induction h with
  | refl => rfl
  | step h _ ih => rw [order_reorder h, ih]

theorem order_of_ord : ∀ {l : List Nat}, Ord l → order' l = l
  | [], _ => rfl
  | x :: l, h => by
    rw [show order' (x :: l) = insC x (order' l) from rfl, order_of_ord h.tail]
    cases l with
    | nil => rfl
    | cons y l => rw [insC, if_neg (by have := h.1; omega)]

theorem mem_insC {x z : Nat} : ∀ {s : List Nat}, z ∈ insC x s ↔ z = x ∨ z ∈ s
  | [] => by simp [insC]
  | y :: s => by
    rw [insC]
    split
    · rw [List.mem_cons, mem_insC, List.mem_cons]
      constructor
      · rintro (h | h | h)
        · exact .inr (.inl h)
        · exact .inl h
        · exact .inr (.inr h)
      · rintro (h | h | h)
        · exact .inr (.inl h)
        · exact .inl h
        · exact .inr (.inr h)
    · rw [List.mem_cons]

theorem mem_order {z : Nat} : ∀ {l : List Nat}, z ∈ order' l ↔ z ∈ l
  | [] => Iff.rfl
  | x :: l => by
    rw [show order' (x :: l) = insC x (order' l) from rfl, mem_insC, mem_order, List.mem_cons]

end Verif.Unicode
