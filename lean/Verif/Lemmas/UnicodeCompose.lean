import Verif.Lemmas.Unicode
/-!
# Lemmas on Unicode composition
-/
namespace Verif.Unicode
open Spec

/-! ## Primary composites -/

theorem pairSearch_found {a b : Nat} : ∀ (fuel lo hi : Nat), pairSearch a b fuel lo hi ≠ 0 →
    ∃ i, lo ≤ i ∧ i < hi ∧ a = rowA i ∧ b = rowB i ∧ pairSearch a b fuel lo hi = rowC i
  | 0, _, _, h => absurd rfl h
  | fuel + 1, lo, hi, h => by
    rw [pairSearch] at h ⊢
    dsimp only at h ⊢
    split at h
    · rename_i hl
      rw [if_pos hl]
      split at h
      · rename_i h1
        rw [if_pos h1]
        obtain ⟨i, a1, a2, a3⟩ := pairSearch_found fuel _ _ h
        exact ⟨i, by omega, a2, a3⟩
      · rename_i h1
        rw [if_neg h1]
        split at h
        · rename_i h2
          rw [if_pos h2]
          obtain ⟨i, a1, a2, a3⟩ := pairSearch_found fuel _ _ h
          exact ⟨i, a1, by omega, a3⟩
        · rename_i h2
          rw [if_neg h2]
          refine ⟨(lo + hi) / 2, by omega, by omega, ?_, ?_, ?_⟩
          · unfold rowA; rw [Nat.mul_comm]; omega
          · unfold rowB; rw [Nat.mul_comm]; omega
          · unfold rowC; rw [Nat.mul_comm]
    · exact absurd rfl h

structure Row (i : Nat) : Prop where
  found : compositionLookup (rowA i) (rowB i) = rowC i
  nz : rowC i ≠ 0
  starter : ccc (rowC i) = 0
  full : ∀ k, fullDecompose k (rowC i) = fullDecompose k (rowA i) ++ fullDecompose k (rowB i)
  notAscii : ¬ (rowA i < 128 ∧ rowB i < 128)
  starterFirst : ccc (rowB i) = 0 → rowA i ∈ starterFirsts
  chain : ccc (rowB i) ≠ 0 → rowC i ∉ starterFirsts ∧ (rowC i < lBase ∨ lBase + lCount ≤ rowC i) ∧ (rowC i < sBase ∨ sBase + sCount ≤ rowC i)

theorem row {i : Nat} (h : i < pairsCount) : Row i := by
  have h1 := allBelow_spec rows_check i h
  have h2 := allBelow_spec chain_check i h
  simp only [Bool.and_eq_true, beq_iff_eq, bne_iff_ne, Bool.or_eq_true, Bool.not_eq_true', decide_eq_true_eq, List.contains_iff_mem] at h1 h2
  obtain ⟨⟨⟨⟨⟨a1, a2⟩, a3⟩, a4⟩, a5⟩, a6⟩ := h1
  refine ⟨a1, a2, a3, fun k => by cases k <;> assumption, fun ⟨x, y⟩ => ?_, fun hb => ?_, fun hb => ?_⟩
  · rw [decide_eq_true x, decide_eq_true y] at a6
    exact absurd a6 (by decide)
  · rcases h2.1 with h | h
    · exact absurd hb h
    · exact h
  · rcases h2.2 with h | h
    · exact absurd h hb
    · refine ⟨fun hm => ?_, h.1.2, h.2⟩
      have := h.1.1
      rw [← Bool.not_eq_true, List.contains_iff_mem] at this
      exact this hm

theorem composite_iff (a b c : Nat) : Composite a b c ↔ compositionLookup a b = c ∧ c ≠ 0 := by
  constructor
  · rintro (⟨l, v, hl, hv, rfl, rfl, rfl⟩ | ⟨lv, t, h1, h2, h3, rfl, rfl, rfl⟩ | ⟨i, hi, rfl, rfl, rfl⟩)
    · unfold compositionLookup
      rw [if_pos (by omega)]
      simp only [sBase, nCount, tCount, vCount, lBase, vBase]
      omega
    · unfold compositionLookup
      rw [if_neg (by simp only [sBase, nCount, tCount, vCount, lBase, vBase, lCount, sCount, tBase] at *; omega),
        if_pos (by simp only [sBase, nCount, tCount, vCount, lBase, vBase, lCount, sCount, tBase] at *; omega)]
      simp only [sBase, nCount, tCount, vCount, lBase, vBase, lCount, sCount, tBase] at *
      omega
    · exact ⟨(row hi).found, (row hi).nz⟩
  · rintro ⟨rfl, h⟩
    unfold compositionLookup at h ⊢
    split at h
    · rename_i hc
      rw [if_pos hc]
      left
      refine ⟨a - lBase, b - vBase, by omega, by omega, by omega, by omega, ?_⟩
      simp only [sBase, nCount, tCount, vCount]
      omega
    · rename_i hc
      rw [if_neg hc]
      split at h
      · rename_i hd
        rw [if_pos hd]
        right; left
        refine ⟨(a - sBase) / tCount, b - tBase, ?_, by omega, by omega, ?_, by omega, ?_⟩
        all_goals simp only [sBase, nCount, tCount, vCount, lBase, vBase, lCount, sCount, tBase] at *; omega
      · rename_i hd
        rw [if_neg hd]
        right; right
        obtain ⟨i, -, h1, h2, h3, h4⟩ := pairSearch_found _ _ _ h
        exact ⟨i, h1, h2, h3, h4⟩

theorem composite_unique {a b c d : Nat} (h : Composite a b c) (k : Composite a b d) : c = d := by
  rw [composite_iff] at h k
  exact h.1.symm.trans k.1

theorem composite_lookup {a b : Nat} (h : compositionLookup a b ≠ 0) : Composite a b (compositionLookup a b) :=
  (composite_iff _ _ _).2 ⟨rfl, h⟩

theorem not_composite {a b : Nat} (h : compositionLookup a b = 0) (p : Nat) : ¬ Composite a b p := fun k => by
  rw [composite_iff] at k
  exact k.2 (k.1.symm.trans h)

theorem syllable_starter {p : Nat} (h : sBase ≤ p ∧ p < sBase + sCount) : ccc p = 0 := by
  have h1 := allBelow_spec (allBelow_spec syllable_check ((p - sBase) / 28) (by simp only [sBase, sCount, nCount, lCount, vCount, tCount] at *; omega))
    ((p - sBase) % 28) (by omega)
  rw [Nat.div_add_mod, show sBase + (p - sBase) = p by omega] at h1
  simpa using h1

theorem composite_starter {a b c : Nat} (h : Composite a b c) : ccc c = 0 := by
  rcases h with (⟨l, v, hl, hv, rfl, rfl, rfl⟩ | ⟨lv, t, h1, h2, h3, rfl, rfl, rfl⟩ | ⟨i, hi, rfl, rfl, rfl⟩)
  · refine syllable_starter ?_
    simp only [sBase, nCount, tCount, vCount, lBase, vBase, lCount, sCount, tBase] at *; omega
  · refine syllable_starter ?_
    simp only [sBase, nCount, tCount, vCount, lBase, vBase, lCount, sCount, tBase] at *; omega
  · exact (row hi).starter

theorem full_syllable (k : Bool) {l v t : Nat} (hl : l < lCount) (hv : v < vCount) (ht : t < tCount) :
    fullDecompose k (sBase + (l * vCount + v) * tCount + t) = [lBase + l, vBase + v] ++ (if t = 0 then [] else [tBase + t]) := by
  have hs : sBase ≤ sBase + (l * vCount + v) * tCount + t ∧ sBase + (l * vCount + v) * tCount + t < sBase + sCount := by
    simp only [sBase, nCount, tCount, vCount, lCount, sCount] at *; omega
  have e1 : (sBase + (l * vCount + v) * tCount + t - sBase) / nCount = l := by
    simp only [sBase, nCount, tCount, vCount, lCount] at *; omega
  have e2 : (sBase + (l * vCount + v) * tCount + t - sBase) % nCount / tCount = v := by
    simp only [sBase, nCount, tCount, vCount, lCount] at *; omega
  have e3 : (sBase + (l * vCount + v) * tCount + t - sBase) % tCount = t := by
    simp only [sBase, nCount, tCount, vCount, lCount] at *; omega
  have hm := mapping_syllable k hs
  rw [e1, e2, e3] at hm
  have j1 : fullDecompose k (lBase + l) = [lBase + l] := full_none (jamo_leaf k (by omega) (by simp only [lCount] at hl; omega)).1
  have j2 : fullDecompose k (vBase + v) = [vBase + v] :=
    full_none (jamo_leaf k (by simp only [lBase, vBase]; omega) (by simp only [lBase, vBase, vCount] at *; omega)).1
  have j3 : fullDecompose k (tBase + t) = [tBase + t] :=
    full_none (jamo_leaf k (by simp only [lBase, tBase]; omega) (by simp only [lBase, tBase, tCount] at *; omega)).1
  rw [full_some hm]
  split
  · simp only [List.flatMap_cons, List.flatMap_nil, j1, j2, List.append_nil]
    rfl
  · simp only [List.flatMap_cons, List.flatMap_nil, j1, j2, j3, List.append_nil]
    rfl

theorem composite_full {a b c : Nat} (h : Composite a b c) (k : Bool) : fullDecompose k c = fullDecompose k a ++ fullDecompose k b := by
  rcases h with (⟨l, v, hl, hv, rfl, rfl, rfl⟩ | ⟨lv, t, h1, h2, h3, rfl, rfl, rfl⟩ | ⟨i, hi, rfl, rfl, rfl⟩)
  · have j1 : fullDecompose k (lBase + l) = [lBase + l] := full_none (jamo_leaf k (by omega) (by simp only [lCount] at hl; omega)).1
    have j2 : fullDecompose k (vBase + v) = [vBase + v] :=
      full_none (jamo_leaf k (by simp only [lBase, vBase]; omega) (by simp only [lBase, vBase, vCount] at *; omega)).1
    have e := full_syllable k hl hv (t := 0) (by decide)
    rw [Nat.add_zero, if_pos rfl] at e
    rw [e, j1, j2]
    rfl
  · have j3 : fullDecompose k (tBase + t) = [tBase + t] :=
      full_none (jamo_leaf k (by simp only [lBase, tBase]; omega) (by simp only [lBase, tBase, tCount] at *; omega)).1
    have hl : lv / vCount < lCount := by simp only [vCount, lCount] at *; omega
    have hv : lv % vCount < vCount := by simp only [vCount] at *; omega
    have e0 : lv / vCount * vCount + lv % vCount = lv := by rw [Nat.mul_comm]; exact Nat.div_add_mod _ _
    have e1 := full_syllable k hl hv (t := 0) (by decide)
    have e2 := full_syllable k hl hv h3
    rw [e0] at e1 e2
    rw [Nat.add_zero, if_pos rfl] at e1
    rw [if_neg (by omega)] at e2
    rw [e1, e2, j3, List.append_nil]
  · exact (row hi).full k

/-- A composite with a combining character begins no composite with a starter. -/
theorem composite_chain {a b c : Nat} (h : Composite a b c) (hb : ccc b ≠ 0) {t : Nat} (ht : ccc t = 0) (d : Nat) : ¬ Composite c t d := by
  rcases h with (⟨l, v, hl, hv, rfl, rfl, rfl⟩ | ⟨lv, u, h1, h2, h3, rfl, rfl, rfl⟩ | ⟨i, hi, rfl, rfl, rfl⟩)
  · exact absurd (jamo_leaf true (by simp only [lBase, vBase]; omega) (by simp only [lBase, vBase, vCount] at *; omega)).2 hb
  · exact absurd (jamo_leaf true (by simp only [lBase, tBase]; omega) (by simp only [lBase, tBase, tCount] at *; omega)).2 hb
  · obtain ⟨n1, n2, n3⟩ := (row hi).chain hb
    rintro (⟨l, v, hl, hv, e, -, -⟩ | ⟨lv, u, h1, h2, h3, e, -, -⟩ | ⟨j, hj, e1, e2, e3⟩)
    · rw [show at' 32 compositionPairs (3 * i + 2) = rowC i from rfl] at e
      omega
    · rw [show at' 32 compositionPairs (3 * i + 2) = rowC i from rfl] at e
      simp only [sBase, nCount, tCount, vCount, lBase, vBase, lCount, sCount, tBase] at *; omega
    · have := (row hj).starterFirst (by rw [show rowB j = t from e2.symm]; exact ht)
      rw [show rowA j = rowC i from e1.symm] at this
      exact n1 this

/-! ## The composition loop -/

theorem lastStarter_none : ∀ {l : List Nat}, (∀ x ∈ l, ccc x ≠ 0) → lastStarter l = none
  | [], _ => rfl
  | x :: l, h => by
    rw [lastStarter, lastStarter_none fun y hy => h y (List.mem_cons_of_mem _ hy)]
    exact if_neg (h x List.mem_cons_self)

theorem lastStarter_append {s : Nat} (hs : ccc s = 0) {mid : List Nat} (hm : ∀ m ∈ mid, ccc m ≠ 0) : ∀ pre : List Nat,
    lastStarter (pre ++ s :: mid) = some (pre, s, mid)
  | [] => by
    rw [List.nil_append, lastStarter, lastStarter_none hm]
    exact if_pos hs
  | x :: pre => by
    rw [List.cons_append, lastStarter, lastStarter_append hs hm pre]

theorem lastStarter_some : ∀ {l pre mid : List Nat} {s : Nat}, lastStarter l = some (pre, s, mid) →
    l = pre ++ s :: mid ∧ ccc s = 0 ∧ ∀ m ∈ mid, ccc m ≠ 0
  | [], _, _, _, h => by simp [lastStarter] at h
  | x :: l, pre, mid, s, h => by
    rw [lastStarter] at h
    cases e : lastStarter l with
    | some r =>
      obtain ⟨p, t, m⟩ := r
      rw [e] at h
      simp only [Option.some.injEq, Prod.mk.injEq] at h
      obtain ⟨rfl, rfl, rfl⟩ := h
      obtain ⟨h1, h2, h3⟩ := lastStarter_some e
      exact ⟨by rw [h1]; rfl, h2, h3⟩
    | none =>
      rw [e] at h
      dsimp only at h
      split at h
      · rename_i hx
        simp only [Option.some.injEq, Prod.mk.injEq] at h
        obtain ⟨rfl, rfl, rfl⟩ := h
        refine ⟨rfl, hx, ?_⟩
        clear hx
        induction l with
        | nil => intro m hm; simp at hm
        | cons y l ih =>
          rw [lastStarter] at e
          cases e' : lastStarter l with
          | some r => rw [e'] at e; simp at e
          | none =>
            rw [e'] at e
            dsimp only at e
            split at e
            · simp at e
            · rename_i hy
              intro m hm
              rw [List.mem_cons] at hm
              rcases hm with rfl | hm
              · exact hy
              · exact ih e' m hm
      · simp at h

theorem composeLoop_skip {l : List Nat} : ∀ (mid : List Nat), (∀ m ∈ mid, ccc m ≠ 0) → ∀ f, mid.length ≤ f →
    composeLoop f (mid ++ l) = mid ++ composeLoop (f - mid.length) l
  | [], _, f, _ => by simp
  | x :: mid, h, 0, hf => by simp at hf
  | x :: mid, h, f + 1, hf => by
    rw [List.length_cons] at hf
    rw [List.cons_append, composeLoop, if_pos (h x List.mem_cons_self),
      composeLoop_skip mid (fun m hm => h m (List.mem_cons_of_mem _ hm)) f (by omega), List.length_cons, Nat.add_sub_add_right]
    rfl

theorem composeLoop_nil (f : Nat) : composeLoop f [] = [] := by cases f <;> rfl

/-- What the loop knows of the characters it kept since the starter. -/
def Inv (cur : Nat) (mid : List Nat) (last prev : Nat) : Prop :=
  (last ≠ 0 → ccc prev = last ∧ prev ∈ mid ∧ ∀ m ∈ mid, ccc m ≤ last) ∧
  (last = 0 → mid = [] ∨ ((∀ t, ccc t = 0 → compositionLookup cur t = 0) ∧ ∀ m ∈ mid, ccc m < ccc prev))

theorem inner_composes {f : Nat} (ih : ∀ f' ≤ f, ∀ pre x l, ccc x = 0 → Ord (x :: l) → (x :: l).length ≤ f' → Composes (pre ++ [x]) l (pre ++ composeLoop f' (x :: l)))
    (pre : List Nat) : ∀ (rest : List Nat) (cur : Nat) (mid : List Nat) (last prev : Nat), ccc cur = 0 → (∀ m ∈ mid, ccc m ≠ 0) →
    Inv cur mid last prev → Ord (prev :: rest) → mid.length + rest.length ≤ f →
    Composes (pre ++ cur :: mid) rest (pre ++ (composeInner cur mid last rest).1 :: composeLoop f (composeInner cur mid last rest).2)
  | [], cur, mid, last, prev, hc, hm, hi, ho, hf => by
    rw [composeInner]
    have := composeLoop_skip (l := []) mid hm f (by simpa using hf)
    rw [List.append_nil, composeLoop_nil, List.append_nil] at this
    dsimp only
    rw [this]
    exact .done _
  | x :: rest, cur, mid, last, prev, hc, hm, hi, ho, hf => by
    have hls := lastStarter_append hc hm pre
    rw [List.length_cons] at hf
    rw [composeInner]
    by_cases hx : ccc x = 0
    · rw [if_pos hx]
      by_cases hd : ¬ (last ≠ 0 ∧ ccc x ≤ last) ∧ compositionLookup cur x ≠ 0
      · rw [if_pos hd]
        have hl0 : last = 0 := by omega
        have hmid : mid = [] := by
          rcases hi.2 hl0 with h | h
          · exact h
          · exact absurd (h.1 x hx) hd.2
        subst hmid
        refine .next (.compose hls (by rintro ⟨b, hb, -⟩; simp at hb) (composite_lookup hd.2)) ?_
        exact inner_composes ih pre rest _ [] 0 x (composite_starter (composite_lookup hd.2)) hm ⟨fun h => absurd rfl h, fun _ => .inl rfl⟩ ho.tail (by simpa using by omega)
      · rw [if_neg hd]
        dsimp only
        have hk : Blocked mid x ∨ ∀ p, ¬ Composite cur x p := by
          by_cases hl0 : last = 0
          · right
            refine not_composite (Decidable.not_not.1 fun h => hd ⟨by omega, h⟩)
          · left
            exact ⟨prev, (hi.1 hl0).2.1, .inr (by omega)⟩
        refine .next (.keep hls hk) ?_
        rw [composeLoop_skip mid hm f (by omega)]
        have := ih (f - mid.length) (by omega) (pre ++ cur :: mid) x rest hx ho.tail (by simp only [List.length_cons]; omega)
        simp only [List.append_assoc, List.cons_append] at this ⊢
        exact this
    · rw [if_neg hx]
      have hord : ccc prev ≤ ccc x := by have := ho.1; omega
      by_cases hd : ¬ (last ≠ 0 ∧ ccc x ≤ last) ∧ compositionLookup cur x ≠ 0
      · rw [if_pos hd]
        have hcomp := composite_lookup hd.2
        have hlt : ∀ m ∈ mid, ccc m < ccc x := by
          intro m hm'
          by_cases hl0 : last = 0
          · rcases hi.2 hl0 with h | h
            · rw [h] at hm'; simp at hm'
            · have := h.2 m hm'; omega
          · have := (hi.1 hl0).2.2 m hm'; omega
        refine .next (.compose hls ?_ hcomp) ?_
        · rintro ⟨b, hb, h | h⟩
          · exact hm b hb h
          · have := hlt b hb; omega
        · refine inner_composes ih pre rest _ mid 0 x (composite_starter hcomp) hm ⟨fun h => absurd rfl h, fun _ => .inr ⟨fun t ht => ?_, hlt⟩⟩ ho.tail (by omega)
          exact Decidable.not_not.1 fun h => composite_chain hcomp hx ht _ (composite_lookup h)
      · rw [if_neg hd]
        have hk : Blocked mid x ∨ ∀ p, ¬ Composite cur x p := by
          by_cases hl0 : last ≠ 0 ∧ ccc x ≤ last
          · left
            exact ⟨prev, (hi.1 hl0.1).2.1, .inr (by rw [(hi.1 hl0.1).1]; exact hl0.2)⟩
          · right
            exact not_composite (Decidable.not_not.1 fun h => hd ⟨hl0, h⟩)
        refine .next (.keep hls hk) ?_
        have hle : ∀ m ∈ mid, ccc m ≤ ccc x := by
          intro m hm'
          by_cases hl0 : last = 0
          · rcases hi.2 hl0 with h | h
            · rw [h] at hm'; simp at hm'
            · have := h.2 m hm'; omega
          · have h1 := (hi.1 hl0).2.2 m hm'
            have h2 := (hi.1 hl0).1
            omega
        have := inner_composes ih pre rest cur (mid ++ [x]) (ccc x) x hc (fun m hm' => by
          rw [List.mem_append, List.mem_singleton] at hm'
          rcases hm' with h | rfl
          · exact hm m h
          · exact hx) ⟨fun _ => ⟨rfl, by simp, fun m hm' => by
            rw [List.mem_append, List.mem_singleton] at hm'
            rcases hm' with h | rfl
            · exact hle m h
            · omega⟩, fun h => absurd h hx⟩ ho.tail (by simp only [List.length_append, List.length_cons, List.length_nil]; omega)
        rw [List.append_assoc]
        exact this

theorem loop_composes : ∀ (f : Nat) (pre : List Nat) (x : Nat) (l : List Nat), ccc x = 0 → Ord (x :: l) → (x :: l).length ≤ f →
    Composes (pre ++ [x]) l (pre ++ composeLoop f (x :: l)) := by
  intro f
  induction f using Nat.strongRecOn with
  | ind f ih =>
    intro pre x l hx ho hf
    cases f with
    | zero => simp at hf
    | succ f =>
      rw [composeLoop, if_neg (by omega)]
      exact inner_composes (fun f' hf' => ih f' (by omega)) pre l x [] 0 x hx (fun m hm => by simp at hm)
        ⟨fun h => absurd rfl h, fun _ => .inl rfl⟩ ho (by simpa using hf)

theorem composes_loop : ∀ (l pre : List Nat) (f : Nat), (∀ m ∈ pre, ccc m ≠ 0) → Ord l → l.length ≤ f →
    Composes pre l (pre ++ composeLoop f l)
  | [], pre, f, _, _, _ => by rw [composeLoop_nil, List.append_nil]; exact .done _
  | x :: l, pre, 0, _, _, hf => by simp at hf
  | x :: l, pre, f + 1, hp, ho, hf => by
    refine .next (.first (lastStarter_none hp)) ?_
    by_cases hx : ccc x = 0
    · exact loop_composes (f + 1) pre x l hx ho hf
    · rw [composeLoop, if_pos hx]
      have := composes_loop l (pre ++ [x]) f (fun m hm => by
        rw [List.mem_append, List.mem_singleton] at hm
        rcases hm with h | rfl
        · exact hp m h
        · exact hx) ho.tail (by simpa using hf)
      rw [List.append_assoc] at this
      exact this

theorem compose_eq (l : List Nat) : compose l = composeLoop l.length l := by
  unfold compose
  split
  · rename_i h
    match l, h with
    | [], _ => rfl
    | [x], _ =>
      show _ = composeLoop (0 + 1) [x]
      rw [composeLoop]
      split
      · rfl
      · rfl
    | _ :: _ :: _, h => exact absurd h (by simp only [List.length_cons]; omega)
  · rfl

theorem compose_composes {l : List Nat} (h : Ord l) : Composes [] l (compose l) := by
  rw [compose_eq]
  exact composes_loop l [] l.length (fun m hm => by simp at hm) h (Nat.le_refl _)

theorem step_unique {out a b : List Nat} {c : Nat} (h : ComposeStep out c a) (k : ComposeStep out c b) : a = b := by
  cases h with
  | first h =>
    cases k with
    | first => rfl
    | compose h' => rw [h] at h'; simp at h'
    | keep => rfl
  | compose h hb hc =>
    cases k with
    | first h' => rw [h] at h'; simp at h'
    | compose h' hb' hc' =>
      rw [h, Option.some.injEq, Prod.mk.injEq, Prod.mk.injEq] at h'
      obtain ⟨rfl, rfl, rfl⟩ := h'
      rw [composite_unique hc hc']
    | keep h' hk =>
      rw [h, Option.some.injEq, Prod.mk.injEq, Prod.mk.injEq] at h'
      obtain ⟨rfl, rfl, rfl⟩ := h'
      rcases hk with hk | hk
      · exact absurd hk hb
      · exact absurd hc (hk _)
  | keep h hk =>
    cases k with
    | first => rfl
    | compose h' hb hc =>
      rw [h, Option.some.injEq, Prod.mk.injEq, Prod.mk.injEq] at h'
      obtain ⟨rfl, rfl, rfl⟩ := h'
      rcases hk with hk | hk
      · exact absurd hk hb
      · exact absurd hc (hk _)
    | keep => rfl

theorem composes_unique {out l a b : List Nat} (h : Composes out l a) (k : Composes out l b) : a = b := by
  induction h with
  | done => cases k; rfl
  | next h _ ih =>
    cases k with
    | next h' k' =>
      rw [step_unique h' h] at k'
      exact ih k'

/-! ## What composition preserves -/

theorem reorders_move {c : Nat} {v : List Nat} : ∀ (mid u : List Nat), (∀ m ∈ mid, 0 < ccc m ∧ ccc m < ccc c) →
    Reorders (u ++ c :: (mid ++ v)) (u ++ mid ++ c :: v)
  | [], u, _ => by rw [List.append_nil]; exact .refl _
  | m :: mid, u, h => by
    have hm := h m List.mem_cons_self
    refine .step (.swap u (mid ++ v) c m hm.2 hm.1) ?_
    have := reorders_move (v := v) mid (u ++ [m]) fun x hx => h x (List.mem_cons_of_mem _ hx)
    simp only [List.append_assoc, List.cons_append, List.nil_append] at this ⊢
    exact this

theorem flatMap_leaves {k : Bool} : ∀ {l : List Nat}, (∀ m ∈ l, fullDecompose k m = [m]) → l.flatMap (fullDecompose k) = l
  | [], _ => rfl
  | x :: l, h => by
    rw [List.flatMap_cons, h x List.mem_cons_self, flatMap_leaves fun m hm => h m (List.mem_cons_of_mem _ hm)]
    rfl

theorem step_norm {k : Bool} {out out' : List Nat} {c : Nat} (h : ComposeStep out c out') (hc : fullDecompose k c = [c])
    (ho : ∀ m ∈ out, ccc m ≠ 0 → fullDecompose k m = [m]) (r : List Nat) :
    order' ((out ++ c :: r).flatMap (fullDecompose k)) = order' ((out' ++ r).flatMap (fullDecompose k)) ∧
    ∀ m ∈ out', ccc m ≠ 0 → fullDecompose k m = [m] := by
  have hkeep : ∀ m ∈ out ++ [c], ccc m ≠ 0 → fullDecompose k m = [m] := by
    intro m hm
    rw [List.mem_append, List.mem_singleton] at hm
    rcases hm with h | rfl
    · exact ho m h
    · exact fun _ => hc
  cases h with
  | first => exact ⟨by simp, hkeep⟩
  | keep => exact ⟨by simp, hkeep⟩
  | @compose pre mid s _ p h hb hcomp =>
    obtain ⟨rfl, hs, hm⟩ := lastStarter_some h
    have hleaf : ∀ m ∈ mid, fullDecompose k m = [m] := fun m hm' => ho m (by simp [hm']) (hm m hm')
    refine ⟨?_, fun m hm' hn => ?_⟩
    · simp only [List.flatMap_append, List.flatMap_cons, composite_full hcomp k, flatMap_leaves hleaf, hc, List.append_assoc, List.cons_append, List.nil_append]
      have := reorders_move (c := c) (v := r.flatMap (fullDecompose k)) mid (pre.flatMap (fullDecompose k) ++ fullDecompose k s) fun m hm' => by
        refine ⟨Nat.pos_of_ne_zero (hm m hm'), ?_⟩
        rcases Nat.lt_or_ge (ccc m) (ccc c) with h | h
        · exact h
        · exact absurd ⟨m, hm', .inr h⟩ hb
      have := order_reorders this
      simp only [List.append_assoc] at this
      exact this.symm
    · rw [List.mem_append, List.mem_cons] at hm'
      rcases hm' with h | rfl | h
      · exact ho m (by simp [h]) hn
      · exact absurd (composite_starter hcomp) hn
      · exact hleaf m h

theorem composes_norm {k : Bool} {out l r : List Nat} (h : Composes out l r) : (∀ c ∈ l, fullDecompose k c = [c]) →
    (∀ m ∈ out, ccc m ≠ 0 → fullDecompose k m = [m]) →
    order' ((out ++ l).flatMap (fullDecompose k)) = order' (r.flatMap (fullDecompose k)) := by
  induction h with
  | done => intro _ _; rw [List.append_nil]
  | @next out out' r l c h _ ih =>
    intro hl ho
    have := step_norm h (hl c List.mem_cons_self) ho l
    rw [this.1]
    exact ih (fun d hd => hl d (List.mem_cons_of_mem _ hd)) this.2

/-- The decomposed form. -/
def nf (k : Bool) (l : List Nat) : List Nat := order' (l.flatMap (fullDecompose k))

theorem normalForm_false (k : Bool) (l : List Nat) : normalForm k false l = nf k l := by
  unfold normalForm; rw [canonicalOrder_eq]; rfl

theorem normalForm_true (k : Bool) (l : List Nat) : normalForm k true l = compose (nf k l) := by
  unfold normalForm; rw [canonicalOrder_eq]; rfl

theorem nf_leaves (k : Bool) (l : List Nat) : ∀ q ∈ nf k l, fullDecompose k q = [q] := by
  intro q hq
  unfold nf at hq
  rw [mem_order, List.mem_flatMap] at hq
  obtain ⟨p, -, hq⟩ := hq
  exact full_leaves k p q hq

theorem nf_ord (k : Bool) (l : List Nat) : Ord (nf k l) := order_ord _

theorem nf_of {k : Bool} {l : List Nat} (h : Ord l) (hl : ∀ q ∈ l, fullDecompose k q = [q]) : nf k l = l := by
  unfold nf
  rw [flatMap_leaves hl, order_of_ord h]

theorem nf_nf (k : Bool) (l : List Nat) : nf k (nf k l) = nf k l := nf_of (nf_ord k l) (nf_leaves k l)

theorem nf_compose (k : Bool) (l : List Nat) : nf k (compose (nf k l)) = nf k l := by
  have := composes_norm (k := k) (compose_composes (nf_ord k l)) (nf_leaves k l) (fun m hm => by simp at hm)
  rw [List.nil_append] at this
  exact this.symm.trans (nf_nf k l)

/-! ## ASCII -/

theorem ascii_facts {p : Nat} (h : p < 128) : (∀ k, fullDecompose k p = [p]) ∧ ccc p = 0 ∧ foldLowerOne p = [asciiLower p] ∧ foldUpperOne p = [asciiUpper p] := by
  have h1 := allBelow_spec ascii_check p h
  simp only [Bool.and_eq_true, beq_iff_eq] at h1
  obtain ⟨⟨⟨⟨a1, a2⟩, a3⟩, a4⟩, a5⟩ := h1
  exact ⟨fun k => by cases k <;> assumption, a3, a4, a5⟩

theorem ascii_lookup {a b : Nat} (ha : a < 128) (hb : b < 128) : compositionLookup a b = 0 := by
  refine Decidable.not_not.1 fun h => ?_
  rcases composite_lookup h with (⟨l, v, hl, hv, e, -, -⟩ | ⟨lv, t, h1, h2, h3, e, -, -⟩ | ⟨i, hi, e1, e2, -⟩)
  · simp only [lBase] at e; omega
  · simp only [sBase] at e; omega
  · exact (row hi).notAscii ⟨by rw [show rowA i = a from e1.symm]; exact ha, by rw [show rowB i = b from e2.symm]; exact hb⟩

theorem ascii_loop : ∀ (l : List Nat) (f : Nat), (∀ p ∈ l, p < 128) → l.length ≤ f → composeLoop f l = l
  | [], f, _, _ => composeLoop_nil f
  | x :: l, 0, _, h => by simp at h
  | x :: l, f + 1, hp, h => by
    have hx := ascii_facts (hp x List.mem_cons_self)
    have e : composeInner x [] 0 l = (x, l) := by
      cases l with
      | nil => rfl
      | cons y l =>
        have hy := hp y (by simp)
        rw [composeInner, if_pos (ascii_facts hy).2.1, if_neg (by rw [ascii_lookup (hp x List.mem_cons_self) hy]; simp)]
        rfl
    rw [composeLoop, if_neg (by omega), e]
    dsimp only
    rw [ascii_loop l f (fun p hq => hp p (List.mem_cons_of_mem _ hq)) (by simpa using h)]

theorem ascii_ord : ∀ {l : List Nat}, (∀ p ∈ l, p < 128) → Ord l
  | [], _ => trivial
  | [_], _ => trivial
  | x :: y :: l, h => ⟨by have := (ascii_facts (h y (by simp))).2.1; omega, ascii_ord fun p hp => h p (List.mem_cons_of_mem _ hp)⟩

theorem isAscii_iff {l : List Nat} : isAscii l = true ↔ ∀ p ∈ l, p < 128 := by
  unfold isAscii
  rw [List.all_eq_true]
  exact ⟨fun h p hp => of_decide_eq_true (h p hp), fun h p hp => decide_eq_true (h p hp)⟩

theorem toForm_eq (k r : Bool) (l : List Nat) : toForm k r l = normalForm k r l := by
  unfold toForm
  cases h : isAscii l with
  | false => rfl
  | true =>
    have hl := isAscii_iff.1 h
    have hn : nf k l = l := nf_of (ascii_ord hl) fun q hq => (ascii_facts (hl q hq)).1 k
    cases r with
    | false => rw [normalForm_false, hn]; rfl
    | true => rw [normalForm_true, hn, compose_eq, ascii_loop l _ hl (Nat.le_refl _)]; rfl

/-! ## Case -/

theorem foldSearch_found {t p : Nat} : ∀ (fuel lo hi : Nat), foldSearch t p fuel lo hi = [p] ∨
    ∃ i, lo ≤ i ∧ i < hi ∧ at' 32 t (i * 5) = p ∧
      foldSearch t p fuel lo hi = [at' 32 t (i * 5 + 2), at' 32 t (i * 5 + 3), at' 32 t (i * 5 + 4)].take (at' 32 t (i * 5 + 1))
  | 0, _, _ => .inl rfl
  | fuel + 1, lo, hi => by
    rw [foldSearch]
    by_cases hl : lo < hi
    · rw [if_pos hl]
      by_cases h1 : at' 32 t ((lo + hi) / 2 * 5) < p
      · rw [if_pos h1]
        rcases foldSearch_found fuel ((lo + hi) / 2 + 1) hi with h | ⟨i, a1, a2, a3⟩
        · exact .inl h
        · exact .inr ⟨i, by omega, a2, a3⟩
      · rw [if_neg h1]
        by_cases h2 : p < at' 32 t ((lo + hi) / 2 * 5)
        · rw [if_pos h2]
          rcases foldSearch_found fuel lo ((lo + hi) / 2) with h | ⟨i, a1, a2, a3⟩
          · exact .inl h
          · exact .inr ⟨i, a1, by omega, a3⟩
        · rw [if_neg h2]
          exact .inr ⟨(lo + hi) / 2, by omega, by omega, by omega, rfl⟩
    · rw [if_neg hl]; exact .inl rfl

theorem foldLower_fixed (p : Nat) : ∀ q ∈ foldLowerOne p, foldLowerOne q = [q] := by
  intro q hq
  rcases foldSearch_found (t := caseFoldPairs) (p := p) (foldCount + 1) 0 foldCount with h | ⟨i, -, hi, rfl, -⟩
  · have h : foldLowerOne p = [p] := h
    rw [h, List.mem_singleton] at hq
    rw [hq]; exact h
  · have := allBelow_spec fold_check i hi
    rw [Bool.and_eq_true, List.all_eq_true] at this
    simpa using this.2 q hq

theorem foldUpper_fixed (p : Nat) : ∀ q ∈ foldUpperOne p, foldUpperOne q = [q] := by
  intro q hq
  rcases foldSearch_found (t := upperPairs) (p := p) (upperCount + 1) 0 upperCount with h | ⟨i, -, hi, rfl, -⟩
  · have h : foldUpperOne p = [p] := h
    rw [h, List.mem_singleton] at hq
    rw [hq]; exact h
  · have := allBelow_spec upper_check i hi
    rw [Bool.and_eq_true, List.all_eq_true] at this
    simpa using this.2 q hq

theorem flatMap_ascii {g : Nat → List Nat} {a : Nat → Nat} : ∀ {l : List Nat}, (∀ p ∈ l, g p = [a p]) → l.flatMap g = l.map a
  | [], _ => rfl
  | x :: l, h => by
    rw [List.flatMap_cons, h x List.mem_cons_self, flatMap_ascii fun m hm => h m (List.mem_cons_of_mem _ hm)]
    rfl

theorem toLower_eq (l : List Nat) : toLower l = l.flatMap foldLowerOne := by
  unfold toLower
  split
  · rename_i h
    exact (flatMap_ascii fun p hp => (ascii_facts (isAscii_iff.1 h p hp)).2.2.1).symm
  · rfl

theorem toUpper_eq (l : List Nat) : toUpper l = l.flatMap foldUpperOne := by
  unfold toUpper
  split
  · rename_i h
    exact (flatMap_ascii fun p hp => (ascii_facts (isAscii_iff.1 h p hp)).2.2.2).symm
  · rfl

theorem flatMap_fixed {g : Nat → List Nat} (h : ∀ p, ∀ q ∈ g p, g q = [q]) (l : List Nat) : (l.flatMap g).flatMap g = l.flatMap g := by
  have : ∀ m : List Nat, (∀ q ∈ m, g q = [q]) → m.flatMap g = m := fun m hm => (flatMap_ascii (a := id) hm).trans (List.map_id m)
  exact this _ fun q hq => by
    rw [List.mem_flatMap] at hq
    obtain ⟨p, -, hq⟩ := hq
    exact h p q hq

end Verif.Unicode
