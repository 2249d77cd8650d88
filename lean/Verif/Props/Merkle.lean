import Verif.Lemmas.Merkle
import Mathlib.Logic.Function.Iterate
import Mathlib.Data.Nat.Prime.Basic
import Mathlib.Algebra.Ring.Parity
import Mathlib.Data.Nat.Factorization.Basic
import Mathlib.Algebra.Order.Ring.Nat
/-!
# C15, C16: Merkle roots, branches and malleability
-/
namespace Verif.Merkle
open Spec

variable {α : Type}

/-! ## C15 -/

/-- Whatever the build (scalar or any combination of vector lanes), the computed root is the Merkle root, no access is out
of range, and no leaves give the null hash. -/
theorem C15_root (H : α → α → α) (nullHash : α) (build : Build) (d : List α) :
    (d = [] → merkleRoot H nullHash build d = some nullHash) ∧
    (∀ r, d ≠ [] → (merkleRoot H nullHash build d = some r ↔ IsRoot H d r)) ∧
    (merkleRoot H nullHash build d).isSome := by
  have key : d ≠ [] → ∃ r, merkleRoot H nullHash build d = some r ∧ IsRoot H d r := by
    intro h
    obtain ⟨r, h1, h2⟩ := rootLoop_eq H build d.length d h (by omega)
    refine ⟨r, ?_, h2⟩
    unfold merkleRoot
    rw [if_neg (by simpa using h), h1]
    rfl
  refine ⟨?_, ?_, ?_⟩
  · rintro rfl; rfl
  · intro r h
    obtain ⟨s, h1, h2⟩ := key h
    rw [h1]
    constructor
    · intro e; injection e with e; exact e ▸ h2
    · intro e; rw [h2.unique e]
  · by_cases h : d = []
    · subst h; rfl
    · obtain ⟨s, h1, _⟩ := key h
      simp [h1]

/-- The branch of any position, combined with the leaf at that position, gives the root; its length is the tree's height
(the rounded up base 2 logarithm of the number of leaves). -/
theorem C15_branch (H : α → α → α) (build : Build) (d : List α) (pos : Nat) (leaf : α) (h : d[pos]? = some leaf) :
    ∃ branch, merkleBranch H build pos d = some branch ∧ IsRoot H d (combine H pos leaf branch) ∧
      d.length ≤ 2 ^ branch.length ∧ (branch.length ≠ 0 → 2 ^ (branch.length - 1) < d.length) := by
  have hlt : pos < d.length := by
    rcases Nat.lt_or_ge pos d.length with h' | h'
    · exact h'
    · rw [List.getElem?_eq_none h'] at h; simp at h
  obtain ⟨leaf', br, h1, h2, h3, h4, h5, h6⟩ := branchLoop_eq H build d.length d pos hlt (by omega)
  rw [h] at h1
  injection h1 with h1
  subst h1
  refine ⟨br, ?_, h3, h4, ?_⟩
  · unfold merkleBranch
    rw [if_neg (by omega), h2]
  · intro hn
    exact h5 (by
      rcases Nat.lt_or_ge 1 d.length with h' | h'
      · exact h'
      · exact absurd (h6.2 (by omega)) hn)

theorem combine_injective {H : α → α → α} (hH : Function.Injective2 H) : ∀ (s t : List α) (pos : Nat) (a b : α),
    s.length = t.length → combine H pos a s = combine H pos b t → a = b ∧ s = t
  | [], [], _, _, _, _, h => ⟨h, rfl⟩
  | x :: s, y :: t, pos, a, b, hl, h => by
    obtain ⟨h1, h2⟩ := combine_injective hH s t (pos / 2) _ _ (by simpa using hl) h
    split at h1
    · obtain ⟨h3, h4⟩ := hH h1; exact ⟨h3, by rw [h4, h2]⟩
    · obtain ⟨h3, h4⟩ := hH h1; exact ⟨h4, by rw [h3, h2]⟩
  | [], y :: t, _, _, _, hl, _ => by simp at hl
  | x :: s, [], _, _, _, hl, _ => by simp at hl

/-- A branch proves membership: without hash collisions, any leaf and branch (of the right length) that combine to the root
at a position are the leaf and the branch of that position. -/
theorem C15_branch_binding {H : α → α → α} (hH : Function.Injective2 H) (build : Build) (d : List α) (pos : Nat) (leaf : α)
    (h : d[pos]? = some leaf) (branch : List α) (hb : merkleBranch H build pos d = some branch) (leaf' : α)
    (branch' : List α) (hl : branch'.length = branch.length) (hr : IsRoot H d (combine H pos leaf' branch')) :
    leaf' = leaf ∧ branch' = branch := by
  obtain ⟨br, h1, h2, _⟩ := C15_branch H build d pos leaf h
  rw [h1] at hb
  injection hb with hb
  subst hb
  exact combine_injective hH _ _ pos _ _ hl (hr.unique h2)

/-- A position outside the leaves has an empty branch. -/
theorem C15_branch_outside (H : α → α → α) (build : Build) (d : List α) (pos : Nat) (h : d.length ≤ pos) :
    merkleBranch H build pos d = some [] := by
  unfold merkleBranch
  rw [if_pos h]

/-! ## C16 -/

/-- Collision-free hashing for the examples: a hash is a tree. -/
inductive Tree where
  | leaf (n : Nat)
  | node (a b : Tree)
deriving DecidableEq, Repr

theorem Tree.node_injective : Function.Injective2 Tree.node := by
  intro a b c d h; injection h with h1 h2; exact ⟨h1, h2⟩

example : merkleRoot Tree.node (.leaf 0) (.vector 2 [4, 2]) [.leaf 1, .leaf 2, .leaf 3, .leaf 4, .leaf 5] =
      merkleRoot Tree.node (.leaf 0) .scalar [.leaf 1, .leaf 2, .leaf 3, .leaf 4, .leaf 5] ∧
    merkleRoot Tree.node (.leaf 0) .scalar [.leaf 1, .leaf 2, .leaf 3] =
      some (.node (.node (.leaf 1) (.leaf 2)) (.node (.leaf 3) (.leaf 3))) ∧
    merkleBranch Tree.node .scalar 2 [.leaf 1, .leaf 2, .leaf 3] = some [.leaf 3, .node (.leaf 1) (.leaf 2)] := by decide

/-- `2 ^ k` is the largest power of two dividing `n`, and `n` is not itself a power of two. -/
theorem malleable32Loop_iff : ∀ (k fuel j set : Nat), 2 ^ k < fuel + 2 ^ j → j ≤ k → set ≠ 0 →
    (malleable32Loop fuel (2 ^ j) set (2 ^ k) = true ↔ ∃ q, set = 2 ^ (k - j) * q ∧ q % 2 = 1 ∧ q ≠ 1) := by
  intro k fuel
  induction fuel with
  | zero => intro j set h hj _; have := Nat.pow_le_pow_right (n := 2) (by omega) hj; omega
  | succ fuel ih =>
    intro j set h hj h0
    have hle := Nat.pow_le_pow_right (n := 2) (by omega) hj
    have hpos : 0 < 2 ^ j := Nat.pos_of_ne_zero (by simp)
    unfold malleable32Loop
    rw [if_pos hle]
    by_cases hodd : set % 2 = 1
    · rw [if_pos hodd, Bool.and_eq_true, decide_eq_true_eq, decide_eq_true_eq]
      constructor
      · rintro ⟨h1, h2⟩
        have : j = k := Nat.pow_right_injective (le_refl 2) h1
        subst this
        exact ⟨set, by simp, hodd, h2⟩
      · rintro ⟨q, h1, h2, h3⟩
        have hkj : k - j = 0 := by
          rcases Nat.eq_zero_or_pos (k - j) with h' | h'
          · exact h'
          · obtain ⟨m, hm⟩ : ∃ m, k - j = m + 1 := ⟨k - j - 1, by omega⟩
            rw [hm, pow_succ] at h1
            have : set % 2 = 0 := by rw [h1, mul_comm (2 ^ m) 2, mul_assoc, Nat.mul_mod_right]
            omega
        have : j = k := by omega
        subst this
        rw [hkj, pow_zero, one_mul] at h1
        subst h1
        exact ⟨rfl, h3⟩
    · rw [if_neg hodd]
      have e : 2 ^ j * 2 = 2 ^ (j + 1) := by rw [pow_succ]
      rcases Nat.lt_or_ge j k with hlt | hge
      · rw [e, ih (j + 1) (set / 2) (by rw [pow_succ]; omega) hlt (by omega)]
        have hkj : k - j = (k - (j + 1)) + 1 := by omega
        rw [hkj, pow_succ]
        have hs : set = 2 * (set / 2) := by omega
        constructor
        · rintro ⟨q, h1, h2⟩; exact ⟨q, by rw [hs, h1]; ring, h2⟩
        · rintro ⟨q, h1, h2⟩
          refine ⟨q, ?_, h2⟩
          have : 2 * (set / 2) = 2 * (2 ^ (k - (j + 1)) * q) := by rw [← hs, h1]; ring
          omega
      · have : j = k := by omega
        subst this
        constructor
        · intro hf
          exfalso
          cases fuel with
          | zero => simp [malleable32Loop] at hf
          | succ f => unfold malleable32Loop at hf; rw [if_neg (by omega)] at hf; simp at hf
        · rintro ⟨q, h1, h2, _⟩
          simp at h1; omega

theorem isMalleable32Width_iff (set k : Nat) (h : set ≠ 0) :
    isMalleable32Width set (2 ^ k) = true ↔ ∃ q, set = 2 ^ k * q ∧ q % 2 = 1 ∧ q ≠ 1 := by
  have := malleable32Loop_iff k (2 ^ k + 1) 0 set (by rw [pow_zero]; omega) (by omega) h
  simpa [isMalleable32Width] using this

theorem isMalleable32Width_zero (k : Nat) : isMalleable32Width 0 k = false := by
  unfold isMalleable32Width
  generalize k + 1 = f
  generalize hd : 1 = dd
  clear hd
  induction f generalizing dd with
  | zero => rfl
  | succ f ih =>
    unfold malleable32Loop
    split
    · simp [ih]
    · rfl

variable [DecidableEq α]

/-- The last `width` hashes repeat the `width` before them. -/
theorem isMalleated32Width_iff (d : List α) (w : Nat) :
    isMalleated32Width d w = true ↔ ∃ x t, d = x ++ t ++ t ∧ t.length = w ∧ w ≠ 0 := by
  unfold isMalleated32Width
  split
  · rename_i h
    simp only [Bool.false_eq_true, false_iff]
    rintro ⟨x, t, rfl, rfl, h0⟩
    simp only [List.length_append] at h
    omega
  · rename_i h
    simp only [List.all_eq_true, List.mem_range, decide_eq_true_eq]
    constructor
    · intro hr
      have hd : d = (d.take (d.length - 2 * w) ++ (d.drop (d.length - 2 * w)).take w) ++ d.drop (d.length - w) := by
        rw [← List.take_add]
        have : d.length - 2 * w + w = d.length - w := by omega
        rw [this, List.take_append_drop]
      have ht : (d.drop (d.length - 2 * w)).take w = d.drop (d.length - w) := by
        apply List.ext_getElem?
        intro i
        by_cases hi : i < w
        · rw [List.getElem?_take_of_lt hi, List.getElem?_drop, List.getElem?_drop]
          have := hr (w - 1 - i) (by omega)
          rw [List.getElem?_reverse (by omega), List.getElem?_reverse (by omega)] at this
          have e1 : d.length - 1 - (w - 1 - i) = d.length - w + i := by omega
          have e2 : d.length - 1 - (w - 1 - i + w) = d.length - 2 * w + i := by omega
          rw [e1, e2] at this
          exact this.symm
        · rw [List.getElem?_eq_none, List.getElem?_eq_none]
          · simp; omega
          · simp; omega
      refine ⟨d.take (d.length - 2 * w), d.drop (d.length - w), ?_, by simp; omega, by omega⟩
      rw [ht] at hd
      exact hd
    · rintro ⟨x, t, rfl, rfl, h0⟩ i hi
      rw [List.reverse_append, List.reverse_append, List.getElem?_append_left (by simpa using hi),
        List.getElem?_append_right (by simp), List.length_reverse, Nat.add_sub_cancel,
        List.getElem?_append_left (by simpa using hi)]

omit [DecidableEq α] in
theorem malleated32Loop_sound [DecidableEq α] (d : List α) : ∀ fuel j w, malleated32Loop d fuel (2 ^ j) = w → w ≠ 0 →
    ∃ k, w = 2 ^ k ∧ isMalleable32Width (d.length - w) w = true ∧ isMalleated32Width d w = true := by
  intro fuel
  induction fuel with
  | zero => intro j w h h0; exact absurd h.symm h0
  | succ fuel ih =>
    intro j w h h0
    unfold malleated32Loop at h
    split at h
    · split at h
      · rename_i hc
        rw [Bool.and_eq_true] at hc
        subst h
        exact ⟨j, rfl, hc.1, hc.2⟩
      · rw [← pow_succ] at h
        exact ih (j + 1) w h h0
    · exact absurd h.symm h0

theorem malleated32Loop_complete (d : List α) (k : Nat) (h1 : 2 ^ k ≤ d.length / 2)
    (h2 : isMalleable32Width (d.length - 2 ^ k) (2 ^ k) = true) (h3 : isMalleated32Width d (2 ^ k) = true) :
    ∀ fuel j, j ≤ k → 2 ^ k < fuel + 2 ^ j → malleated32Loop d fuel (2 ^ j) ≠ 0 := by
  intro fuel
  induction fuel with
  | zero => intro j hj h; have := Nat.pow_le_pow_right (n := 2) (by omega) hj; omega
  | succ fuel ih =>
    intro j hj h
    have hle := Nat.pow_le_pow_right (n := 2) (by omega) hj
    have hpos : 0 < 2 ^ j := Nat.pos_of_ne_zero (by simp)
    unfold malleated32Loop
    rw [if_pos (by omega)]
    split
    · omega
    · rename_i hc
      rw [← pow_succ]
      rcases Nat.lt_or_ge j k with hlt | hge
      · exact ih (j + 1) hlt (by rw [pow_succ]; omega)
      · have : j = k := by omega
        subst this
        exact absurd (by rw [h2, h3]; rfl) hc

omit [DecidableEq α] in
theorem level_append_even (H : α → α → α) : ∀ (x y : List α), x.length % 2 = 0 → level H (x ++ y) = level H x ++ level H y
  | [], y, _ => rfl
  | [_], y, h => by simp at h
  | a :: b :: x, y, h => by
    simp only [List.cons_append, level]
    rw [level_append_even H x y (by simp only [List.length_cons] at h; omega)]

omit [DecidableEq α] in
/-- Duplicating the last `2 ^ k` nodes of a list of `2 ^ k * q` nodes, `q` odd and not one, keeps the root. -/
theorem root_duplicate (H : α → α → α) : ∀ (k q : Nat) (x t : List α) (r : α), t.length = 2 ^ k →
    (x ++ t).length = 2 ^ k * q → q % 2 = 1 → q ≠ 1 → (IsRoot H (x ++ t ++ t) r ↔ IsRoot H (x ++ t) r) := by
  intro k
  induction k with
  | zero =>
    intro q x t r ht hq ho h1
    rw [pow_zero, one_mul] at hq
    rw [pow_zero] at ht
    have hx : x.length % 2 = 0 := by rw [List.length_append, ht] at hq; omega
    have hx2 : 2 ≤ x.length := by rw [List.length_append, ht] at hq; omega
    match t, ht with
    | [a], _ =>
      have e : level H (x ++ [a] ++ [a]) = level H (x ++ [a]) := by
        rw [List.append_assoc, level_append_even H x _ hx, level_append_even H x _ hx]
        rfl
      constructor
      · intro h
        cases h' : x ++ [a] ++ [a] with
        | nil => simp at h'
        | cons => refine .up _ _ (by simp; omega) ?_
                  rw [← e]
                  generalize hz : x ++ [a] ++ [a] = z at h
                  cases h with
                  | one b => have := congrArg List.length hz; simp at this
                  | up _ _ _ h => exact h
      · intro h
        refine .up _ _ (by simp) ?_
        rw [e]
        generalize hz : x ++ [a] = z at h
        cases h with
        | one b => have := congrArg List.length hz; simp only [List.length_append, List.length_singleton] at this; omega
        | up _ _ _ h => exact h
  | succ k ih =>
    intro q x t r ht hq ho h1
    have htl : t.length = 2 * 2 ^ k := by rw [ht, pow_succ]; ring
    have hql : (x ++ t).length = 2 * (2 ^ k * q) := by rw [hq, pow_succ]; ring
    have hx : x.length % 2 = 0 := by rw [List.length_append] at hql; omega
    have hpos : 0 < 2 ^ k := Nat.pos_of_ne_zero (by simp)
    have e1 : level H (x ++ t) = level H x ++ level H t := level_append_even H x t hx
    have e2 : level H (x ++ t ++ t) = level H x ++ level H t ++ level H t := by
      rw [level_append_even H (x ++ t) t (by omega), e1]
    have := ih q (level H x) (level H t) r (by rw [level_length]; omega)
      (by rw [← e1, level_length]; omega) ho h1
    rw [← e1] at this
    have hup : ∀ z : List α, 2 ≤ z.length → (IsRoot H z r ↔ IsRoot H (level H z) r) := by
      intro z hz
      constructor
      · intro h
        cases h with
        | one => simp at hz
        | up _ _ _ h => exact h
      · exact .up _ _ hz
    rw [hup _ (by simp; omega), hup (x ++ t) (by simp; omega), e2, ← e1, this]

/-- A block reported as malleated of size `w` really is one: dropping its last `w` hashes leaves a different list with the
same root, whatever the hash function; and the dropped hashes repeat the ones before them. -/
theorem C16_reported_is_malleated (H : α → α → α) (d : List α) (r : α) (h : isMalleated32 d = true) (hr : IsRoot H d r) :
    ∃ x t, d = x ++ t ++ t ∧ t ≠ [] ∧ t.length = malleated32Size d ∧ IsRoot H (x ++ t) r := by
  unfold isMalleated32 at h
  rw [decide_eq_true_eq] at h
  obtain ⟨k, h1, h2, h3⟩ := malleated32Loop_sound d (d.length + 1) 0 _ rfl h
  rw [isMalleated32Width_iff] at h3
  obtain ⟨x, t, hd, ht, h0⟩ := h3
  refine ⟨x, t, hd, ?_, ht, ?_⟩
  · rintro rfl; exact h0 ht.symm
  · have hlen : d.length - malleated32Loop d (d.length + 1) (2 ^ 0) = (x ++ t).length := by
      rw [← ht]
      conv_lhs => rw [hd]
      simp only [List.length_append]; omega
    rw [hlen, h1, isMalleable32Width_iff _ _ (by rw [h1] at ht; have : 0 < 2 ^ k := Nat.pos_of_ne_zero (by simp); rw [List.length_append]; omega)] at h2
    obtain ⟨q, h4, h5, h6⟩ := h2
    rw [hd] at hr
    exact (root_duplicate H k q x t r (by rw [ht, h1]) h4 h5 h6).1 hr

/-- A block whose transaction hashes are distinct is never reported malleated. -/
theorem C16_distinct_not_reported (d : List α) (h : d.Nodup) : isMalleated32 d = false := by
  unfold isMalleated32
  rw [decide_eq_false_iff_not, not_not]
  by_contra hne
  obtain ⟨k, h1, _, h3⟩ := malleated32Loop_sound d (d.length + 1) 0 _ rfl hne
  rw [isMalleated32Width_iff] at h3
  obtain ⟨x, t, hd, ht, h0⟩ := h3
  rw [hd, List.append_assoc] at h
  have h' := (List.nodup_append.1 h).2.1
  cases t with
  | nil => exact h0 ht.symm
  | cons a t =>
    have := (List.nodup_append.1 h').2.2 a (by simp) a (by simp)
    exact this rfl

/-- The CVE-2012-2459 mutation: for any block of `2 ^ k * q` transactions with `q` odd and not one, repeating the last
`2 ^ k` of them keeps the root and is reported. -/
theorem C16_mutation_reported (H : α → α → α) (k q : Nat) (x t : List α) (r : α) (ht : t.length = 2 ^ k)
    (hq : (x ++ t).length = 2 ^ k * q) (ho : q % 2 = 1) (h1 : q ≠ 1) (hr : IsRoot H (x ++ t) r) :
    IsRoot H (x ++ t ++ t) r ∧ isMalleated32 (x ++ t ++ t) = true := by
  refine ⟨(root_duplicate H k q x t r ht hq ho h1).2 hr, ?_⟩
  have hpos : 0 < 2 ^ k := Nat.pos_of_ne_zero (by simp)
  unfold isMalleated32 malleated32Size
  rw [decide_eq_true_eq]
  have hl : (x ++ t ++ t).length = (x ++ t).length + 2 ^ k := by rw [List.length_append (as := x ++ t), ht]
  refine malleated32Loop_complete _ k ?_ ?_ ?_ _ 0 (by omega) ?_
  · simp only [List.length_append]; omega
  · rw [hl, Nat.add_sub_cancel, isMalleable32Width_iff _ _ (by rw [List.length_append]; omega)]
    exact ⟨q, hq, ho, h1⟩
  · rw [isMalleated32Width_iff]
    exact ⟨x, t, rfl, ht, by omega⟩
  · rw [hl]; omega

omit [DecidableEq α] in
/-- A block can be malleated exactly if its transaction count is neither zero nor a power of two. -/
theorem C16_malleable_iff (n : Nat) : isMalleable32 n = true ↔ n ≠ 0 ∧ ∀ k, n ≠ 2 ^ k := by
  have hloop : ∀ fuel j, n < fuel + 2 ^ j → n ≠ 0 →
      (malleableLoop n fuel (2 ^ j) = true ↔ ∃ k, j ≤ k ∧ ∃ q, n = 2 ^ k * q ∧ q % 2 = 1 ∧ q ≠ 1) := by
    intro fuel
    induction fuel with
    | zero =>
      intro j h h0
      simp only [malleableLoop, Bool.false_eq_true, false_iff]
      rintro ⟨k, hk, q, h1, h2, _⟩
      have := Nat.pow_le_pow_right (n := 2) (by omega) hk
      have : 2 ^ k ≤ 2 ^ k * q := Nat.le_mul_of_pos_right _ (by omega)
      omega
    | succ fuel ih =>
      intro j h h0
      unfold malleableLoop
      have hpos : 0 < 2 ^ j := Nat.pos_of_ne_zero (by simp)
      split
      · split
        · rename_i hc
          rw [isMalleable32Width_iff _ _ h0] at hc
          simp only [true_iff]
          exact ⟨j, le_refl _, hc⟩
        · rename_i hc
          rw [isMalleable32Width_iff _ _ h0] at hc
          rw [← pow_succ, ih (j + 1) (by rw [pow_succ]; omega) h0]
          constructor
          · rintro ⟨k, hk, hq⟩; exact ⟨k, by omega, hq⟩
          · rintro ⟨k, hk, hq⟩
            rcases Nat.eq_or_lt_of_le hk with rfl | hlt
            · exact absurd hq hc
            · exact ⟨k, hlt, hq⟩
      · simp only [Bool.false_eq_true, false_iff]
        rintro ⟨k, hk, q, h1, h2, _⟩
        have := Nat.pow_le_pow_right (n := 2) (by omega) hk
        have : 2 ^ k ≤ 2 ^ k * q := Nat.le_mul_of_pos_right _ (by omega)
        omega
  by_cases h0 : n = 0
  · subst h0
    have : isMalleable32 0 = false := by decide
    simp [this]
  · unfold isMalleable32
    have := hloop (n + 1) 0 (by omega) h0
    rw [pow_zero] at this
    rw [this]
    constructor
    · rintro ⟨k, _, q, h1, h2, h3⟩
      refine ⟨h0, ?_⟩
      intro j hj
      have hq : q ∣ 2 ^ j := by rw [← hj, h1]; exact Nat.dvd_mul_left q (2 ^ k)
      obtain ⟨m, _, hm⟩ := (Nat.dvd_prime_pow Nat.prime_two).1 hq
      cases m with
      | zero => exact h3 (by simpa using hm)
      | succ m => rw [hm, pow_succ] at h2; omega
    · rintro ⟨_, h⟩
      obtain ⟨k, m, hm, hk⟩ := Nat.exists_eq_two_pow_mul_odd h0
      refine ⟨k, by omega, m, hk, Nat.odd_iff.1 hm, ?_⟩
      rintro rfl
      exact h k (by simpa using hk)

omit [DecidableEq α] in
theorem level_injective {H : α → α → α} (hH : Function.Injective2 H) : ∀ (x y : List α), x.Nodup → y.Nodup →
    level H x = level H y → x = y
  | [], [], _, _, _ => rfl
  | [], [_], _, _, h => by simp [level] at h
  | [], _ :: _ :: _, _, _, h => by simp [level] at h
  | [_], [], _, _, h => by simp [level] at h
  | _ :: _ :: _, [], _, _, h => by simp [level] at h
  | [a], [b], _, _, h => by simp only [level, List.cons.injEq, and_true] at h; rw [(hH h).1]
  | [a], b :: c :: rest, _, h2, h => by
    simp only [level, List.cons.injEq] at h
    obtain ⟨h3, h4⟩ := hH h.1
    simp [← h3, ← h4] at h2
  | b :: c :: rest, [a], h2, _, h => by
    simp only [level, List.cons.injEq] at h
    obtain ⟨h3, h4⟩ := hH h.1
    simp [h3, h4] at h2
  | a :: b :: x, c :: d :: y, h1, h2, h => by
    simp only [level, List.cons.injEq] at h
    obtain ⟨h3, h4⟩ := hH h.1
    rw [h3, h4, level_injective hH x y (List.nodup_cons.1 (List.nodup_cons.1 h1).2).2
      (List.nodup_cons.1 (List.nodup_cons.1 h2).2).2 h.2]

omit [DecidableEq α] in
/-- Members of a level are hashes of members below. -/
theorem mem_level {H : α → α → α} : ∀ (x : List α) (v : α), v ∈ level H x → ∃ a ∈ x, ∃ b ∈ x, v = H a b
  | [], v, h => by simp [level] at h
  | [a], v, h => by simp only [level, List.mem_singleton] at h; exact ⟨a, by simp, a, by simp, h⟩
  | a :: b :: x, v, h => by
    simp only [level, List.mem_cons] at h
    rcases h with h | h
    · exact ⟨a, by simp, b, by simp, h⟩
    · obtain ⟨c, hc, d, hd, e⟩ := mem_level x v h
      exact ⟨c, by simp [hc], d, by simp [hd], e⟩

omit [DecidableEq α] in
theorem level_nodup {H : α → α → α} (hH : Function.Injective2 H) : ∀ (x : List α), x.Nodup → (level H x).Nodup
  | [], _ => by simp [level]
  | [_], _ => by simp [level]
  | a :: b :: x, h => by
    simp only [level, List.nodup_cons]
    obtain ⟨h1, h2⟩ := List.nodup_cons.1 h
    obtain ⟨h3, h4⟩ := List.nodup_cons.1 h2
    refine ⟨?_, level_nodup hH x h4⟩
    intro hm
    obtain ⟨c, hc, d, hd, e⟩ := mem_level x _ hm
    obtain ⟨e1, e2⟩ := hH e
    exact h3 (e2 ▸ hd)

omit [DecidableEq α] in
theorem level_mem_below {H : α → α → α} : ∀ (x : List α) (a : α), a ∈ x → ∃ s, H a s ∈ level H x ∨ H s a ∈ level H x
  | [], a, h => by simp at h
  | [b], a, h => by simp only [List.mem_singleton] at h; subst h; exact ⟨a, by simp [level]⟩
  | b :: c :: x, a, h => by
    simp only [List.mem_cons] at h
    rcases h with rfl | rfl | h
    · exact ⟨c, by simp [level]⟩
    · exact ⟨b, by simp [level]⟩
    · obtain ⟨s, hs⟩ := level_mem_below x a h
      exact ⟨s, by simp only [level, List.mem_cons]; tauto⟩

omit [DecidableEq α] in
theorem iterate_subset {H : α → α → α} (hH : Function.Injective2 H) : ∀ (h : Nat) (x y : List α),
    (level H)^[h] x = (level H)^[h] y → ∀ a ∈ x, a ∈ y
  | 0, x, y, e, a, ha => (show x = y from e) ▸ ha
  | h + 1, x, y, e, a, ha => by
    rw [Function.iterate_succ_apply, Function.iterate_succ_apply] at e
    have ih := iterate_subset hH h _ _ e
    obtain ⟨s, hs⟩ := level_mem_below (H := H) x a ha
    rcases hs with hs | hs
    · obtain ⟨c, hc, d, _, e1⟩ := mem_level y _ (ih _ hs)
      exact (hH e1).1 ▸ hc
    · obtain ⟨c, _, d, hd, e1⟩ := mem_level y _ (ih _ hs)
      exact (hH e1).2 ▸ hd

omit [DecidableEq α] in
theorem iterate_injective {H : α → α → α} (hH : Function.Injective2 H) : ∀ (h : Nat) (x y : List α), x.Nodup → y.Nodup →
    (level H)^[h] x = (level H)^[h] y → x = y
  | 0, x, y, _, _, e => e
  | h + 1, x, y, hx, hy, e => by
    rw [Function.iterate_succ_apply, Function.iterate_succ_apply] at e
    exact level_injective hH x y hx hy (iterate_injective hH h _ _ (level_nodup hH x hx) (level_nodup hH y hy) e)

omit [DecidableEq α] in
theorem Spec.IsRoot.iterate {H : α → α → α} {l : List α} {r : α} (h : IsRoot H l r) : l ≠ [] ∧ ∃ n, (level H)^[n] l = [r] := by
  induction h with
  | one a => exact ⟨by simp, 0, rfl⟩
  | up l r h _ ih =>
    obtain ⟨_, n, hn⟩ := ih
    refine ⟨by rintro rfl; simp at h, n + 1, ?_⟩
    rw [Function.iterate_succ_apply]; exact hn

omit [DecidableEq α] in
/-- The root commits to the transactions: without hash collisions and without leaf/node confusion (no leaf is the hash of a
pair), two lists of distinct hashes with the same root are the same list. -/
theorem C16_commitment {H : α → α → α} (hH : Function.Injective2 H) (x y : List α) (hx : x.Nodup) (hy : y.Nodup)
    (hl : ∀ a ∈ x ++ y, ∀ b c, a ≠ H b c) (r : α) (h1 : IsRoot H x r) (h2 : IsRoot H y r) : x = y := by
  have aux : ∀ (x y : List α), x ≠ [] → (∀ a ∈ x, ∀ b c, a ≠ H b c) → ∀ n m, n < m →
      (level H)^[n] x = (level H)^[m] y → False := by
    intro x y hx hl n m hlt e
    obtain ⟨k, rfl⟩ : ∃ k, m = n + (k + 1) := ⟨m - n - 1, by omega⟩
    rw [Function.iterate_add_apply] at e
    have := iterate_subset hH n _ _ e
    cases x with
    | nil => exact hx rfl
    | cons a x =>
      have ha := this a (by simp)
      rw [Function.iterate_succ_apply'] at ha
      obtain ⟨b, _, c, _, e⟩ := mem_level _ _ ha
      exact hl a (by simp) b c e
  obtain ⟨hx0, n, hn⟩ := h1.iterate
  obtain ⟨hy0, m, hm⟩ := h2.iterate
  rcases Nat.lt_trichotomy n m with h | h | h
  · exact (aux x y hx0 (fun a ha => hl a (by simp [ha])) n m h (by rw [hn, hm])).elim
  · subst h
    exact iterate_injective hH n x y hx hy (by rw [hn, hm])
  · exact (aux y x hy0 (fun a ha => hl a (by simp [ha])) m n h (by rw [hn, hm])).elim

example : ∀ n m : Nat, IsRoot Tree.node [.leaf 1, .leaf 2] (.node (.leaf 1) (.leaf 2)) ∧
    ([.leaf 1, .leaf 2] : List Tree).Nodup ∧ Tree.leaf n ≠ .node (.leaf n) (.leaf m) :=
  fun _ _ => ⟨.up _ _ (by simp) (.one _), by decide, by simp⟩

/-- Detection is incomplete. No block with an odd number of transactions is ever reported, yet repeating `5` twice in the
block `[1,2,3,4,5]` gives a block of seven transactions with the same root (as would one or three times, which are
reported). -/
theorem C16_odd_counterexample :
    (∀ d : List α, d.length % 2 = 1 → isMalleated32 d = false) ∧
    ∃ x y : List Tree, x ≠ y ∧ x.Nodup ∧ isMalleated32 y = false ∧
      (∃ t, y = x ++ t) ∧ ∃ r, IsRoot Tree.node x r ∧ IsRoot Tree.node y r := by
  constructor
  · intro d hd
    unfold isMalleated32
    rw [decide_eq_false_iff_not, not_not]
    by_contra hne
    obtain ⟨k, h1, h2, h3⟩ := malleated32Loop_sound d (d.length + 1) 0 _ rfl hne
    rw [h1] at h2 h3
    have hle : 2 ^ k ≤ d.length / 2 := by
      rw [isMalleated32Width_iff] at h3
      obtain ⟨x, t, rfl, ht, _⟩ := h3
      simp only [List.length_append]; omega
    have hpos : 0 < 2 ^ k := Nat.pos_of_ne_zero (by simp)
    rw [isMalleable32Width_iff _ _ (by omega)] at h2
    obtain ⟨q, h4, h5, _⟩ := h2
    cases k with
    | zero => simp at h4; omega
    | succ k =>
      have e : 2 ^ (k + 1) * q = 2 * (2 ^ k * q) := by ring
      rw [e] at h4
      have e2 : 2 ^ (k + 1) = 2 * 2 ^ k := by ring
      omega
  · refine ⟨[1, 2, 3, 4, 5].map .leaf, [1, 2, 3, 4, 5, 5, 5].map .leaf, by decide, by decide, by decide,
      ⟨[.leaf 5, .leaf 5], by decide⟩, ?_⟩
    let n12 := Tree.node (.leaf 1) (.leaf 2)
    let n34 := Tree.node (.leaf 3) (.leaf 4)
    let n55 := Tree.node (.leaf 5) (.leaf 5)
    refine ⟨.node (.node n12 n34) (.node n55 n55), ?_, ?_⟩
    · exact .up _ _ (by decide) (.up _ _ (by decide) (.up _ _ (by decide) (.one _)))
    · exact .up _ _ (by decide) (.up _ _ (by decide) (.up _ _ (by decide) (.one _)))

end Verif.Merkle
