import Verif.Model.Merkle
import Verif.Spec.Merkle
import Mathlib.Tactic.Ring
import Mathlib.Tactic.Linarith
import Mathlib.Data.List.Basic
namespace Verif.Merkle
open Spec

variable {α : Type}

theorem level_length (H : α → α → α) : ∀ l : List α, (level H l).length = (l.length + 1) / 2
  | [] => by simp [level]
  | [_] => by simp [level]
  | _ :: _ :: rest => by simp only [level, List.length_cons, level_length H rest]; omega

/-- Hashes of complete pairs. -/
def pairs (H : α → α → α) : List α → List α
  | a :: b :: rest => H a b :: pairs H rest
  | _ => []

theorem pairs_length (H : α → α → α) : ∀ l : List α, (pairs H l).length = l.length / 2
  | [] => by simp [pairs]
  | [_] => by simp [pairs]
  | _ :: _ :: rest => by simp only [pairs, List.length_cons, pairs_length H rest]; omega

theorem evened_cons2 (a b : α) (l : List α) (h : l ≠ []) : evened (a :: b :: l) = a :: b :: evened l := by
  unfold evened
  have : (a :: b :: l).getLast? = l.getLast? := by
    rw [List.getLast?_cons_cons]
    cases l with
    | nil => exact absurd rfl h
    | cons c l => rw [List.getLast?_cons_cons]
  rw [this]
  have hl : (a :: b :: l).length % 2 = l.length % 2 := by simp only [List.length_cons]; omega
  rw [hl]
  split
  · cases l.getLast? <;> simp
  · rfl

theorem level_eq_pairs (H : α → α → α) : ∀ l : List α, level H l = pairs H (evened l)
  | [] => by simp [level, pairs, evened]
  | [_] => by simp [level, pairs, evened]
  | [_, _] => by simp [level, pairs, evened]
  | a :: b :: c :: rest => by
    rw [evened_cons2 a b (c :: rest) (by simp), pairs, level, level_eq_pairs H (c :: rest)]

theorem evened_length (l : List α) : (evened l).length = 2 * ((l.length + 1) / 2) := by
  unfold evened
  split
  · rename_i h
    cases hl : l.getLast? with
    | none => rw [List.getLast?_eq_none_iff] at hl; subst hl; simp at h
    | some a => simp only [List.length_append, List.length_singleton]; omega
  · omega

theorem pairs_get (H : α → α → α) : ∀ (l : List α) (i : Nat) (a b : α), l[2 * i]? = some a → l[2 * i + 1]? = some b →
    (pairs H l)[i]? = some (H a b)
  | [], i, a, b, h, _ => by simp at h
  | [_], i, a, b, _, h => by simp at h
  | x :: y :: rest, 0, a, b, ha, hb => by simp at ha hb; simp [pairs, ha, hb]
  | x :: y :: rest, i + 1, a, b, ha, hb => by
    have e1 : 2 * (i + 1) = 2 * i + 1 + 1 := by ring
    rw [e1] at ha hb
    simp only [List.getElem?_cons_succ] at ha hb
    simp only [pairs, List.getElem?_cons_succ]
    exact pairs_get H rest i a b ha hb

/-- The vector after `n` blocks: results in front, untouched digests behind. -/
def stateAt (H : α → α → α) (d : List α) (n : Nat) : List α := (pairs H d).take n ++ d.drop n

theorem stateAt_length (H : α → α → α) (d : List α) (n : Nat) (h : n ≤ d.length / 2) : (stateAt H d n).length = d.length := by
  simp only [stateAt, List.length_append, List.length_take, List.length_drop, pairs_length]; omega

theorem stateAt_get (H : α → α → α) (d : List α) (n i : Nat) (h : n ≤ d.length / 2) (hi : n ≤ i) :
    (stateAt H d n)[i]? = d[i]? := by
  have : ((pairs H d).take n).length = n := by simp only [List.length_take, pairs_length]; omega
  rw [stateAt, List.getElem?_append_right (by omega), this, List.getElem?_drop]
  congr 1; omega

theorem stateAt_drop (H : α → α → α) (d : List α) (n i : Nat) (h : n ≤ d.length / 2) (hi : n ≤ i) :
    (stateAt H d n).drop i = d.drop i := by
  have : ((pairs H d).take n).length = n := by simp only [List.length_take, pairs_length]; omega
  rw [stateAt, List.drop_append_of_le_length' this hi]
where
  List.drop_append_of_le_length' {x y : List α} {n i : Nat} (hx : x.length = n) (hi : n ≤ i) :
      (x ++ y.drop n).drop i = y.drop i := by
    rw [List.drop_append, List.drop_eq_nil_of_le (by omega), List.nil_append, List.drop_drop]
    congr 1; omega

theorem merkleLoop_eq (H : α → α → α) (d : List α) : ∀ n i, i + n ≤ d.length / 2 →
    merkleLoop H n i (stateAt H d i) = some (stateAt H d (i + n))
  | 0, i, _ => rfl
  | n + 1, i, h => by
    have h1 : 2 * i < d.length := by omega
    have h2 : 2 * i + 1 < d.length := by omega
    unfold merkleLoop
    rw [stateAt_get H d i (2 * i) (by omega) (by omega), stateAt_get H d i (2 * i + 1) (by omega) (by omega),
      List.getElem?_eq_getElem h1, List.getElem?_eq_getElem h2]
    simp only
    have hp := pairs_get H d i _ _ (List.getElem?_eq_getElem h1) (List.getElem?_eq_getElem h2)
    have hs : (stateAt H d i).set i (H d[2 * i] d[2 * i + 1]) = stateAt H d (i + 1) := by
      have hl : ((pairs H d).take i).length = i := by simp only [List.length_take, pairs_length]; omega
      have hlt : i < (pairs H d).length := by rw [pairs_length]; omega
      rw [stateAt, List.set_append_right _ _ (by omega), hl, Nat.sub_self]
      have hd : d.drop i = d[i] :: d.drop (i + 1) := List.drop_eq_getElem_cons (by omega)
      rw [hd, List.set_cons_zero, stateAt, List.take_add_one, hp]
      simp
    rw [hs, merkleLoop_eq H d n (i + 1) (by omega)]
    congr 2; omega

theorem stateAt_zero (H : α → α → α) (d : List α) : stateAt H d 0 = d := by simp [stateAt]

theorem merkleHashFrom_eq (H : α → α → α) (d : List α) (i : Nat) (h : i ≤ d.length / 2) :
    merkleHashFrom H (stateAt H d i) i = some (pairs H d) := by
  unfold merkleHashFrom
  rw [stateAt_length H d i h, merkleLoop_eq H d _ i (by omega)]
  have : i + (d.length / 2 - i) = d.length / 2 := by omega
  rw [this, Option.map_some, stateAt, List.take_append_of_le_length (by rw [List.length_take, pairs_length]; omega)]
  rw [List.take_take, List.take_of_length_le (by rw [pairs_length]; omega)]

theorem laneHashes_eq (H : α → α → α) : ∀ (n : Nat) (l : List α), n ≤ l.length / 2 →
    laneHashes H n l = some ((pairs H l).take n)
  | 0, l, _ => by simp [laneHashes]
  | n + 1, [], h => by simp at h
  | n + 1, [_], h => by simp at h
  | n + 1, a :: b :: rest, h => by
    rw [laneHashes, laneHashes_eq H n rest (by simp only [List.length_cons] at h; omega)]
    simp [pairs]

theorem pairs_drop (H : α → α → α) : ∀ (n : Nat) (l : List α), pairs H (l.drop (2 * n)) = (pairs H l).drop n
  | 0, l => by simp
  | n + 1, [] => by simp [pairs]
  | n + 1, [_] => by rw [List.drop_eq_nil_of_le (by simp; omega)]; simp [pairs]
  | n + 1, a :: b :: rest => by
    have e1 : 2 * (n + 1) = 2 * n + 1 + 1 := by ring
    rw [e1]
    simp only [List.drop_succ_cons, pairs]
    exact pairs_drop H n rest

theorem vectorRound_eq (H : α → α → α) (lanes : Nat) (d : List α) : ∀ fuel next, next ≤ d.length / 2 →
    ∃ next', next' ≤ d.length / 2 ∧ next ≤ next' ∧ vectorRound H lanes fuel next (stateAt H d next) = some (next', stateAt H d next')
  | 0, next, h => ⟨next, h, le_refl _, rfl⟩
  | fuel + 1, next, h => by
    unfold vectorRound
    rw [stateAt_length H d next h]
    split
    · rename_i hc
      rw [stateAt_drop H d next (2 * next) h (by omega), laneHashes_eq H lanes _ (by rw [List.length_drop]; omega)]
      simp only
      have hl : ((pairs H d).take next).length = next := by simp only [List.length_take, pairs_length]; omega
      have hs : (stateAt H d next).take next ++ (pairs H (d.drop (2 * next))).take lanes ++ (stateAt H d next).drop (next + lanes) =
          stateAt H d (next + lanes) := by
        rw [stateAt_drop H d next _ h (by omega), pairs_drop, stateAt, List.take_append_of_le_length (by omega),
          List.take_of_length_le (by omega), stateAt, List.take_add]
      rw [hs]
      obtain ⟨n', h1, h2, h3⟩ := vectorRound_eq H lanes d fuel (next + lanes) (by omega)
      exact ⟨n', h1, by omega, h3⟩
    · exact ⟨next, h, le_refl _, rfl⟩

theorem rounds_eq (H : α → α → α) (d : List α) : ∀ lanes next, next ≤ d.length / 2 →
    ∃ next', next' ≤ d.length / 2 ∧ merkleHashVector.rounds H lanes next (stateAt H d next) = some (next', stateAt H d next')
  | [], next, h => ⟨next, h, rfl⟩
  | l :: ls, next, h => by
    unfold merkleHashVector.rounds
    obtain ⟨n', h1, _, h3⟩ := vectorRound_eq H l d (stateAt H d next).length next h
    rw [h3]
    exact rounds_eq H d ls n' h1

/-- Every build hashes the complete pairs. -/
theorem merkleHash_eq (H : α → α → α) (build : Build) (d : List α) : merkleHash H build d = some (pairs H d) := by
  have h0 := merkleHashFrom_eq H d 0 (by omega)
  rw [stateAt_zero] at h0
  cases build with
  | scalar => exact h0
  | vector m ls =>
    unfold merkleHash merkleHashVector
    simp only
    split
    · obtain ⟨n', h1, h2⟩ := rounds_eq H d ls 0 (by omega)
      rw [stateAt_zero] at h2
      rw [h2]
      exact merkleHashFrom_eq H d n' h1
    · exact h0

theorem merkleHash_evened (H : α → α → α) (build : Build) (d : List α) :
    merkleHash H build (evened d) = some (level H d) := by
  rw [merkleHash_eq, level_eq_pairs]

theorem Spec.IsRoot.unique {H : α → α → α} {l : List α} {r s : α} (h1 : IsRoot H l r) (h2 : IsRoot H l s) : r = s := by
  induction h1 with
  | one a => cases h2 with
    | one => rfl
    | up _ _ h => simp at h
  | up l r h _ ih => cases h2 with
    | one => simp at h
    | up _ _ _ h' => exact ih h'

theorem rootLoop_eq (H : α → α → α) (build : Build) : ∀ (fuel : Nat) (d : List α), d ≠ [] → d.length ≤ fuel + 1 →
    ∃ r, rootLoop H build fuel d = some [r] ∧ IsRoot H d r
  | 0, d, h0, h => by
    match d with
    | [a] => exact ⟨a, rfl, .one a⟩
    | a :: b :: l => simp at h
  | fuel + 1, d, h0, h => by
    match d with
    | [a] => exact ⟨a, rfl, .one a⟩
    | a :: b :: l =>
      unfold rootLoop
      rw [if_neg (by simp), merkleHash_evened]
      have hl := level_length H (a :: b :: l)
      obtain ⟨r, h1, h2⟩ := rootLoop_eq H build fuel (level H (a :: b :: l)) (by simp [level]) (by
        rw [hl]; simp only [List.length_cons] at h ⊢; omega)
      exact ⟨r, h1, .up _ _ (by simp) h2⟩

theorem evened_get (l : List α) (i : Nat) (h : i < l.length) : (evened l)[i]? = l[i]? := by
  unfold evened
  split
  · cases l.getLast? with
    | none => rfl
    | some a => rw [List.getElem?_append_left h]
  · rfl

theorem level_get (H : α → α → α) (l : List α) (pos : Nat) (h : pos < l.length) :
    ∃ a s, l[pos]? = some a ∧ (evened l)[if pos % 2 = 0 then pos + 1 else pos - 1]? = some s ∧
      (level H l)[pos / 2]? = some (if pos % 2 = 0 then H a s else H s a) := by
  have hlen := evened_length l
  have hg : ∀ i, i < (evened l).length → ∃ x, (evened l)[i]? = some x := fun i hi => ⟨_, List.getElem?_eq_getElem hi⟩
  obtain ⟨a, ha⟩ : ∃ x, l[pos]? = some x := ⟨_, List.getElem?_eq_getElem h⟩
  have ha' : (evened l)[pos]? = some a := by rw [evened_get l pos h, ha]
  by_cases he : pos % 2 = 0
  · obtain ⟨s, hs⟩ := hg (pos + 1) (by omega)
    refine ⟨a, s, ha, by rw [if_pos he]; exact hs, ?_⟩
    rw [if_pos he, level_eq_pairs]
    have e : 2 * (pos / 2) = pos := by omega
    exact pairs_get H _ _ _ _ (by rw [e]; exact ha') (by rw [e]; exact hs)
  · obtain ⟨s, hs⟩ := hg (pos - 1) (by omega)
    refine ⟨a, s, ha, by rw [if_neg he]; exact hs, ?_⟩
    rw [if_neg he, level_eq_pairs]
    have e : 2 * (pos / 2) = pos - 1 := by omega
    have e1 : pos - 1 + 1 = pos := by omega
    exact pairs_get H _ _ _ _ (by rw [e]; exact hs) (by rw [e, e1]; exact ha')

theorem branchLoop_eq (H : α → α → α) (build : Build) : ∀ (fuel : Nat) (d : List α) (pos : Nat), pos < d.length →
    d.length ≤ fuel + 1 → ∃ leaf br, d[pos]? = some leaf ∧ branchLoop H build fuel pos d = some br ∧
      IsRoot H d (combine H pos leaf br) ∧ d.length ≤ 2 ^ br.length ∧ (1 < d.length → 2 ^ (br.length - 1) < d.length)
        ∧ (br.length = 0 ↔ d.length = 1)
  | 0, d, pos, h0, h => by
    match d with
    | [a] =>
      simp only [List.length_singleton] at h0
      obtain rfl : pos = 0 := by omega
      exact ⟨a, [], rfl, rfl, .one a, by simp, by simp, by simp⟩
    | a :: b :: l => simp at h
  | fuel + 1, d, pos, h0, h => by
    match d with
    | [a] =>
      simp only [List.length_singleton] at h0
      obtain rfl : pos = 0 := by omega
      exact ⟨a, [], rfl, rfl, .one a, by simp, by simp, by simp⟩
    | a :: b :: l =>
      generalize hd : a :: b :: l = d at *
      have hlen : 2 ≤ d.length := by subst hd; simp
      obtain ⟨x, s, hx, hs, hlv⟩ := level_get H d pos h0
      have hl := level_length H d
      obtain ⟨leaf, br, h1, h2, h3, h4, h5, h6⟩ := branchLoop_eq H build fuel (level H d) (pos / 2) (by rw [hl]; omega) (by rw [hl]; omega)
      rw [hlv] at h1
      refine ⟨x, s :: br, hx, ?_, ?_, ?_, ?_, ?_⟩
      · unfold branchLoop
        rw [if_pos (by omega), hs, merkleHash_evened]
        simp only [h2, Option.map_some]
      · refine .up _ _ hlen ?_
        injection h1 with h1
        rw [combine, h1]
        exact h3
      · rw [List.length_cons, pow_succ]; omega
      · intro _
        rw [List.length_cons, Nat.add_sub_cancel]
        rcases Nat.eq_zero_or_pos br.length with hz | hp
        · rw [hz]; simp; omega
        · have := h5 (by rcases Nat.lt_or_ge 1 (level H d).length with hh | hh
                         · exact hh
                         · have : (level H d).length = 1 := by omega
                           have := h6.2 this; omega)
          have e : 2 ^ br.length = 2 * 2 ^ (br.length - 1) := by
            rw [← pow_succ']; congr 1; omega
          omega
      · simp; omega

end Verif.Merkle
