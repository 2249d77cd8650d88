import Verif.Spec.Writer
import Verif.Model.Chain
/-!
# C93 writers over a fixed buffer
-/
namespace Verif.Writer
open Verif

theorem store_length (mem : Bytes) (i : Nat) (d : Bytes) (h : i + d.length ≤ mem.length) : (store mem i d).length = mem.length := by
  unfold store
  simp only [List.length_append, List.length_take, List.length_drop]
  omega

theorem store_get (mem : Bytes) (i : Nat) (d : Bytes) (h : i + d.length ≤ mem.length) (j : Nat) (hj : j < i ∨ i + d.length ≤ j) :
    (store mem i d)[j]? = mem[j]? := by
  unfold store
  rcases hj with hj | hj
  · rw [List.append_assoc, List.getElem?_append_left (by rw [List.length_take]; omega), List.getElem?_take, if_pos hj]
  · rw [List.getElem?_append_right (by simp only [List.length_append, List.length_take]; omega), List.getElem?_drop]
    congr 1
    simp only [List.length_append, List.length_take]
    omega

/-- The region is inside the memory and the cursor inside the region. -/
structure Inside (s : S) : Prop where
  region : s.base + s.size ≤ s.mem.length
  cursor : s.pos ≤ s.size

/-- `t` differs from `s` only inside the region of `s`. -/
structure Within (s t : S) : Prop where
  base : t.base = s.base
  size : t.size = s.size
  length : t.mem.length = s.mem.length
  outside : ∀ j, j < s.base ∨ s.base + s.size ≤ j → t.mem[j]? = s.mem[j]?

theorem Within.refl (s : S) : Within s s := ⟨rfl, rfl, rfl, fun _ _ => rfl⟩

theorem Within.trans {a b c : S} (h : Within a b) (k : Within b c) : Within a c :=
  ⟨k.base.trans h.base, k.size.trans h.size, k.length.trans h.length, fun j hj => by
    rw [k.outside j (by rw [h.base, h.size]; exact hj), h.outside j hj]⟩

theorem write_safe (d : Bytes) (s : S) (h : Inside s) : Inside (write d s) ∧ Within s (write d s) := by
  obtain ⟨h1, h2⟩ := h
  unfold write
  split
  · exact ⟨⟨h1, h2⟩, ⟨rfl, rfl, rfl, fun _ _ => rfl⟩⟩
  · rename_i ho
    simp only [overflow, Bool.or_eq_true, decide_eq_true_eq, Bool.not_eq_true', not_or, Bool.not_eq_false] at ho
    have hl : s.base + s.pos + d.length ≤ s.mem.length := by omega
    refine ⟨⟨?_, ?_⟩, ⟨rfl, rfl, store_length _ _ _ hl, fun j hj => store_get _ _ _ hl j (by omega)⟩⟩
    · dsimp only
      rw [store_length _ _ _ hl]
      exact h1
    · dsimp only
      omega

theorem read_safe (n : Nat) (s : S) (h : Inside s) : Inside (read n s).2 ∧ (read n s).2.mem = s.mem ∧
    (read n s).2.base = s.base ∧ (read n s).2.size = s.size := by
  obtain ⟨h1, h2⟩ := h
  unfold read overflow
  split
  · exact ⟨⟨h1, h2⟩, rfl, rfl, rfl⟩
  · dsimp only
    split
    · exact ⟨⟨h1, h2⟩, rfl, rfl, rfl⟩
    · rename_i ho
      simp only [Bool.or_eq_true, decide_eq_true_eq, not_or] at ho
      exact ⟨⟨h1, by dsimp only; omega⟩, rfl, rfl, rfl⟩

theorem peek_safe (s : S) (h : Inside s) : Inside (peek s).2 ∧ (peek s).2.mem = s.mem ∧ (peek s).2.base = s.base ∧ (peek s).2.size = s.size := by
  obtain ⟨h1, h2⟩ := h
  unfold peek
  repeat' split
  all_goals exact ⟨⟨h1, h2⟩, rfl, rfl, rfl⟩

theorem skip_safe (n : Nat) (s : S) (h : Inside s) : Inside (skip n s) ∧ (skip n s).mem = s.mem ∧
    (skip n s).base = s.base ∧ (skip n s).size = s.size := by
  obtain ⟨h1, h2⟩ := h
  unfold skip
  dsimp only
  repeat' split
  all_goals first
    | exact ⟨⟨h1, h2⟩, rfl, rfl, rfl⟩
    | exact ⟨⟨h1, by dsimp only; omega⟩, rfl, rfl, rfl⟩

theorem rewind_safe (n : Nat) (s : S) (h : Inside s) : Inside (rewind n s) ∧ (rewind n s).mem = s.mem ∧
    (rewind n s).base = s.base ∧ (rewind n s).size = s.size := by
  obtain ⟨h1, h2⟩ := h
  unfold rewind
  dsimp only
  repeat' split
  all_goals first
    | exact ⟨⟨h1, h2⟩, rfl, rfl, rfl⟩
    | exact ⟨⟨h1, by dsimp only; omega⟩, rfl, rfl, rfl⟩

theorem seek_safe (a : Nat) (s : S) (h : Inside s) : Inside (seek a s) ∧ (seek a s).mem = s.mem ∧
    (seek a s).base = s.base ∧ (seek a s).size = s.size := by
  unfold seek
  dsimp only
  have h' : Inside { s with good := true } := ⟨h.region, h.cursor⟩
  repeat' split
  · exact ⟨h', rfl, rfl, rfl⟩
  · exact skip_safe _ _ h'
  · exact rewind_safe _ _ h'

theorem within_of {s t : S} (h : t.mem = s.mem ∧ t.base = s.base ∧ t.size = s.size) : Within s t :=
  ⟨h.2.1, h.2.2, by rw [h.1], fun _ _ => by rw [h.1]⟩

theorem run_safe (p : Plan) : ∀ s : S, Inside s → Inside (p.run s) ∧ Within s (p.run s) := by
  induction p with
  | done => exact fun s h => ⟨h, Within.refl s⟩
  | write d k ih =>
    intro s h
    have h1 := write_safe d s h
    have h2 := ih _ h1.1
    exact ⟨h2.1, h1.2.trans h2.2⟩
  | read n k ih =>
    intro s h
    have h1 := read_safe n s h
    have h2 := ih (Writer.read n s).1 (Writer.read n s).2 h1.1
    exact ⟨h2.1, (within_of h1.2).trans h2.2⟩
  | peek k ih =>
    intro s h
    have h1 := peek_safe s h
    have h2 := ih (Writer.peek s).1 (Writer.peek s).2 h1.1
    exact ⟨h2.1, (within_of h1.2).trans h2.2⟩
  | skip n k ih =>
    intro s h
    have h1 := skip_safe n s h
    have h2 := ih _ h1.1
    exact ⟨h2.1, (within_of h1.2).trans h2.2⟩
  | rewind n k ih =>
    intro s h
    have h1 := rewind_safe n s h
    have h2 := ih _ h1.1
    exact ⟨h2.1, (within_of h1.2).trans h2.2⟩
  | seek n k ih =>
    intro s h
    have h1 := seek_safe n s h
    have h2 := ih _ h1.1
    exact ⟨h2.1, (within_of h1.2).trans h2.2⟩
  | position k ih => exact fun s h => ih _ s h
  | valid k ih => exact fun s h => ih _ s h
  | limit n k ih =>
    intro s h
    have h2 := ih { s with rem := n } ⟨h.region, h.cursor⟩
    exact ⟨h2.1, (within_of (s := s) (t := { s with rem := n }) ⟨rfl, rfl, rfl⟩).trans h2.2⟩
  | invalidate k ih =>
    intro s h
    have h2 := ih { s with good := false } ⟨h.region, h.cursor⟩
    exact ⟨h2.1, (within_of (s := s) (t := { s with good := false }) ⟨rfl, rfl, rfl⟩).trans h2.2⟩

/-- **Memory safety.** Whatever is done with a flipper (or writer) over a buffer, no byte of memory outside the buffer changes and the
position stays within the buffer. -/
theorem C93_confined (mem : Bytes) (base size : Nat) (h : base + size ≤ mem.length) (p : Plan) :
    (p.run (open' mem base size)).mem.length = mem.length ∧
    (∀ j, j < base ∨ base + size ≤ j → (p.run (open' mem base size)).mem[j]? = mem[j]?) ∧
    position (p.run (open' mem base size)) ≤ size := by
  have h1 := run_safe p (open' mem base size) ⟨h, Nat.zero_le _⟩
  refine ⟨h1.2.length, h1.2.outside, ?_⟩
  have := h1.1.cursor
  rw [h1.2.size] at this
  exact this

/-- Memory after a run of writes. -/
theorem writes_eq : ∀ (l : List Bytes) (s : S), Inside s → s.good = true →
    (l.foldl (fun s d => write d s) s).mem = store s.mem (s.base + s.pos) (accepted (s.size - s.pos) l).flatten ∧
    (l.foldl (fun s d => write d s) s).pos = s.pos + (accepted (s.size - s.pos) l).flatten.length ∧
    ((l.foldl (fun s d => write d s) s).good = true ↔ l.flatten.length ≤ s.size - s.pos)
  | [], s, _, hg => by simp [accepted, store, hg]
  | d :: l, s, h, hg => by
    rw [List.foldl_cons, accepted]
    by_cases hd : d.length ≤ s.size - s.pos
    · have hw : write d s = { s with mem := store s.mem (s.base + s.pos) d, pos := s.pos + d.length } := by
        unfold write overflow
        rw [if_neg (by simp only [hg, Bool.not_true, Bool.false_or, decide_eq_true_eq]; omega)]
      have hs := (write_safe d s h).1
      have ih := writes_eq l (write d s) hs (by rw [hw]; exact hg)
      rw [hw] at ih ⊢
      dsimp only at ih
      rw [if_pos hd]
      have hcur := h.cursor
      have hreg := h.region
      have hr : s.size - (s.pos + d.length) = s.size - s.pos - d.length := by omega
      rw [hr] at ih
      refine ⟨?_, ?_, ?_⟩
      · rw [ih.1]
        unfold store
        rw [List.flatten_cons, List.length_append]
        have e1 : s.base + (s.pos + d.length) = s.base + s.pos + d.length := by omega
        rw [e1]
        have hlen : (s.mem.take (s.base + s.pos) ++ d).length = s.base + s.pos + d.length := by
          rw [List.length_append, List.length_take]; omega
        rw [show s.mem.take (s.base + s.pos) ++ d ++ s.mem.drop (s.base + s.pos + d.length) =
          (s.mem.take (s.base + s.pos) ++ d) ++ s.mem.drop (s.base + s.pos + d.length) from rfl,
          List.take_append_of_le_length (by omega), ← hlen, List.take_length, List.drop_append, List.drop_of_length_le (by omega), hlen,
          List.nil_append, List.drop_drop]
        simp only [List.append_assoc]
        congr 4
        omega
      · rw [ih.2.1, List.flatten_cons, List.length_append]; omega
      · rw [ih.2.2, List.flatten_cons, List.length_append]; omega
    · have hw : write d s = { s with good := false } := by
        unfold write overflow
        rw [if_pos (by simp only [hg, Bool.not_true, Bool.false_or, decide_eq_true_eq]; omega)]
      have hstay : ∀ (l : List Bytes) (s : S), s.good = false → l.foldl (fun s d => write d s) s = s := by
        intro l
        induction l with
        | nil => exact fun s _ => rfl
        | cons d l ih =>
          intro s hb
          have e : write d s = s := by
            unfold write overflow
            rw [if_pos (by rw [hb]; rfl)]
            rw [← hb]
          rw [List.foldl_cons, e]
          exact ih s hb
      rw [if_neg hd, hw, hstay l _ rfl]
      refine ⟨?_, rfl, ?_⟩
      · simp [store]
      · simp only [List.flatten_cons, List.length_append, Bool.false_eq_true, false_iff]
        omega

/-- **Writing to a fixed buffer.** The writer ends valid exactly when everything written fits, and then the buffer holds the concatenation
followed by its former content.  Otherwise it holds the writes before the first that did not fit, and nothing after it. -/
theorem C93_writes (mem : Bytes) (base size : Nat) (h : base + size ≤ mem.length) (l : List Bytes) :
    ((l.foldl (fun s d => write d s) (open' mem base size)).good = true ↔ l.flatten.length ≤ size) ∧
    (l.foldl (fun s d => write d s) (open' mem base size)).mem =
      mem.take base ++ (accepted size l).flatten ++ mem.drop (base + (accepted size l).flatten.length) ∧
    position (l.foldl (fun s d => write d s) (open' mem base size)) = (accepted size l).flatten.length := by
  have h1 := writes_eq l (open' mem base size) ⟨h, Nat.zero_le _⟩ rfl
  simp only [open', Nat.sub_zero, Nat.add_zero, Nat.zero_add] at h1
  refine ⟨h1.2.2, h1.1, h1.2.1⟩

/-- When everything fits everything is accepted. -/
theorem C93_accepted : ∀ (size : Nat) (l : List Bytes), l.flatten.length ≤ size ↔ accepted size l = l
  | size, [] => by simp [accepted]
  | size, d :: l => by
    rw [accepted, List.flatten_cons, List.length_append]
    split
    · have ih := C93_accepted (size - d.length) l
      rw [List.cons.injEq]
      simp only [true_and]
      rw [← ih]; omega
    · constructor
      · intro h; omega
      · intro h; simp at h

/-- Serializing an object into a buffer by any pieces: valid exactly when the buffer has room for all of it, and if it has exactly that
room the buffer is the serialization. -/
theorem C93_transaction (t : Tx) (w : Bool) (pieces : List Bytes) (hp : pieces.flatten = t.toData w) (buffer : Bytes) :
    ((pieces.foldl (fun s d => write d s) (open' buffer 0 buffer.length)).good = true ↔ (t.toData w).length ≤ buffer.length) ∧
    (buffer.length = (t.toData w).length → (pieces.foldl (fun s d => write d s) (open' buffer 0 buffer.length)).mem = t.toData w) := by
  have h := C93_writes buffer 0 buffer.length (by omega) pieces
  rw [hp] at h
  refine ⟨h.1, fun he => ?_⟩
  rw [h.2.1, (C93_accepted _ _).1 (by rw [hp]; omega), hp]
  simp [he]

/-- What was written to a flipper is read back, from anywhere. -/
theorem C93_read_back (s : S) (d : Bytes) (hi : Inside s) (hm : s.rem ≤ maxSize) (hd : d.length ≤ s.rem)
    (hw : (write d s).good = true) :
    (read d.length (rewind d.length (write d s))).1 = d ∧ (read d.length (rewind d.length (write d s))).2.good = true ∧
    (read d.length (rewind d.length (write d s))).2.pos = s.pos + d.length := by
  have hg : overflow s d.length = false := by
    cases ho : overflow s d.length with
    | false => rfl
    | true => simp [write, ho] at hw
  have hg' : s.good = true ∧ d.length ≤ s.size - s.pos := by
    simp only [overflow, Bool.or_eq_false_iff, Bool.not_eq_false', decide_eq_false_iff_not] at hg
    exact ⟨hg.1, by omega⟩
  obtain ⟨h1, h2⟩ := hi
  have e1 : write d s = { s with mem := store s.mem (s.base + s.pos) d, pos := s.pos + d.length } := by
    unfold write; rw [hg]; rfl
  have e2 : rewind d.length (write d s) = { s with mem := store s.mem (s.base + s.pos) d, rem := cadd s.rem d.length } := by
    rw [e1]
    unfold rewind
    dsimp only
    by_cases h0 : d.length = 0
    · rw [if_pos h0]; simp [h0]
    · rw [if_neg h0, if_pos hg'.1, if_neg (by omega), Nat.add_sub_cancel]
  rw [e2]
  unfold read overflow
  rw [if_neg (by simp only [cadd]; omega)]
  dsimp only
  rw [if_neg (by simp only [hg'.1, Bool.not_true, Bool.false_or, decide_eq_true_eq]; omega)]
  refine ⟨?_, hg'.1, rfl⟩
  dsimp only
  unfold store
  have hlen : (s.mem.take (s.base + s.pos)).length = s.base + s.pos := by rw [List.length_take]; omega
  rw [List.append_assoc, List.drop_append, List.drop_of_length_le (by omega), hlen, Nat.sub_self, List.drop_zero, List.nil_append,
    List.take_append_of_le_length (Nat.le_refl _), List.take_length]

/-- A growing sink appends every write whole while its container can grow, and never more than that. -/
theorem C93_push (l : List Bytes) (container : Bytes) (remaining : Nat) :
    (l.foldl (fun c d => (pushWrite c.1 c.2 d).2) (container, remaining)).1 = container ++ l.flatten.take remaining ∧
    (l.foldl (fun c d => (pushWrite c.1 c.2 d).2) (container, remaining)).1.length ≤ container.length + remaining := by
  have h : ∀ (l : List Bytes) (c : Bytes) (r : Nat),
      (l.foldl (fun c d => (pushWrite c.1 c.2 d).2) (c, r)).1 = c ++ l.flatten.take r := by
    intro l
    induction l with
    | nil => simp
    | cons d l ih =>
      intro c r
      rw [List.foldl_cons]
      have e : (pushWrite c r d).2 = (c ++ d.take (min r d.length), r - min r d.length) := rfl
      dsimp only
      rw [e, ih, List.append_assoc, List.flatten_cons, List.take_append]
      by_cases hr : r ≤ d.length
      · rw [Nat.min_eq_left hr, Nat.sub_self, Nat.sub_eq_zero_of_le hr]
      · rw [Nat.min_eq_right (by omega), List.take_length, List.take_of_length_le (l := d) (by omega)]
  refine ⟨h l container remaining, ?_⟩
  rw [h, List.length_append, List.length_take]
  omega

/-- Six bytes of memory, the buffer its middle three: two writes fit, the third does not, and the fourth, which would, is refused too. -/
example : let s := [[1, 2], [], [3, 4], [5]].foldl (fun s d => write d s) (open' [9, 9, 9, 9, 9, 9] 2 3)
    s.mem = [9, 9, 1, 2, 9, 9] ∧ s.good = false ∧ position s = 2 ∧ accepted 3 [[1, 2], [], [3, 4], [5]] = [[1, 2], []] := by decide

example : (read 2 (rewind 2 (write [7, 8] (write [5] (open' [0, 0, 0, 0] 0 4))))).1 = [7, 8] := by decide

/-- A valid stream skips and rewinds exactly when the bytes are there, then stands where it should; a peek is the first byte of a read and
moves nothing, and is invalid at the end and at the limit. -/
theorem C93_moves (s : S) (hg : s.good = true) (n : Nat) :
    ((skip n s).good = true ↔ n ≤ s.rem ∧ n ≤ s.size - s.pos) ∧
    ((skip n s).good = true → position (skip n s) = s.pos + n ∧ (skip n s).rem = s.rem - n) ∧
    ((rewind n s).good = true ↔ n ≤ s.pos) ∧ ((rewind n s).good = true → position (rewind n s) = s.pos - n) ∧
    ((peek s).2.good = true ↔ 1 ≤ s.rem ∧ 1 ≤ s.size - s.pos) ∧
    ((peek s).2.good = true → (peek s).2 = s ∧ (peek s).1 = (read 1 s).1.headD 0) ∧
    ((peek s).2.good = false → (peek s).1 = 0) := by
  have e : ∀ l : Bytes, (l.take 1).headD 0 = l.headD 0 := by intro l; cases l <;> rfl
  refine ⟨?_, ?_, ?_, ?_, ?_, ?_, ?_⟩
  · unfold skip; simp only [hg, if_true]; (repeat' split) <;> simp [hg] <;> omega
  · unfold skip position; simp only [hg, if_true]; (repeat' split) <;> simp <;> omega
  · unfold rewind; simp only [hg, if_true]; (repeat' split) <;> simp [hg] <;> omega
  · unfold rewind position; simp only [hg, if_true]; (repeat' split) <;> simp <;> omega
  · unfold peek overflow; simp only [hg, Bool.not_true, Bool.false_or, decide_eq_true_eq]; (repeat' split) <;> simp [hg] <;> omega
  · unfold peek read overflow
    simp only [hg, Bool.not_true, Bool.false_or, decide_eq_true_eq]
    by_cases h1 : s.rem = 0
    · simp [h1]
    · by_cases h2 : s.size - s.pos < 1
      · simp [h1, h2]
      · have h3 : ¬ s.rem < 1 := by omega
        simp only [h1, h2, h3, if_false, e]
        intro _; exact ⟨trivial, trivial⟩
  · unfold peek overflow; simp only [hg, Bool.not_true, Bool.false_or, decide_eq_true_eq]; (repeat' split) <;> simp [hg]

/-- An absolute positioning, also of an invalid stream, is valid exactly inside the buffer, and goes there (without a limit). -/
theorem C93_seek (s : S) (hi : Inside s) (hr : s.size ≤ s.rem) (a : Nat) :
    ((seek a s).good = true ↔ a ≤ s.size) ∧ (a ≤ s.size → position (seek a s) = a) := by
  have hc := hi.cursor
  unfold seek
  dsimp only
  by_cases h1 : a = s.pos
  · subst h1; simp [position, hc]
  · rw [if_neg h1]
    by_cases h2 : s.pos < a
    · rw [if_pos h2]
      obtain ⟨m1, m2, -⟩ := C93_moves { s with good := true } rfl (a - s.pos)
      refine ⟨m1.trans ?_, fun h => ?_⟩
      · dsimp only; omega
      · have := (m2 (m1.2 (by dsimp only; omega))).1
        rw [this]; dsimp only; omega
    · rw [if_neg h2]
      obtain ⟨-, -, m1, m2, -⟩ := C93_moves { s with good := true } rfl (s.pos - a)
      refine ⟨m1.trans ?_, fun h => ?_⟩
      · dsimp only; omega
      · have := m2 (m1.2 (by dsimp only; omega))
        rw [this]; dsimp only; omega

example : (seek 3 (seek 9 (write [7, 8] (open' [0, 0, 0, 0] 0 4)))).good = true ∧ (seek 9 (write [7, 8] (open' [0, 0, 0, 0] 0 4))).good = false ∧
    (peek (seek 1 (write [7, 8] (open' [0, 0, 0, 0] 0 4)))).1 = 8 := by decide

end Verif.Writer
