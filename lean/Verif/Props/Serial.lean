import Verif.Model.Serial
import Verif.Spec.Serial
import Verif.Props.Base10

/-! # C100: property trees as JSON -/

namespace Verif.Serial
open Verif Verif.Serial.Spec

/-! ## The reader -/

def White (s : Bytes) : Prop := ∀ c ∈ s, isSpace c = true

theorem skip_white {w : Bytes} (h : White w) (s : Bytes) : skip (w ++ s) = skip s := by
  unfold skip
  induction w with
  | nil => rfl
  | cons c w ih =>
    rw [List.cons_append, List.dropWhile_cons, if_pos (h c (by simp))]
    exact ih fun x hx => h x (by simp [hx])

theorem skip_cons {c : UInt8} (h : isSpace c = false) (s : Bytes) : skip (c :: s) = c :: s := by
  unfold skip
  rw [List.dropWhile_cons, if_neg (by simp [h])]

theorem white_starting (flat : Bool) (d : Nat) : White (starting flat d) := by
  intro c hc
  unfold starting ending at hc
  split at hc
  · simp at hc
  · split at hc
    · simp at hc
    · simp only [if_neg (by assumption), List.mem_cons, List.mem_replicate] at hc
      rcases hc with rfl | ⟨_, rfl⟩ <;> decide

theorem white_ending (flat : Bool) (d : Nat) : White (ending flat d) := by
  intro c hc
  unfold ending at hc
  split at hc
  · simp at hc
  · simp only [List.mem_cons, List.mem_replicate] at hc
    rcases hc with rfl | ⟨_, rfl⟩ <;> decide

theorem quoted_plain : ∀ (s rest : Bytes), Plain s → quoted (s ++ 34 :: rest) = some (s, rest)
  | [], rest, _ => by simp [quoted]
  | c :: s, rest, h => by
    obtain ⟨h1, h2, h3⟩ := h c (by simp)
    rw [List.cons_append, quoted, if_neg h1, if_neg (by rintro (h | h) <;> contradiction), quoted_plain s rest (fun x hx => h x (by simp [hx]))]
    rfl

/-- What may follow a number. -/
def Stop (rest : Bytes) : Prop := ∀ c ∈ rest.head?, Spec.isDigit c = false

theorem takeWhile_digits {d rest : Bytes} (h : ∀ c ∈ d, Spec.isDigit c = true) (hr : Stop rest) :
    (d ++ rest).takeWhile Spec.isDigit = d ∧ (d ++ rest).dropWhile Spec.isDigit = rest := by
  induction d with
  | nil =>
    cases rest with
    | nil => exact ⟨rfl, rfl⟩
    | cons c r =>
      have := hr c (by simp)
      simp [List.takeWhile_cons, List.dropWhile_cons, this]
  | cons c d ih =>
    obtain ⟨h1, h2⟩ := ih fun x hx => h x (by simp [hx])
    rw [List.cons_append, List.takeWhile_cons, List.dropWhile_cons, if_pos (h c (by simp)), if_pos (h c (by simp)), h1, h2]
    exact ⟨rfl, rfl⟩

theorem digits_dec (n : Nat) (rest : Bytes) (hr : Stop rest) : digits (Base10.formatDec n ++ rest) = some (n, rest) := by
  obtain ⟨h1, h2, h3, h4⟩ := Base10.formatDec_spec n
  obtain ⟨t1, t2⟩ := takeWhile_digits (d := Base10.formatDec n) (fun c hc => by
    obtain ⟨a, b⟩ := h2 c hc
    simp [Spec.isDigit, a, b]) hr
  unfold digits
  rw [t1, t2]
  have hz : ¬ ((Base10.formatDec n).head? = some 48 ∧ (Base10.formatDec n).length ≠ 1) := by
    rintro ⟨ha, hb⟩
    have := h4 ha
    subst this
    exact hb (by rw [Base10.formatDec]; rfl)
  rw [if_neg (by rintro (h | h) <;> contradiction)]
  have := Base10.digitsVal_eq (Base10.formatDec n)
  unfold Base10.digitsVal at this
  rw [this, h1]

theorem digit_head (n : Nat) : ∃ c r, Base10.formatDec n = c :: r ∧ Spec.isDigit c = true := by
  obtain ⟨_, h2, h3, _⟩ := Base10.formatDec_spec n
  cases hf : Base10.formatDec n with
  | nil => exact absurd hf h3
  | cons c r =>
    obtain ⟨a, b⟩ := h2 c (by simp [hf])
    exact ⟨c, r, rfl, by simp [Spec.isDigit, a, b]⟩

theorem digit_other {c : UInt8} (h : Spec.isDigit c = true) : isSpace c = false ∧ c ≠ 110 ∧ c ≠ 116 ∧ c ≠ 102 ∧ c ≠ 34 ∧ c ≠ 91 ∧ c ≠ 123 ∧ c ≠ 93 ∧ c ≠ 45 := by
  revert h
  exact Der.byte_forall (p := fun c => Spec.isDigit c = true → isSpace c = false ∧ c ≠ 110 ∧ c ≠ 116 ∧ c ≠ 102 ∧ c ≠ 34 ∧ c ≠ 91 ∧ c ≠ 123 ∧ c ≠ 93 ∧ c ≠ 45) (by decide +kernel) c

theorem number_digit {c : UInt8} (h : c ≠ 45) (r : Bytes) : Spec.number (c :: r) = (digits (c :: r)).map fun x => (.number x.1, x.2) := by
  unfold Spec.number
  split
  · rename_i hh; injection hh with hh; exact absurd hh h
  · rfl

theorem number_dec (n : Int) (rest : Bytes) (hr : Stop rest) : ∃ c b, serialize n = c :: b ∧ isSpace c = false ∧ c ≠ 110 ∧ c ≠ 116 ∧ c ≠ 102 ∧ c ≠ 34 ∧ c ≠ 91 ∧
    c ≠ 123 ∧ c ≠ 93 ∧ Spec.number (c :: (b ++ rest)) = some (.number n, rest) := by
  unfold serialize
  by_cases hn : n < 0
  · rw [if_pos hn]
    refine ⟨45, _, rfl, by decide, by decide, by decide, by decide, by decide, by decide, by decide, by decide, ?_⟩
    rw [Spec.number, digits_dec _ _ hr]
    simp only [Option.map_some]
    congr 3
    omega
  · rw [if_neg hn]
    obtain ⟨c, b, hf, hd⟩ := digit_head n.natAbs
    obtain ⟨h0, h1, h2, h3, h4, h5, h6, h7, h8⟩ := digit_other hd
    refine ⟨c, b, hf, h0, h1, h2, h3, h4, h5, h6, h7, ?_⟩
    rw [number_digit h8, ← List.cons_append, ← hf, digits_dec _ _ hr]
    simp only [Option.map_some]
    congr 3
    omega

/-! ## What is written is read -/

/-- The text of a value: whitespace, then a character that is none and no closing bracket, and it is read as the value. -/
def Reads (s : Bytes) (v : Value) : Prop :=
  (∃ w c b, s = w ++ c :: b ∧ White w ∧ isSpace c = false ∧ c ≠ 93) ∧
  ∀ f rest, s.length < f → Stop rest → value f (s ++ rest) = some (v, rest)

theorem reads_of {w b : Bytes} {c : UInt8} {v : Value} (hw : White w) (hc : isSpace c = false) (h9 : c ≠ 93)
    (h : ∀ f rest, (c :: b).length ≤ f → Stop rest → value (f + 1) (c :: (b ++ rest)) = some (v, rest)) : Reads (w ++ c :: b) v := by
  refine ⟨⟨w, c, b, rfl, hw, hc, h9⟩, fun f rest hf hr => ?_⟩
  cases f with
  | zero => simp at hf
  | succ f =>
    have h1 := h f rest (by simp at hf; simp; omega) hr
    rw [value, skip_cons hc] at h1
    rw [value, List.append_assoc, skip_white hw, List.cons_append, skip_cons hc]
    exact h1

theorem value_cons {f : Nat} {c : UInt8} (hc : isSpace c = false) (r : Bytes) : value (f + 1) (c :: r) =
      if c = 110 then literal [117, 108, 108] .null r
      else if c = 116 then literal [114, 117, 101] (.bool true) r
      else if c = 102 then literal [97, 108, 115, 101] (.bool false) r
      else if c = 34 then (quoted r).map fun x => (.string x.1, x.2)
      else if c = 91 then
        if (skip r).head? = some 93 then some (.array [], (skip r).tail) else (Spec.elements f r).map fun x => (.array x.1, x.2)
      else if c = 123 then
        if (skip r).head? = some 125 then some (.object [], (skip r).tail) else (Spec.members f r).map fun x => (.object x.1, x.2)
      else Spec.number (c :: r) := by
  rw [value, skip_cons hc]

theorem emit_good (s o : Bytes) : emit s (o, true) = (o ++ s, true) := rfl

theorem stop_of {c : UInt8} {r : Bytes} (h : Spec.isDigit c = false) : Stop (c :: r) := by
  intro x hx
  simp at hx; subst hx; exact h

theorem stop_white {w r : Bytes} (hw : White w) (hr : Stop r) : Stop (w ++ r) := by
  cases w with
  | nil => exact hr
  | cons c w =>
    apply stop_of
    have := hw c (by simp)
    revert this
    exact Der.byte_forall (p := fun c => isSpace c = true → Spec.isDigit c = false) (by decide +kernel) c

mutual
theorem write_reads (sp : Bytes → Bool) (flat : Bool) : ∀ (t : Tree) (v : Value), meaning t = some v → AllPlain t → ∀ depth,
    ∃ s, (∀ o, write .json sp flat t depth (o, true) = (o ++ s, true)) ∧ Reads s v
  | .null, v, hm, _, depth => by
    rw [meaning] at hm; cases hm
    refine ⟨_, fun o => by rw [write, emit_good], ?_⟩
    simp only [reduceCtorEq, if_false]
    exact reads_of (white_starting flat depth) (by decide) (by decide) fun f rest _ _ => by
      rw [value_cons (by decide), if_pos rfl]; simp [literal]
  | .true_, v, hm, _, depth => by
    rw [meaning] at hm; cases hm
    refine ⟨_, fun o => by rw [write, emit_good], ?_⟩
    exact reads_of (white_starting flat depth) (by decide) (by decide) fun f rest _ _ => by
      rw [value_cons (by decide), if_neg (by decide), if_pos rfl]; simp [literal]
  | .false_, v, hm, _, depth => by
    rw [meaning] at hm; cases hm
    refine ⟨_, fun o => by rw [write, emit_good], ?_⟩
    exact reads_of (white_starting flat depth) (by decide) (by decide) fun f rest _ _ => by
      rw [value_cons (by decide), if_neg (by decide), if_neg (by decide), if_pos rfl]; simp [literal]
  | .string text, v, hm, hp, depth => by
    rw [meaning] at hm; cases hm
    rw [AllPlain] at hp
    refine ⟨_, fun o => by rw [write, emit_good], ?_⟩
    simp only [stringText, List.cons_append, List.nil_append]
    exact reads_of (white_starting flat depth) (by decide) (by decide) fun f rest _ _ => by
      rw [value_cons (by decide), if_neg (by decide), if_neg (by decide), if_neg (by decide), if_pos rfl, List.append_assoc, List.cons_append, List.nil_append,
        quoted_plain _ _ hp]
      rfl
  | .number n, v, hm, _, depth => by
    rw [meaning] at hm; cases hm
    refine ⟨_, fun o => by rw [write, emit_good], ?_⟩
    obtain ⟨c, b, h0, h1, h2, h3, h4, h5, h6, h7, h8, _⟩ := number_dec n [] (fun c hc => by simp at hc)
    rw [h0]
    refine reads_of (white_starting flat depth) h1 h8 fun f rest _ hr => ?_
    obtain ⟨c', b', h0', _, _, _, _, _, _, _, _, h9⟩ := number_dec n rest hr
    rw [h0] at h0'
    injection h0' with ha hb
    subst ha hb
    rw [value_cons h1, if_neg h2, if_neg h3, if_neg h4, if_neg h5, if_neg h6, if_neg h7, h9]
  | .invalid, v, hm, _, _ => by rw [meaning] at hm; cases hm
  | .array name children, v, hm, hp, depth => by
    rw [meaning] at hm
    rw [AllPlain] at hp
    obtain ⟨vs, h1, h2⟩ := Option.map_eq_some_iff.1 hm
    subst h2
    obtain ⟨s, hs, hr⟩ := elements_reads sp flat name children vs h1 hp (depth + 1)
    refine ⟨starting flat depth ++ 91 :: (s ++ (ending flat depth ++ [93])), fun o => ?_, ?_⟩
    · rw [write]
      show emit (ending flat depth ++ [93]) (elements .json sp flat name children (depth + 1) (emit (starting flat depth ++ [91]) (o, true))) = _
      rw [emit_good, hs, emit_good]
      simp
    · refine reads_of (white_starting flat depth) (by decide) (by decide) fun f rest hf _ => ?_
      rw [value_cons (by decide), if_neg (by decide), if_neg (by decide), if_neg (by decide), if_neg (by decide), if_pos rfl]
      rcases hr with ⟨rfl, rfl⟩ | ⟨⟨w, c, b, he, hw, hc, h9⟩, hr⟩
      · have : skip ([] ++ (ending flat depth ++ [93]) ++ rest) = 93 :: rest := by
          rw [List.nil_append, List.append_assoc, skip_white (white_ending flat depth)]
          exact skip_cons (by decide) rest
        rw [this]; rfl
      · have h1 : (skip (s ++ (ending flat depth ++ [93]) ++ rest)).head? = some c := by
          rw [he, List.append_assoc, List.append_assoc, skip_white hw, List.cons_append, skip_cons hc]; rfl
        rw [h1, if_neg (by simp [h9])]
        have h2 := hr f (ending flat depth) rest (by simp at hf; omega) (white_ending flat depth)
        rw [show s ++ (ending flat depth ++ [93]) ++ rest = s ++ (ending flat depth ++ 93 :: rest) by simp, h2]
        rfl
  | .object children, v, hm, hp, depth => by
    rw [meaning] at hm
    rw [AllPlain] at hp
    obtain ⟨vs, h1, h2⟩ := Option.map_eq_some_iff.1 hm
    subst h2
    obtain ⟨s, hs, hr⟩ := members_reads sp flat children vs h1 hp (depth + 1)
    refine ⟨starting flat depth ++ 123 :: (s ++ (ending flat depth ++ [125])), fun o => ?_, ?_⟩
    · rw [write]
      show emit (ending flat depth ++ [125]) (members .json sp flat children (depth + 1) (emit (starting flat depth ++ [123]) (o, true))) = _
      rw [emit_good, hs, emit_good]
      simp
    · refine reads_of (white_starting flat depth) (by decide) (by decide) fun f rest hf _ => ?_
      rw [value_cons (by decide), if_neg (by decide), if_neg (by decide), if_neg (by decide), if_neg (by decide), if_neg (by decide), if_pos rfl]
      rcases hr with ⟨rfl, rfl⟩ | ⟨⟨w, b, he, hw⟩, hr⟩
      · have : skip ([] ++ (ending flat depth ++ [125]) ++ rest) = 125 :: rest := by
          rw [List.nil_append, List.append_assoc, skip_white (white_ending flat depth)]
          exact skip_cons (by decide) rest
        rw [this]; rfl
      · have h1 : (skip (s ++ (ending flat depth ++ [125]) ++ rest)).head? = some 34 := by
          rw [he, List.append_assoc, List.append_assoc, skip_white hw, List.cons_append, skip_cons (by decide)]; rfl
        rw [h1, if_neg (by decide)]
        have h2 := hr f (ending flat depth) rest (by simp at hf; omega) (white_ending flat depth)
        rw [show s ++ (ending flat depth ++ [125]) ++ rest = s ++ (ending flat depth ++ 125 :: rest) by simp, h2]
        rfl

theorem elements_reads (sp : Bytes → Bool) (flat : Bool) (name : Bytes) : ∀ (l : List Tree) (vs : List Value), meanings l = some vs → ElementsPlain l → ∀ depth,
    ∃ s, (∀ o, elements .json sp flat name l depth (o, true) = (o ++ s, true)) ∧ (s = [] ∧ vs = [] ∨
      (∃ w c b, s = w ++ c :: b ∧ White w ∧ isSpace c = false ∧ c ≠ 93) ∧
      ∀ f w rest, s.length + 1 < f → White w → Spec.elements f (s ++ (w ++ 93 :: rest)) = some (vs, rest))
  | [], vs, hm, _, depth => by
    rw [meanings] at hm; cases hm
    exact ⟨[], fun o => by rw [elements]; simp, .inl ⟨rfl, rfl⟩⟩
  | t :: l, vs, hm, hp, depth => by
    rw [meanings] at hm
    rw [ElementsPlain] at hp
    obtain ⟨v, hv, hm⟩ := Option.bind_eq_some_iff.1 hm
    obtain ⟨vs', hvs, hm⟩ := Option.map_eq_some_iff.1 hm
    subst hm
    obtain ⟨s, hs, ⟨w0, c0, b0, he, hw0, hc0, h90⟩, hr⟩ := write_reads sp flat t v hv hp.1 depth
    obtain ⟨s', hs', hr'⟩ := elements_reads sp flat name l vs' hvs hp.2 depth
    cases l with
    | nil =>
      rw [meanings] at hvs; cases hvs
      refine ⟨s, fun o => ?_, .inr ⟨⟨w0, c0, b0, he, hw0, hc0, h90⟩, fun f w rest hf hw => ?_⟩⟩
      · rw [elements, if_neg (show ¬ Format.json = Format.xml by decide), hs, elements]; rfl
      · cases f with
        | zero => simp at hf
        | succ f =>
          rw [Spec.elements, hr f _ (by omega) (stop_white hw (stop_of (by decide))), Option.bind_some, skip_white hw, skip_cons (by decide)]
          rfl
    | cons t2 l =>
      rcases hr' with ⟨_, rfl⟩ | ⟨_, hr'⟩
      · rw [meanings] at hvs
        obtain ⟨_, _, h⟩ := Option.bind_eq_some_iff.1 hvs
        obtain ⟨_, _, h⟩ := Option.map_eq_some_iff.1 h
        cases h
      · refine ⟨s ++ 44 :: s', fun o => ?_, .inr ⟨⟨w0, c0, b0 ++ 44 :: s', by rw [he]; simp, hw0, hc0, h90⟩, fun f w rest hf hw => ?_⟩⟩
        · rw [elements, if_neg (show ¬ Format.json = Format.xml by decide), hs]
          show elements .json sp flat name (t2 :: l) depth (emit [44] (o ++ s, true)) = _
          rw [emit_good, hs']
          simp
        · cases f with
          | zero => simp at hf
          | succ f =>
            have hlen : 1 ≤ s.length := by rw [he]; simp; omega
            rw [List.length_append, List.length_cons] at hf
            rw [List.append_assoc, List.cons_append, Spec.elements, hr f _ (by omega) (stop_of (by decide)), Option.bind_some, skip_cons (by decide)]
            simp only [List.head?_cons, List.tail_cons, if_true]
            rw [hr' f w rest (by omega) hw]
            rfl

theorem members_reads (sp : Bytes → Bool) (flat : Bool) : ∀ (l : List (Bytes × Tree)) (vs : List (Bytes × Value)), fields l = some vs → MembersPlain l → ∀ depth,
    ∃ s, (∀ o, members .json sp flat l depth (o, true) = (o ++ s, true)) ∧ (s = [] ∧ vs = [] ∨
      (∃ w b, s = w ++ 34 :: b ∧ White w) ∧
      ∀ f w rest, s.length + 1 < f → White w → Spec.members f (s ++ (w ++ 125 :: rest)) = some (vs, rest))
  | [], vs, hm, _, depth => by
    rw [fields] at hm; cases hm
    exact ⟨[], fun o => by rw [members]; simp, .inl ⟨rfl, rfl⟩⟩
  | (name, t) :: l, vs, hm, hp, depth => by
    rw [fields] at hm
    rw [MembersPlain] at hp
    obtain ⟨v, hv, hm⟩ := Option.bind_eq_some_iff.1 hm
    obtain ⟨vs', hvs, hm⟩ := Option.map_eq_some_iff.1 hm
    subst hm
    obtain ⟨s, hs, _, hr⟩ := write_reads sp flat t v hv hp.2.1 (if t.simple then 0 else depth)
    obtain ⟨s', hs', hr'⟩ := members_reads sp flat l vs' hvs hp.2.2 depth
    have hnamed : ∀ o, named .json flat depth name t.simple (write .json sp flat t) (o, true) = (o ++ (starting flat depth ++ 34 :: (name ++ 34 :: 58 :: s)), true) := by
      intro o
      show write .json sp flat t (if t.simple then 0 else depth) (emit (starting flat depth ++ [34] ++ name ++ [34, 58]) (o, true)) = _
      rw [emit_good, hs]
      simp
    have hread : ∀ f rest, s.length < f → Stop rest → Spec.members (f + 1) (starting flat depth ++ 34 :: (name ++ 34 :: 58 :: (s ++ rest))) =
        (if (skip rest).head? = some 44 then (Spec.members f (skip rest).tail).map fun y => ((name, v) :: y.1, y.2)
        else if (skip rest).head? = some 125 then some ([(name, v)], (skip rest).tail)
        else none) := by
      intro f rest hf hst
      rw [Spec.members, skip_white (white_starting flat depth), skip_cons (by decide)]
      simp only [List.head?_cons, List.tail_cons, if_true]
      rw [quoted_plain _ _ hp.1, Option.bind_some]
      dsimp only
      rw [skip_cons (by decide)]
      simp only [List.head?_cons, List.tail_cons, if_true]
      rw [hr f rest hf hst, Option.bind_some]
    cases l with
    | nil =>
      rw [fields] at hvs; cases hvs
      refine ⟨starting flat depth ++ 34 :: (name ++ 34 :: 58 :: s), fun o => ?_, .inr ⟨⟨starting flat depth, _, rfl, white_starting flat depth⟩, fun f w rest hf hw => ?_⟩⟩
      · rw [members, hnamed, members]; rfl
      · cases f with
        | zero => simp at hf
        | succ f =>
          have := hread f (w ++ 125 :: rest) (by simp at hf; omega) (stop_white hw (stop_of (by decide)))
          simp only [List.append_assoc, List.cons_append]
          rw [this, skip_white hw, skip_cons (by decide)]
          rfl
    | cons t2 l =>
      rcases hr' with ⟨_, rfl⟩ | ⟨_, hr'⟩
      · obtain ⟨n2, t2⟩ := t2
        rw [fields] at hvs
        obtain ⟨_, _, h⟩ := Option.bind_eq_some_iff.1 hvs
        obtain ⟨_, _, h⟩ := Option.map_eq_some_iff.1 h
        cases h
      · refine ⟨starting flat depth ++ 34 :: (name ++ 34 :: 58 :: (s ++ 44 :: s')), fun o => ?_, .inr ⟨⟨starting flat depth, _, rfl, white_starting flat depth⟩, fun f w rest hf hw => ?_⟩⟩
        · rw [members, hnamed]
          show members .json sp flat (t2 :: l) depth (emit [44] (_, true)) = _
          rw [emit_good, hs']
          simp
        · cases f with
          | zero => simp at hf
          | succ f =>
            simp at hf
            have := hread f (44 :: (s' ++ (w ++ 125 :: rest))) (by omega) (stop_of (by decide))
            simp only [List.append_assoc, List.cons_append]
            rw [this, skip_cons (by decide)]
            simp only [List.head?_cons, List.tail_cons, if_true]
            rw [hr' f w rest (by omega) hw]
            rfl
end

/-! ## Failure -/

theorem emit_flag (s : Bytes) (o : Out) : (emit s o).2 = o.2 := by
  unfold emit
  split
  · rename_i h; rw [h]
  · rfl

theorem named_flag (f : Format) (flat : Bool) (depth : Nat) (name : Bytes) (simple : Bool) (w : Nat → Out → Out) (b : Bool)
    (h : ∀ d o, (w d o).2 = (o.2 && b)) (o : Out) : (named f flat depth name simple w o).2 = (o.2 && b) := by
  unfold named
  cases f
  · simp only [h, emit_flag]
  · simp only [h, emit_flag]
  · dsimp only
    split <;> simp only [h, emit_flag]

mutual
theorem write_flag (f : Format) (sp : Bytes → Bool) (flat : Bool) : ∀ (t : Tree) (d : Nat) (o : Out), (write f sp flat t d o).2 = (o.2 && (meaning t).isSome)
  | .null, d, o => by rw [write, meaning, emit_flag]; simp
  | .true_, d, o => by rw [write, meaning, emit_flag]; simp
  | .false_, d, o => by rw [write, meaning, emit_flag]; simp
  | .string _, d, o => by rw [write, meaning, emit_flag]; simp
  | .number _, d, o => by rw [write, meaning, emit_flag]; simp
  | .invalid, d, o => by rw [write, meaning, fail]; simp
  | .array name l, d, o => by
    rw [write, meaning, emit_flag, elements_flag f sp flat name l, emit_flag]; simp
  | .object l, d, o => by
    rw [write, meaning, emit_flag, members_flag f sp flat l, emit_flag]; simp
theorem elements_flag (f : Format) (sp : Bytes → Bool) (flat : Bool) (name : Bytes) : ∀ (l : List Tree) (d : Nat) (o : Out),
    (elements f sp flat name l d o).2 = (o.2 && (meanings l).isSome)
  | [], d, o => by rw [elements, meanings]; simp
  | t :: l, d, o => by
    rw [elements, meanings, elements_flag f sp flat name l]
    have h1 : ∀ x : Out, (if l.isEmpty = true then x else emit (elementSeparator f flat) x).2 = x.2 := by
      intro x; split
      · rfl
      · exact emit_flag _ _
    rw [h1]
    have h2 : (if f = .xml then named f flat d name t.simple (write f sp flat t) o else write f sp flat t d o).2 = (o.2 && (meaning t).isSome) := by
      split
      · exact named_flag _ _ _ _ _ _ _ (write_flag f sp flat t) o
      · exact write_flag f sp flat t d o
    rw [h2]
    cases meaning t <;> cases meanings l <;> simp
theorem members_flag (f : Format) (sp : Bytes → Bool) (flat : Bool) : ∀ (l : List (Bytes × Tree)) (d : Nat) (o : Out),
    (members f sp flat l d o).2 = (o.2 && (fields l).isSome)
  | [], d, o => by rw [members, fields]; simp
  | (name, t) :: l, d, o => by
    rw [members, fields, members_flag f sp flat l]
    have h1 : ∀ x : Out, (if l.isEmpty = true then x else emit (memberSeparator f flat) x).2 = x.2 := by
      intro x; split
      · rfl
      · exact emit_flag _ _
    rw [h1, named_flag _ _ _ _ _ _ _ (write_flag f sp flat t)]
    cases meaning t <;> cases fields l <;> simp
end

/-- **C100 (failure).** In every format the stream fails just when there is a number in the tree that was not accepted, at any depth. -/
theorem C100_fails (f : Format) (sp : Bytes → Bool) (flat : Bool) (t : Tree) : text f sp flat t = none ↔ meaning t = none := by
  unfold text
  dsimp only
  rw [write_flag]
  cases meaning t <;> simp

/-- **C100 (JSON).** The text written for a tree of any depth and size, on one line or indented, is JSON for exactly the value the tree stands
for, if no string and no name in it needs an escape. Missing: there are no escapes, so strings with a quote, a backslash or a
control character are not written as JSON (`C100_escape_counterexample`). -/
theorem C100_json_partial (sp : Bytes → Bool) (flat : Bool) (t : Tree) (v : Value) (hm : meaning t = some v) (hp : AllPlain t) :
    ∃ s, text .json sp flat t = some s ∧ json s = some v := by
  obtain ⟨s, hs, _, hr⟩ := write_reads sp flat t v hm hp 0
  refine ⟨s, ?_, ?_⟩
  · unfold text
    rw [hs []]; rfl
  · unfold json
    have := hr (s.length + 1) [] (by omega) (fun c hc => by simp at hc)
    rw [List.append_nil] at this
    rw [this]; rfl

/-- **C100 (distinct).** So two trees with the same text stand for the same value. -/
theorem C100_distinct_partial (sp sp' : Bytes → Bool) (flat flat' : Bool) (t t' : Tree) (v v' : Value) (hm : meaning t = some v) (hm' : meaning t' = some v')
    (hp : AllPlain t) (hp' : AllPlain t') (h : text .json sp flat t = text .json sp' flat' t') : v = v' := by
  obtain ⟨s, h1, h2⟩ := C100_json_partial sp flat t v hm hp
  obtain ⟨s', h3, h4⟩ := C100_json_partial sp' flat' t' v' hm' hp'
  rw [h1, h3] at h
  cases h
  rw [h2] at h4
  exact Option.some.inj h4

/-- **C100 (numbers).** A number is accepted just from -2^53 to 2^53 - 2, and is then written as itself. Every one accepted has an exact double, as
interoperability needs. Missing: the range documented is from -2^53 + 1 to 2^53 - 1 (`C100_number_counterexample`). -/
theorem C100_number_partial (n : Int) : ((meaning (fromNumber n)).isSome ↔ -(2 ^ 53) ≤ n ∧ n ≤ 2 ^ 53 - 2) ∧
    ∀ v, meaning (fromNumber n) = some v → v = .number n := by
  unfold fromNumber
  split
  · rw [meaning]
    exact ⟨⟨fun h => by simp at h, fun h => by omega⟩, fun v h => by cases h⟩
  · rw [meaning]
    exact ⟨⟨fun _ => by omega, fun _ => rfl⟩, fun v h => by cases h; rfl⟩

/-- **C100 (finding).** The greatest number of the documented range is refused and one below it is accepted. -/
theorem C100_number_counterexample : meaning (fromNumber (2 ^ 53 - 1)) = none ∧ meaning (fromNumber (-(2 ^ 53))) = some (.number (-(2 ^ 53))) := by
  constructor
  · unfold fromNumber; rw [if_pos (by decide), meaning]
  · unfold fromNumber; rw [if_neg (by decide), meaning]

/-- **C100 (finding).** Without escapes the text of one string is that of two: an array of one string and an array of two strings are written alike. -/
theorem C100_escape_counterexample (sp : Bytes → Bool) : text .json sp true (.array [] [.string [97, 34, 44, 34, 98]]) = text .json sp true (.array [] [.string [97], .string [98]]) := by
  rfl

/-- The hypotheses are met: nested arrays and objects, a negative number, an empty object. -/
def sample : Tree := .object [([97], .array [120] [.number (-120), .null, .array [] []]), ([98], .object [([99], .string [32, 97])]), ([], .true_)]

example : meaning sample = some (.object [([97], .array [.number (-120), .null, .array []]), ([98], .object [([99], .string [32, 97])]), ([], .bool true)]) := by
  simp [sample, meaning, meanings, fields]
example : AllPlain sample := by simp [sample, AllPlain, ElementsPlain, MembersPlain, Plain]
example (sp : Bytes → Bool) : text .json sp true (.array [120] [.true_, .object [([97], .string [98])]]) =
    some [91, 116, 114, 117, 101, 44, 123, 34, 97, 34, 58, 34, 98, 34, 125, 93] := rfl
example (sp : Bytes → Bool) : text .json sp false (.array [120] [.true_]) = some [91, 10, 32, 32, 32, 32, 116, 114, 117, 101, 10, 93] := rfl
example (sp : Bytes → Bool) : text .xml sp true (.array [] [.null, fromNumber (2 ^ 60)]) = none := (C100_fails .xml sp true _).2 (by
  have : fromNumber (2 ^ 60) = .invalid := by unfold fromNumber; rw [if_pos (by decide)]
  rw [this]; simp [meaning, meanings])

end Verif.Serial
