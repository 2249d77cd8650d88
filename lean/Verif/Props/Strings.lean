import Verif.Model.Strings
/-!
# C96 text utilities
-/
namespace Verif.Strings
open Verif

/-! ## Finding -/

/-- The pattern occurs at the position. -/
def OccursAt (text pat : Bytes) (i : Nat) : Prop := ∃ b, text.drop i = pat ++ b ∧ i ≤ text.length

theorem isPrefixOf_iff {a b : Bytes} : a.isPrefixOf b = true ↔ ∃ r, b = a ++ r := by
  rw [List.isPrefixOf_iff_prefix]
  exact ⟨fun ⟨r, h⟩ => ⟨r, h.symm⟩, fun ⟨r, h⟩ => ⟨r, h.symm⟩⟩

theorem find_some : ∀ {text pat : Bytes} {p : Nat}, find text pat = some p → OccursAt text pat p ∧ ∀ i < p, ¬ OccursAt text pat i
  | [], pat, p, h => by
    rw [find] at h
    split at h
    · rename_i hp
      simp only [Option.some.injEq] at h
      subst h; subst hp
      exact ⟨⟨[], rfl, Nat.le_refl _⟩, fun i hi => by omega⟩
    · simp at h
  | x :: t, pat, p, h => by
    rw [find] at h
    split at h
    · rename_i hp
      simp only [Option.some.injEq] at h
      subst h
      obtain ⟨r, hr⟩ := isPrefixOf_iff.1 hp
      exact ⟨⟨r, hr, Nat.zero_le _⟩, fun i hi => by omega⟩
    · rename_i hp
      cases hf : find t pat with
      | none => rw [hf] at h; simp at h
      | some q =>
        rw [hf] at h
        simp only [Option.map_some, Option.some.injEq] at h
        subst h
        obtain ⟨⟨b, h1, h2⟩, h3⟩ := find_some hf
        refine ⟨⟨b, h1, by simp only [List.length_cons]; omega⟩, fun i hi => ?_⟩
        cases i with
        | zero => rintro ⟨b, hb, -⟩; exact hp (isPrefixOf_iff.2 ⟨b, hb⟩)
        | succ i =>
          rintro ⟨b, hb, hl⟩
          exact h3 i (by omega) ⟨b, hb, by simp only [List.length_cons] at hl; omega⟩

theorem find_none : ∀ {text pat : Bytes}, find text pat = none → ∀ i, ¬ OccursAt text pat i
  | [], pat, h, i => by
    rw [find] at h
    split at h
    · simp at h
    · rename_i hp
      rintro ⟨b, hb, -⟩
      rw [List.drop_nil] at hb
      have := (List.nil_eq_append_iff.1 hb).1
      exact hp this
  | x :: t, pat, h, i => by
    rw [find] at h
    split at h
    · simp at h
    · rename_i hp
      cases hf : find t pat with
      | some q => rw [hf] at h; simp at h
      | none =>
        rintro ⟨b, hb, hl⟩
        cases i with
        | zero => exact hp (isPrefixOf_iff.2 ⟨b, hb⟩)
        | succ i => exact find_none hf i ⟨b, hb, by simp only [List.length_cons] at hl; omega⟩

theorem find_eq {text pat : Bytes} {p : Nat} (h : OccursAt text pat p) (hm : ∀ i < p, ¬ OccursAt text pat i) : find text pat = some p := by
  cases hf : find text pat with
  | none => exact absurd h (find_none hf p)
  | some q =>
    obtain ⟨h1, h2⟩ := find_some hf
    rcases Nat.lt_trichotomy p q with hlt | rfl | hlt
    · exact absurd h (h2 p hlt)
    · rfl
    · exact absurd h1 (hm q hlt)

theorem occurs_split {text pat : Bytes} {p : Nat} (h : OccursAt text pat p) : text = text.take p ++ pat ++ text.drop (p + pat.length) := by
  obtain ⟨b, hb, -⟩ := h
  have : text.drop (p + pat.length) = b := by rw [← List.drop_drop, hb, List.drop_left]
  rw [this, List.append_assoc, ← hb, List.take_append_drop]

theorem occurs_le {text pat : Bytes} {p : Nat} (h : OccursAt text pat p) : p ≤ text.length := by
  obtain ⟨_, _, h⟩ := h; exact h

theorem occurs_append {text pat a b : Bytes} (h : text = a ++ pat ++ b) : OccursAt text pat a.length :=
  ⟨b, by rw [h, List.append_assoc, List.drop_left], by rw [h]; simp⟩

theorem occurs_infix {text pat : Bytes} : (∃ i, OccursAt text pat i) ↔ ∃ a b, text = a ++ pat ++ b :=
  ⟨fun ⟨i, h⟩ => ⟨_, _, occurs_split h⟩, fun ⟨_, _, h⟩ => ⟨_, occurs_append h⟩⟩

theorem starts_iff (text pre : Bytes) : startsWith text pre = true ↔ ∃ r, text = pre ++ r := by
  unfold startsWith
  rw [beq_iff_eq]
  constructor
  · intro h
    obtain ⟨⟨b, hb, -⟩, -⟩ := find_some h
    exact ⟨b, hb⟩
  · rintro ⟨r, h⟩
    exact find_eq ⟨r, h, Nat.zero_le _⟩ fun i hi => by omega

theorem rfind_some : ∀ {text pat : Bytes} {p : Nat}, rfind text pat = some p → OccursAt text pat p ∧ ∀ i > p, ¬ OccursAt text pat i
  | [], pat, p, h => by
    rw [rfind] at h
    split at h
    · rename_i hp
      simp only [Option.some.injEq] at h
      subst h; subst hp
      exact ⟨⟨[], rfl, Nat.le_refl _⟩, fun i hi => by rintro ⟨b, -, hl⟩; simp at hl; omega⟩
    · simp at h
  | x :: t, pat, p, h => by
    rw [rfind] at h
    cases hf : rfind t pat with
    | some q =>
      rw [hf] at h
      simp only [Option.some.injEq] at h
      subst h
      obtain ⟨⟨b, h1, h2⟩, h3⟩ := rfind_some hf
      refine ⟨⟨b, h1, by simp only [List.length_cons]; omega⟩, fun i hi => ?_⟩
      cases i with
      | zero => omega
      | succ i =>
        rintro ⟨b, hb, hl⟩
        exact h3 i (by omega) ⟨b, hb, by simp only [List.length_cons] at hl; omega⟩
    | none =>
      rw [hf] at h
      dsimp only at h
      split at h
      · rename_i hp
        simp only [Option.some.injEq] at h
        subst h
        obtain ⟨r, hr⟩ := isPrefixOf_iff.1 hp
        refine ⟨⟨r, hr, Nat.zero_le _⟩, fun i hi => ?_⟩
        cases i with
        | zero => omega
        | succ i =>
          rintro ⟨b, hb, hl⟩
          exact rfind_none hf i ⟨b, hb, by simp only [List.length_cons] at hl; omega⟩
      · simp at h
where
  rfind_none : ∀ {text pat : Bytes}, rfind text pat = none → ∀ i, ¬ OccursAt text pat i
    | [], pat, h, i => by
      rw [rfind] at h
      split at h
      · simp at h
      · rename_i hp
        rintro ⟨b, hb, -⟩
        rw [List.drop_nil] at hb
        exact hp (List.nil_eq_append_iff.1 hb).1
    | x :: t, pat, h, i => by
      rw [rfind] at h
      cases hf : rfind t pat with
      | some q => rw [hf] at h; simp at h
      | none =>
        rw [hf] at h
        dsimp only at h
        split at h
        · simp at h
        · rename_i hp
          rintro ⟨b, hb, hl⟩
          cases i with
          | zero => exact hp (isPrefixOf_iff.2 ⟨b, hb⟩)
          | succ i => exact rfind_none hf i ⟨b, hb, by simp only [List.length_cons] at hl; omega⟩

theorem ends_iff (text suffix : Bytes) : endsWith text suffix = true ↔ ∃ r, text = r ++ suffix := by
  unfold endsWith
  constructor
  · intro h
    split at h
    · simp at h
    · rename_i p hp
      rw [beq_iff_eq] at h
      have := occurs_split (rfind_some hp).1
      refine ⟨text.take p, ?_⟩
      rw [List.drop_eq_nil_of_le (by omega), List.append_nil] at this
      exact this
  · rintro ⟨r, rfl⟩
    have ho : OccursAt (r ++ suffix) suffix r.length := occurs_append (b := []) (by rw [List.append_nil])
    cases hf : rfind (r ++ suffix) suffix with
    | none => exact absurd ho (rfind_some.rfind_none hf _)
    | some p =>
      obtain ⟨⟨b, h1, h2⟩, h3⟩ := rfind_some hf
      dsimp only
      rw [beq_iff_eq]
      have hge : r.length ≤ p := by
        rcases Nat.lt_or_ge p r.length with h | h
        · exact absurd ho (h3 _ h)
        · exact h
      have := congrArg List.length h1
      simp only [List.length_drop, List.length_append] at this h2 ⊢
      omega

/-- `starts_with` and `ends_with` say exactly that, for every text and also for the empty text. -/
theorem C96_ends (text part : Bytes) : (startsWith text part = true ↔ ∃ r, text = part ++ r) ∧ (endsWith text part = true ↔ ∃ r, text = r ++ part) :=
  ⟨starts_iff text part, ends_iff text part⟩

/-! ## Joining and splitting -/

/-- The tokens with the delimiter between them. -/
def between (d : Bytes) : List Bytes → Bytes
  | [] => []
  | [t] => t
  | t :: u :: ts => t ++ d ++ between d (u :: ts)

theorem joinLoop_eq (d : Bytes) : ∀ (ts : List Bytes) (out : Bytes), joinLoop d out ts = between d (out :: ts)
  | [], out => rfl
  | t :: ts, out => by
    rw [joinLoop, joinLoop_eq d ts, between]
    cases ts with
    | nil => simp [between]
    | cons u ts => simp [between, List.append_assoc]

theorem join_eq (ts : List Bytes) (d : Bytes) : join ts d = between d ts := by
  cases ts with
  | nil => rfl
  | cons t ts => exact joinLoop_eq d ts t

theorem splitLoop_spec {d : Bytes} (hd : d ≠ []) : ∀ (fuel : Nat) (text : Bytes), text.length < fuel →
    ∃ t ts, splitLoop d fuel text = some (t :: ts) ∧ between d (t :: ts) = text ∧ ∀ u ∈ t :: ts, ∀ i, ¬ OccursAt u d i
  | 0, _, h => by omega
  | fuel + 1, text, h => by
    rw [splitLoop]
    cases hf : find text d with
    | none => exact ⟨text, [], rfl, rfl, fun u hu => by rw [List.mem_singleton] at hu; rw [hu]; exact find_none hf⟩
    | some p =>
      obtain ⟨h1, h2⟩ := find_some hf
      have hp := occurs_le h1
      have hl : 0 < d.length := List.length_pos_iff.2 hd
      obtain ⟨t, ts, e1, e2, e3⟩ := splitLoop_spec hd fuel (text.drop (p + d.length)) (by
        have := congrArg List.length (occurs_split h1)
        simp only [List.length_append, List.length_take, List.length_drop] at this ⊢
        omega)
      refine ⟨text.take p, t :: ts, by dsimp only; rw [e1]; rfl, ?_, fun u hu i => ?_⟩
      · rw [between, e2]
        exact (occurs_split h1).symm
      · rw [List.mem_cons] at hu
        rcases hu with rfl | hu
        · rintro ⟨b, hb, hil⟩
          rw [List.length_take] at hil
          have : i < p := by
            have := congrArg List.length hb
            rw [List.length_drop, List.length_take, List.length_append] at this
            omega
          refine h2 i this ⟨b ++ text.drop p, ?_, by omega⟩
          rw [← List.append_assoc, ← hb, ← List.drop_append_of_le_length (by rw [List.length_take]; omega), List.take_append_drop]
        · exact e3 u hu i

theorem splitLoop_fuel {d : Bytes} (hd : d ≠ []) : ∀ (f g : Nat) (text : Bytes), text.length < f → text.length < g → splitLoop d f text = splitLoop d g text
  | 0, _, _, h, _ => by omega
  | _, 0, _, _, h => by omega
  | f + 1, g + 1, text, h, k => by
    rw [splitLoop, splitLoop]
    cases hf : find text d with
    | none => rfl
    | some p =>
      dsimp only
      have hl : 0 < d.length := List.length_pos_iff.2 hd
      obtain ⟨h1, -⟩ := find_some hf
      have := congrArg List.length (occurs_split h1)
      simp only [List.length_append, List.length_take, List.length_drop] at this
      rw [splitLoop_fuel hd f g _ (by rw [List.length_drop]; omega) (by rw [List.length_drop]; omega)]

/-! ## Trimming nothing -/

theorem trim_none {fuel : Nat} (hf : 0 < fuel) (text : Bytes) : trim fuel text [] = some text := by
  cases fuel with
  | zero => omega
  | succ fuel => rfl

theorem mapM_trim_none {fuel : Nat} (hf : 0 < fuel) : ∀ ts : List Bytes, ts.mapM (fun t => trim fuel t []) = some ts
  | [] => rfl
  | t :: ts => by rw [List.mapM_cons, trim_none hf, mapM_trim_none hf ts]; rfl

theorem split_plain {fuel : Nat} {d : Bytes} {text : Bytes} (hd : d ≠ []) (hf : text.length < fuel) :
    split fuel text [d] [] false = splitLoop d fuel text := by
  unfold split
  dsimp only
  rw [trim_none (by omega), Option.bind_some, unify, Option.bind_some]
  unfold splitter
  obtain ⟨t, ts, h, -, -⟩ := splitLoop_spec hd fuel text hf
  rw [h, Option.bind_some]
  unfold reduce
  rw [if_neg (by simp), mapM_trim_none (by omega)]
  simp

/-- Splitting at a delimiter, without trimming: the tokens joined are the text again, and none contains the delimiter. -/
theorem C96_split_join {fuel : Nat} {d text : Bytes} (hd : d ≠ []) (hf : text.length < fuel) :
    ∃ ts, split fuel text [d] [] false = some ts ∧ ts ≠ [] ∧ join ts d = text ∧ ∀ t ∈ ts, ¬ ∃ a b, t = a ++ d ++ b := by
  obtain ⟨t, ts, h, h2, h3⟩ := splitLoop_spec hd fuel text hf
  refine ⟨t :: ts, by rw [split_plain hd hf, h], by simp, by rw [join_eq, h2], fun u hu => ?_⟩
  rw [← occurs_infix]
  rintro ⟨i, hi⟩
  exact h3 u hu i hi

/-- Splitting is at the first occurrence, and goes on after it. -/
theorem C96_split_first {fuel : Nat} {d a b : Bytes} (hd : d ≠ []) (hf : (a ++ d ++ b).length < fuel)
    (hfirst : ∀ a' b', a ++ d ++ b = a' ++ d ++ b' → a.length ≤ a'.length) :
    ∃ ts, split fuel (a ++ d ++ b) [d] [] false = some (a :: ts) ∧ split fuel b [d] [] false = some ts := by
  have hp : find (a ++ d ++ b) d = some a.length := by
    refine find_eq (occurs_append rfl) fun i hi ho => ?_
    have := hfirst _ _ (occurs_split ho)
    rw [List.length_take] at this
    omega
  have hb : b.length < fuel := by simp only [List.length_append] at hf; omega
  obtain ⟨t, ts, h, -, -⟩ := splitLoop_spec hd fuel b hb
  refine ⟨t :: ts, ?_, by rw [split_plain hd hb, h]⟩
  rw [split_plain hd hf]
  cases fuel with
  | zero => omega
  | succ fuel =>
    rw [splitLoop, hp]
    dsimp only
    rw [← List.length_append, List.drop_left, List.append_assoc, List.take_left, splitLoop_fuel hd fuel (fuel + 1) b (by
      have := List.length_pos_iff.2 hd
      simp only [List.length_append] at hf; omega) hb, h]
    rfl

/-- Tokens without the delimiter, a character, are recovered from their join. -/
theorem C96_join_split (c : UInt8) : ∀ (ts : List Bytes) (fuel : Nat), ts ≠ [] → (∀ t ∈ ts, c ∉ t) → (join ts [c]).length < fuel →
    split fuel (join ts [c]) [[c]] [] false = some ts
  | [], _, h, _, _ => absurd rfl h
  | [t], fuel, _, hc, hf => by
    have e : join [t] [c] = t := rfl
    rw [e] at hf ⊢
    rw [split_plain (by simp) hf]
    cases fuel with
    | zero => omega
    | succ fuel =>
      rw [splitLoop]
      have : find t [c] = none := by
        cases h : find t [c] with
        | none => rfl
        | some p =>
          obtain ⟨⟨b, hb, -⟩, -⟩ := find_some h
          exact absurd (List.mem_of_mem_drop (i := p) (by rw [hb]; simp)) (hc t (by simp))
      rw [this]
  | t :: u :: ts, fuel, _, hc, hf => by
    have e : join (t :: u :: ts) [c] = t ++ [c] ++ join (u :: ts) [c] := by rw [join_eq, join_eq, between]
    rw [e] at hf ⊢
    obtain ⟨r, h1, h2⟩ := C96_split_first (d := [c]) (by simp) hf fun a' b' hab => by
      rcases Nat.lt_or_ge a'.length t.length with hlt | hge
      · exfalso
        have hg := congrArg (·[a'.length]?) hab
        simp only [List.append_assoc] at hg
        rw [List.getElem?_append_left hlt, List.getElem?_append_right (Nat.le_refl _), Nat.sub_self] at hg
        simp only [List.singleton_append, List.getElem?_cons_zero] at hg
        exact hc t (by simp) (List.mem_of_getElem? hg)
      · exact hge
    rw [h1, Option.some.injEq]
    congr 1
    have := C96_join_split c (u :: ts) fuel (by simp) (fun t' h' => hc t' (List.mem_cons_of_mem _ h')) (by
      simp only [List.length_append] at hf; omega)
    rw [this, Option.some.injEq] at h2
    exact h2.symm

/-! ## Replacing -/

theorem replaceLoop_spec {s : Bytes} (hs : s ≠ []) (r : Bytes) : ∀ (fuel count : Nat) (pre rest : Bytes), rest.length < fuel →
    ∃ ts, splitLoop s fuel rest = some ts ∧ replaceLoop s r fuel count (pre ++ rest) pre.length = some (count + (ts.length - 1), pre ++ between r ts)
  | 0, _, _, _, h => by omega
  | fuel + 1, count, pre, rest, h => by
    rw [splitLoop, replaceLoop, List.drop_left]
    cases hf : find rest s with
    | none => exact ⟨[rest], rfl, by simp [between]⟩
    | some p =>
      obtain ⟨h1, -⟩ := find_some hf
      have hl : 0 < s.length := List.length_pos_iff.2 hs
      have hsplit := occurs_split h1
      have hp := occurs_le h1
      have hlen := congrArg List.length hsplit
      simp only [List.length_append, List.length_take, List.length_drop] at hlen
      obtain ⟨ts, e1, e2⟩ := replaceLoop_spec hs r fuel (count + 1) (pre ++ rest.take p ++ r) (rest.drop (p + s.length)) (by rw [List.length_drop]; omega)
      have hne : ts ≠ [] := by
        obtain ⟨t, ts', e, -, -⟩ := splitLoop_spec hs fuel (rest.drop (p + s.length)) (by rw [List.length_drop]; omega)
        rw [e1, Option.some.injEq] at e
        rw [e]; simp
      refine ⟨rest.take p :: ts, by dsimp only; rw [e1]; rfl, ?_⟩
      dsimp only
      have ea : (pre ++ rest).take (pre.length + p) ++ r ++ (pre ++ rest).drop (pre.length + p + s.length) =
          pre ++ rest.take p ++ r ++ rest.drop (p + s.length) := by
        rw [List.take_append, List.take_of_length_le (by omega), Nat.add_sub_cancel_left, Nat.add_assoc, List.drop_append, List.drop_eq_nil_of_le (by omega),
          Nat.add_sub_cancel_left, List.nil_append]
      have eb : pre.length + p + r.length = (pre ++ rest.take p ++ r).length := by
        simp only [List.length_append, List.length_take]; omega
      rw [ea, eb, e2]
      cases ts with
      | nil => exact absurd rfl hne
      | cons t ts =>
        simp only [List.length_cons, between, List.append_assoc]
        congr 2
        omega

/-- Replacing is splitting at the one and joining with the other; the count is of the occurrences replaced. -/
theorem C96_replace {fuel : Nat} {text source target : Bytes} (hs : source ≠ []) (hf : text.length < fuel) :
    ∃ ts, split fuel text [source] [] false = some ts ∧ replace fuel text source target = some (ts.length - 1, join ts target) := by
  obtain ⟨ts, h1, h2⟩ := replaceLoop_spec hs target fuel 0 [] text hf
  refine ⟨ts, by rw [split_plain hs hf, h1], ?_⟩
  unfold replace
  rw [if_neg hs]
  simp only [List.nil_append, List.length_nil, Nat.zero_add] at h2
  rw [h2, join_eq]

/-! ## Trimming -/

/-- A sequence of the tokens. -/
inductive Made (tokens : List Bytes) : Bytes → Prop
  | nil : Made tokens []
  | cons {t r : Bytes} (h : t ∈ tokens) (k : Made tokens r) : Made tokens (t ++ r)

theorem Made.append {tokens : List Bytes} {a b : Bytes} (h : Made tokens a) (k : Made tokens b) : Made tokens (a ++ b) := by
  induction h with
  | nil => exact k
  | cons h _ ih => rw [List.append_assoc]; exact .cons h ih

theorem Made.mono {s t : List Bytes} (hst : ∀ x ∈ s, x ∈ t) {a : Bytes} (h : Made s a) : Made t a := by
  induction h with
  | nil => exact .nil
  | cons h _ ih => exact .cons (hst _ h) ih

theorem Made.snoc {tokens : List Bytes} {t a : Bytes} (ht : t ∈ tokens) (h : Made tokens a) : Made tokens (a ++ t) := by
  have := h.append (.cons ht .nil)
  rwa [List.append_nil] at this

theorem Made.reverse {tokens : List Bytes} {a : Bytes} (h : Made tokens a) : Made (tokens.map List.reverse) a.reverse := by
  induction h with
  | nil => exact .nil
  | cons h _ ih => rw [List.reverse_append]; exact ih.snoc (List.mem_map_of_mem h)

theorem trimLeftOne_spec {token : Bytes} (ht : token ≠ []) : ∀ (fuel : Nat) (text : Bytes), text.length < fuel →
    ∃ found r p, trimLeftOne token fuel text = some (found, r) ∧ text = p ++ r ∧ Made [token] p ∧ startsWith r token = false ∧
      (found = false → r = text) ∧ (found = true → r.length < text.length)
  | 0, _, h => by omega
  | fuel + 1, text, h => by
    rw [trimLeftOne]
    cases hs : startsWith text token with
    | false => exact ⟨false, text, [], rfl, rfl, .nil, hs, fun _ => rfl, fun h => by cases h⟩
    | true =>
      obtain ⟨b, hb⟩ := (starts_iff _ _).1 hs
      have hl : 0 < token.length := List.length_pos_iff.2 ht
      have hlen := congrArg List.length hb
      rw [List.length_append] at hlen
      have hd : text.drop token.length = b := by rw [hb, List.drop_left]
      obtain ⟨f, r, p, e1, e2, e3, e4, -, -⟩ := trimLeftOne_spec ht fuel (text.drop token.length) (by rw [List.length_drop]; omega)
      rw [if_pos rfl, e1]
      refine ⟨true, r, token ++ p, rfl, ?_, .cons (by simp) e3, e4, (fun h => by cases h), fun _ => ?_⟩
      · rw [hb, List.append_assoc, ← e2, hd]
      · rw [hd] at e2
        have := congrArg List.length e2
        rw [List.length_append] at this
        omega

theorem pass_spec {tokens : List Bytes} (ht : ∀ t ∈ tokens, t ≠ []) {fuel : Nat} : ∀ (found : Bool) (text : Bytes), text.length < fuel →
    ∃ f r p, passTokens trimLeftOne fuel tokens found text = some (f, r) ∧ text = p ++ r ∧ Made tokens p ∧
      (f = false → found = false ∧ r = text ∧ ∀ t ∈ tokens, startsWith text t = false) ∧ (f = true → found = true ∨ r.length < text.length) := by
  induction tokens with
  | nil => exact fun found text _ => ⟨found, text, [], rfl, rfl, .nil, fun h => ⟨h, rfl, fun t h => by simp at h⟩, fun h => .inl h⟩
  | cons t ts ih =>
    intro found text h
    obtain ⟨f1, r1, p1, e1, e2, e3, e4, e5, e6⟩ := trimLeftOne_spec (ht t List.mem_cons_self) fuel text h
    have hlen := congrArg List.length e2
    rw [List.length_append] at hlen
    obtain ⟨f2, r2, p2, k1, k2, k3, k4, k5⟩ := ih (fun t h => ht t (List.mem_cons_of_mem _ h)) (found || f1) r1 (by omega)
    have hlen2 := congrArg List.length k2
    rw [List.length_append] at hlen2
    refine ⟨f2, r2, p1 ++ p2, ?_, by rw [List.append_assoc, ← k2]; exact e2, ?_, fun hf => ?_, fun hf => ?_⟩
    · rw [passTokens, e1]
      exact k1
    · exact (e3.mono (by simp)).append (k3.mono fun x hx => List.mem_cons_of_mem _ hx)
    · obtain ⟨q1, q2, q3⟩ := k4 hf
      rw [Bool.or_eq_false_iff] at q1
      have hr := e5 q1.2
      refine ⟨q1.1, q2.trans hr, fun u hu => ?_⟩
      rw [List.mem_cons] at hu
      rcases hu with rfl | hu
      · rw [← hr]; exact e4
      · rw [← hr]; exact q3 u hu
    · rcases k5 hf with h | h
      · cases found with
        | true => exact .inl rfl
        | false =>
          right
          have := e6 (by simpa using h)
          omega
      · exact .inr (by omega)

theorem side_spec {tokens : List Bytes} (ht : ∀ t ∈ tokens, t ≠ []) {inner : Nat} : ∀ (fuel : Nat) (text : Bytes), text.length < fuel → text.length < inner →
    ∃ r p, trimSide trimLeftOne inner tokens fuel text = some (false, r) ∧ text = p ++ r ∧ Made tokens p ∧ ∀ t ∈ tokens, startsWith r t = false
  | 0, _, h, _ => by omega
  | fuel + 1, text, h, hi => by
    obtain ⟨f, r, p, e1, e2, e3, e4, e5⟩ := pass_spec ht false text hi
    rw [trimSide, e1, Option.bind_some]
    dsimp only
    have hlen := congrArg List.length e2
    rw [List.length_append] at hlen
    cases f with
    | false =>
      obtain ⟨-, q2, q3⟩ := e4 rfl
      rw [if_neg (by simp)]
      exact ⟨r, p, rfl, e2, e3, by rw [q2]; exact q3⟩
    | true =>
      rcases e5 rfl with h' | h'
      · cases h'
      · rw [if_pos rfl]
        obtain ⟨r2, p2, k1, k2, k3, k4⟩ := side_spec (inner := inner) ht fuel r (by omega) (by omega)
        exact ⟨r2, p ++ p2, k1, by rw [List.append_assoc, ← k2]; exact e2, e3.append k3, k4⟩

theorem ends_reverse (text token : Bytes) : endsWith text token = startsWith text.reverse token.reverse := by
  rw [Bool.eq_iff_iff, ends_iff, starts_iff]
  constructor
  · rintro ⟨r, rfl⟩; exact ⟨r.reverse, by rw [List.reverse_append]⟩
  · rintro ⟨r, h⟩
    refine ⟨r.reverse, ?_⟩
    have := congrArg List.reverse h
    rwa [List.reverse_reverse, List.reverse_append, List.reverse_reverse] at this

def flip (r : Bool × Bytes) : Bool × Bytes := (r.1, r.2.reverse)

theorem rightOne_reverse (token : Bytes) : ∀ (fuel : Nat) (text : Bytes),
    trimRightOne token fuel text = (trimLeftOne token.reverse fuel text.reverse).map flip
  | 0, _ => rfl
  | fuel + 1, text => by
    rw [trimRightOne, trimLeftOne, ends_reverse]
    cases startsWith text.reverse token.reverse with
    | false => rw [if_neg (by simp), if_neg (by simp)]; simp [flip]
    | true =>
      rw [if_pos rfl, if_pos rfl, rightOne_reverse token fuel, List.length_reverse, List.drop_reverse, Option.map_map, Option.map_map]
      rfl

theorem pass_reverse {fuel : Nat} : ∀ (tokens : List Bytes) (found : Bool) (text : Bytes),
    passTokens trimRightOne fuel tokens found text = (passTokens trimLeftOne fuel (tokens.map List.reverse) found text.reverse).map flip
  | [], found, text => by simp [passTokens, flip]
  | t :: ts, found, text => by
    rw [passTokens, List.map_cons, passTokens, rightOne_reverse]
    cases trimLeftOne t.reverse fuel text.reverse with
    | none => rfl
    | some r =>
      rw [Option.map_some, Option.bind_some, Option.bind_some, pass_reverse ts]
      unfold flip
      dsimp only
      rw [List.reverse_reverse]

theorem side_reverse {inner : Nat} {tokens : List Bytes} : ∀ (fuel : Nat) (text : Bytes),
    trimSide trimRightOne inner tokens fuel text = (trimSide trimLeftOne inner (tokens.map List.reverse) fuel text.reverse).map flip
  | 0, _ => rfl
  | fuel + 1, text => by
    rw [trimSide, trimSide, pass_reverse]
    cases passTokens trimLeftOne inner (tokens.map List.reverse) false text.reverse with
    | none => rfl
    | some r =>
      rw [Option.map_some, Option.bind_some, Option.bind_some]
      obtain ⟨f, r⟩ := r
      cases f with
      | false => rfl
      | true =>
        unfold flip
        dsimp only
        rw [if_pos rfl, if_pos rfl, side_reverse fuel, List.reverse_reverse]
        rfl

theorem trimLeft_spec {tokens : List Bytes} (ht : ∀ t ∈ tokens, t ≠ []) {fuel : Nat} {text : Bytes} (hf : text.length < fuel) :
    ∃ r p, trimLeft fuel text tokens = some (false, r) ∧ text = p ++ r ∧ Made tokens p ∧ ∀ t ∈ tokens, startsWith r t = false :=
  side_spec ht fuel text hf hf

theorem trimRight_spec {tokens : List Bytes} (ht : ∀ t ∈ tokens, t ≠ []) {fuel : Nat} {text : Bytes} (hf : text.length < fuel) :
    ∃ r p, trimRight fuel text tokens = some (false, r) ∧ text = r ++ p ∧ Made tokens p ∧ ∀ t ∈ tokens, endsWith r t = false := by
  have ht' : ∀ t ∈ tokens.map List.reverse, t ≠ [] := by
    intro t h
    rw [List.mem_map] at h
    obtain ⟨u, hu, rfl⟩ := h
    simpa using ht u hu
  obtain ⟨r, p, e1, e2, e3, e4⟩ := side_spec (inner := fuel) ht' fuel text.reverse (by rw [List.length_reverse]; exact hf) (by rw [List.length_reverse]; exact hf)
  refine ⟨r.reverse, p.reverse, ?_, ?_, ?_, fun t h => ?_⟩
  · unfold trimRight
    rw [side_reverse, e1]
    rfl
  · have := congrArg List.reverse e2
    rwa [List.reverse_reverse, List.reverse_append] at this
  · have := e3.reverse
    rw [List.map_map, show List.reverse ∘ List.reverse = (id : Bytes → Bytes) from funext List.reverse_reverse, List.map_id] at this
    exact this
  · rw [ends_reverse, List.reverse_reverse]
    exact e4 _ (List.mem_map_of_mem h)

/-- Trimming removes sequences of the tokens from both ends and leaves a text that neither starts nor ends with one (the tokens being not
empty); `trim_left` and `trim_right` do so at their end. -/
theorem C96_trim {tokens : List Bytes} (ht : ∀ t ∈ tokens, t ≠ []) {fuel : Nat} {text : Bytes} (hf : text.length < fuel) :
    (∃ r p s, trim fuel text tokens = some r ∧ text = p ++ r ++ s ∧ Made tokens p ∧ Made tokens s ∧
      ∀ t ∈ tokens, (¬ ∃ q, r = t ++ q) ∧ ¬ ∃ q, r = q ++ t) ∧
    (∃ r p, (trimLeft fuel text tokens).map (·.2) = some r ∧ text = p ++ r ∧ Made tokens p ∧ ∀ t ∈ tokens, ¬ ∃ q, r = t ++ q) ∧
    (∃ r s, (trimRight fuel text tokens).map (·.2) = some r ∧ text = r ++ s ∧ Made tokens s ∧ ∀ t ∈ tokens, ¬ ∃ q, r = q ++ t) := by
  obtain ⟨r, p, e1, e2, e3, e4⟩ := trimLeft_spec ht hf
  have hlen := congrArg List.length e2
  rw [List.length_append] at hlen
  refine ⟨?_, ⟨r, p, by rw [e1]; rfl, e2, e3, fun t h k => ?_⟩, ?_⟩
  · obtain ⟨r2, s, k1, k2, k3, k4⟩ := trimRight_spec ht (fuel := fuel) (text := r) (by omega)
    refine ⟨r2, p, s, ?_, ?_, e3, k3, fun t h => ⟨fun ⟨q, k⟩ => ?_, fun k => ?_⟩⟩
    · unfold trim
      rw [e1, Option.bind_some, k1]
      rfl
    · rw [List.append_assoc, ← k2]; exact e2
    · have := e4 t h
      rw [(starts_iff r t).2 ⟨q ++ s, by rw [← List.append_assoc, ← k]; exact k2⟩] at this
      cases this
    · have := k4 t h
      rw [(ends_iff r2 t).2 k] at this
      cases this
  · have := e4 t h
    rw [(starts_iff r t).2 k] at this
    cases this
  · obtain ⟨r2, s, k1, k2, k3, k4⟩ := trimRight_spec ht hf
    refine ⟨r2, s, by rw [k1]; rfl, k2, k3, fun t h k => ?_⟩
    have := k4 t h
    rw [(ends_iff r2 t).2 k] at this
    cases this

/-! ## Words -/

/-- The parts of a text between the bytes that satisfy the predicate. -/
def fields (p : UInt8 → Bool) : Bytes → List Bytes
  | [] => [[]]
  | b :: t => if p b then [] :: fields p t else
    match fields p t with
    | [] => [[b]]
    | f :: fs => (b :: f) :: fs

theorem fields_ne (p : UInt8 → Bool) : ∀ t, fields p t ≠ []
  | [] => by simp [fields]
  | b :: t => by
    rw [fields]
    split
    · simp
    · split <;> simp

theorem fields_cons_false {p : UInt8 → Bool} {b : UInt8} (h : p b = false) (t : Bytes) :
    ∃ f fs, fields p t = f :: fs ∧ fields p (b :: t) = (b :: f) :: fs := by
  cases hf : fields p t with
  | nil => exact absurd hf (fields_ne p t)
  | cons f fs => exact ⟨f, fs, rfl, by rw [fields, if_neg (by simp [h]), hf]⟩

theorem fields_cons_true {p : UInt8 → Bool} {b : UInt8} (h : p b = true) (t : Bytes) : fields p (b :: t) = [] :: fields p t := by
  rw [fields, if_pos h]

theorem fields_mem {p : UInt8 → Bool} : ∀ {t f : Bytes}, f ∈ fields p t → ∀ b ∈ f, p b = false
  | [], f, hf, b, hb => by
    simp only [fields, List.mem_singleton] at hf
    rw [hf] at hb
    simp at hb
  | x :: t, f, hf, b, hb => by
    cases h : p x with
    | true =>
      rw [fields_cons_true h, List.mem_cons] at hf
      rcases hf with rfl | hf
      · simp at hb
      · exact fields_mem hf b hb
    | false =>
      obtain ⟨g, gs, e1, e2⟩ := fields_cons_false h t
      rw [e2, List.mem_cons] at hf
      rcases hf with rfl | hf
      · rw [List.mem_cons] at hb
        rcases hb with rfl | hb
        · exact h
        · exact fields_mem (t := t) (by rw [e1]; simp) b hb
      · exact fields_mem (t := t) (by rw [e1]; simp [hf]) b hb

theorem between_fields (c d : UInt8) : ∀ t : Bytes, between [d] (fields (· == c) t) = t.map fun b => if b == c then d else b
  | [] => rfl
  | x :: t => by
    have ih := between_fields c d t
    cases h : x == c with
    | true =>
      rw [fields_cons_true (p := (· == c)) h]
      cases hf : fields (· == c) t with
      | nil => exact absurd hf (fields_ne _ t)
      | cons f fs => rw [between, ← hf, ih, List.map_cons, if_pos h]; rfl
    | false =>
      obtain ⟨f, fs, e1, e2⟩ := fields_cons_false (p := (· == c)) h t
      rw [e2, List.map_cons, if_neg (by simp [h]), ← ih, e1]
      cases fs <;> simp [between]

theorem split_fields {fuel : Nat} {c : UInt8} {t : Bytes} (hf : t.length < fuel) : split fuel t [[c]] [] false = some (fields (· == c) t) := by
  have e : join (fields (· == c) t) [c] = t := by
    rw [join_eq, between_fields]
    conv => rhs; rw [← List.map_id t]
    apply List.map_congr_left
    intro b _
    split
    · rename_i h; rw [beq_iff_eq] at h; exact h.symm
    · rfl
  have := C96_join_split c (fields (· == c) t) fuel (fields_ne _ t) (fun f hf' hc => by
    have := fields_mem hf' c hc
    simp at this) (by rw [e]; exact hf)
  rwa [e] at this

theorem replace_byte {fuel : Nat} (c d : UInt8) {t : Bytes} (hf : t.length < fuel) :
    ∃ n, replace fuel t [c] [d] = some (n, t.map fun b => if b == c then d else b) := by
  obtain ⟨ts, h1, h2⟩ := C96_replace (target := [d]) (source := [c]) (by simp) hf
  rw [split_fields hf, Option.some.injEq] at h1
  subst h1
  exact ⟨_, by rw [h2, join_eq, between_fields]⟩

theorem unify_bytes {fuel : Nat} (d : UInt8) : ∀ (ds : List UInt8) (t : Bytes), t.length < fuel →
    unify fuel [d] (ds.map fun b => [b]) t = some (t.map fun b => if ds.contains b then d else b)
  | [], t, _ => by simp [unify]
  | x :: ds, t, hf => by
    obtain ⟨n, h⟩ := replace_byte x d hf
    rw [List.map_cons, unify, h, Option.bind_some, unify_bytes d ds _ (by rw [List.length_map]; exact hf), List.map_map, Option.some.injEq]
    apply List.map_congr_left
    intro b _
    simp only [Function.comp_apply, List.contains_cons]
    cases h : b == x with
    | true => simp
    | false => simp

theorem fields_map {d : UInt8} {ds : List UInt8} : ∀ t : Bytes,
    fields (· == d) (t.map fun b => if ds.contains b then d else b) = fields (fun b => (d :: ds).contains b) t
  | [] => rfl
  | x :: t => by
    have ih := fields_map (d := d) (ds := ds) t
    rw [List.map_cons]
    cases h : ds.contains x with
    | true =>
      rw [if_pos rfl, fields_cons_true (p := (· == d)) (by simp), ih, fields_cons_true (p := fun b => (d :: ds).contains b) (by rw [List.contains_cons, h, Bool.or_true])]
    | false =>
      rw [if_neg (by simp)]
      cases hx : x == d with
      | true => rw [fields_cons_true (p := (· == d)) hx, ih, fields_cons_true (p := fun b => (d :: ds).contains b) (by rw [List.contains_cons, hx, Bool.true_or])]
      | false =>
        obtain ⟨f, fs, e1, e2⟩ := fields_cons_false (p := (· == d)) hx (t.map fun b => if ds.contains b then d else b)
        obtain ⟨g, gs, k1, k2⟩ := fields_cons_false (p := fun b => (d :: ds).contains b) (by rw [List.contains_cons, hx, h]; rfl) t
        rw [e2, k2]
        rw [ih, k1, List.cons.injEq] at e1
        rw [e1.1, e1.2]

/-- Splitting at any of several characters, without trimming: exactly the parts between them. -/
theorem C96_split_fields {fuel : Nat} (d : UInt8) (ds : List UInt8) {t : Bytes} (hf : t.length < fuel) :
    split fuel t ((d :: ds).map fun b => [b]) [] false = some (fields (fun b => (d :: ds).contains b) t) := by
  rw [List.map_cons]
  unfold split
  dsimp only
  rw [trim_none (by omega), Option.bind_some, unify_bytes d ds t hf, Option.bind_some, ← fields_map]
  have := split_fields (c := d) (fuel := fuel) (t := t.map fun b => if ds.contains b then d else b) (by rw [List.length_map]; exact hf)
  unfold split at this
  dsimp only at this
  rw [trim_none (by omega), Option.bind_some, unify, Option.bind_some] at this
  exact this

theorem made_bytes {D : List UInt8} {p : Bytes} (h : Made (D.map fun b => [b]) p) : ∀ b ∈ p, D.contains b = true := by
  induction h with
  | nil => intro b hb; simp at hb
  | cons h _ ih =>
    rw [List.mem_map] at h
    obtain ⟨x, hx, rfl⟩ := h
    intro b hb
    rw [List.singleton_append, List.mem_cons] at hb
    rcases hb with rfl | hb
    · simpa using hx
    · exact ih b hb

/-- The nonempty parts. -/
def words (p : UInt8 → Bool) (t : Bytes) : List Bytes := (fields p t).filter (· ≠ [])

theorem words_cons_true {p : UInt8 → Bool} {b : UInt8} (h : p b = true) (t : Bytes) : words p (b :: t) = words p t := by
  unfold words
  rw [fields_cons_true h, List.filter_cons_of_neg (by simp)]

theorem words_left {p : UInt8 → Bool} {t : Bytes} : ∀ {a : Bytes}, (∀ b ∈ a, p b = true) → words p (a ++ t) = words p t
  | [], _ => rfl
  | x :: a, h => by
    rw [List.cons_append, words_cons_true (h x List.mem_cons_self), words_left fun b hb => h b (List.mem_cons_of_mem _ hb)]

theorem fields_right {p : UInt8 → Bool} {s : Bytes} (hs : ∀ b ∈ s, p b = true) : ∀ t : Bytes,
    ∃ n, fields p (t ++ s) = fields p t ++ List.replicate n []
  | [] => by
    refine ⟨s.length, ?_⟩
    rw [List.nil_append]
    induction s with
    | nil => rfl
    | cons x s ih =>
      rw [fields_cons_true (hs x List.mem_cons_self), ih fun b hb => hs b (List.mem_cons_of_mem _ hb)]
      simp [fields, List.replicate_succ]
  | x :: t => by
    obtain ⟨n, ih⟩ := fields_right hs t
    refine ⟨n, ?_⟩
    rw [List.cons_append]
    cases h : p x with
    | true => rw [fields_cons_true h, fields_cons_true h, ih]; rfl
    | false =>
      obtain ⟨f, fs, e1, e2⟩ := fields_cons_false h (t ++ s)
      obtain ⟨g, gs, k1, k2⟩ := fields_cons_false h t
      rw [e2, k2]
      rw [ih, k1, List.cons_append, List.cons.injEq] at e1
      rw [← e1.1, ← e1.2, List.cons_append]

theorem words_right {p : UInt8 → Bool} {s t : Bytes} (hs : ∀ b ∈ s, p b = true) : words p (t ++ s) = words p t := by
  obtain ⟨n, h⟩ := fields_right hs t
  unfold words
  rw [h, List.filter_append]
  have : (List.replicate n ([] : Bytes)).filter (· ≠ []) = [] := by
    rw [List.filter_eq_nil_iff]
    intro x hx
    rw [(List.mem_replicate.1 hx).2]
    simp
  rw [this, List.append_nil]

theorem trim_clean {D : List UInt8} {fuel : Nat} {t : Bytes} (hf : t.length < fuel) (h : ∀ b ∈ t, D.contains b = false) :
    trim fuel t (D.map fun b => [b]) = some t := by
  obtain ⟨⟨r, p, s, e1, e2, e3, e4, -⟩, -⟩ := C96_trim (tokens := D.map fun b => [b]) (fun x hx => by
    rw [List.mem_map] at hx
    obtain ⟨b, -, rfl⟩ := hx
    simp) hf
  have hp : p = [] := by
    cases p with
    | nil => rfl
    | cons x p => have := made_bytes e3 x (by simp); rw [h x (by rw [e2]; simp)] at this; cases this
  have hs : s = [] := by
    cases s with
    | nil => rfl
    | cons x s => have := made_bytes e4 x (by simp); rw [h x (by rw [e2]; simp)] at this; cases this
  rw [e1, e2, hp, hs]
  simp

/-- Splitting at characters that are also trimmed and with compression, as `split(text)` does with whitespace: exactly the maximal parts without
them, or one empty token if there are none. -/
theorem C96_words {fuel : Nat} (d : UInt8) (ds : List UInt8) {t : Bytes} (hf : t.length < fuel) :
    split fuel t ((d :: ds).map fun b => [b]) ((d :: ds).map fun b => [b]) true =
      some (if words (fun b => (d :: ds).contains b) t = [] then [[]] else words (fun b => (d :: ds).contains b) t) := by
  obtain ⟨⟨r, p, s, e1, e2, e3, e4, -⟩, -⟩ := C96_trim (tokens := (d :: ds).map fun b => [b]) (fun x hx => by
    rw [List.mem_map] at hx
    obtain ⟨b, -, rfl⟩ := hx
    simp) hf
  have hw : words (fun b => (d :: ds).contains b) t = words (fun b => (d :: ds).contains b) r := by
    rw [e2, words_right (made_bytes e4), words_left (made_bytes e3)]
  have hr : r.length < fuel := by
    have := congrArg List.length e2
    simp only [List.length_append] at this
    omega
  have hfields := C96_split_fields (fuel := fuel) d ds (t := r) hr
  rw [hw]
  generalize hT : (d :: ds).map (fun b => [b]) = T at e1 hfields ⊢
  have hTd : T = [d] :: ds.map fun b => [b] := by rw [← hT]; rfl
  rw [hTd] at hfields
  unfold split at hfields
  dsimp only at hfields
  rw [trim_none (by omega), Option.bind_some, unify_bytes d ds r hr, Option.bind_some] at hfields
  conv => lhs; arg 3; rw [hTd]
  unfold split
  dsimp only
  rw [e1, Option.bind_some, unify_bytes d ds r hr, Option.bind_some]
  unfold splitter at hfields ⊢
  have hu : (r.map fun b => if ds.contains b then d else b).length < fuel := by rw [List.length_map]; exact hr
  obtain ⟨u, us, h1, -, -⟩ := splitLoop_spec (d := [d]) (by simp) fuel _ hu
  rw [h1, Option.bind_some] at hfields ⊢
  have hfe : u :: us = fields (fun b => (d :: ds).contains b) r := by
    unfold reduce at hfields
    rw [if_neg (by simp), mapM_trim_none (by omega)] at hfields
    simpa using hfields
  rw [hfe]
  unfold reduce
  rw [if_neg (fields_ne _ _)]
  have hm : ∀ l : List Bytes, (∀ f ∈ l, f ∈ fields (fun b => (d :: ds).contains b) r) → l.mapM (fun t => trim fuel t T) = some l := by
    intro l
    induction l with
    | nil => exact fun _ => rfl
    | cons f l ih =>
      intro hl
      have hlen : ∀ (q : UInt8 → Bool) (t f : Bytes), f ∈ fields q t → f.length ≤ t.length := by
        intro q t
        induction t with
        | nil => intro f hf; simp only [fields, List.mem_singleton] at hf; rw [hf]; simp
        | cons x t iht =>
          intro f hf
          cases hx : q x with
          | true =>
            rw [fields_cons_true hx, List.mem_cons] at hf
            rcases hf with rfl | hf
            · simp
            · have := iht f hf; simp only [List.length_cons]; omega
          | false =>
            obtain ⟨g, gs, k1, k2⟩ := fields_cons_false hx t
            rw [k2, List.mem_cons] at hf
            rcases hf with rfl | hf
            · have := iht g (by rw [k1]; simp); simp only [List.length_cons]; omega
            · have := iht f (by rw [k1]; simp [hf]); simp only [List.length_cons]; omega
      have hmem := hl f List.mem_cons_self
      have := hlen _ _ _ hmem
      rw [List.mapM_cons, ← hT, trim_clean (by omega) (fields_mem hmem), hT, ih fun g hg => hl g (List.mem_cons_of_mem _ hg)]
      rfl
  rw [hm _ fun _ h => h]
  rfl

/-! ## What does not hold -/

theorem trimLeftOne_nil : ∀ (fuel : Nat) (text : Bytes), trimLeftOne [] fuel text = none
  | 0, _ => rfl
  | fuel + 1, text => by
    rw [trimLeftOne, if_pos ((starts_iff text []).2 ⟨text, rfl⟩), trimLeftOne_nil]
    rfl

/-- Finding 81: trimming an empty token, and splitting at an empty delimiter, do not terminate, for any text. -/
theorem C96_empty_counterexample (fuel : Nat) (text : Bytes) (trimTokens : List Bytes) (compress : Bool) :
    trim fuel text [[]] = none ∧ split fuel text [[]] trimTokens compress = none := by
  constructor
  · unfold trim trimLeft
    cases fuel with
    | zero => rfl
    | succ fuel => rw [trimSide, passTokens, trimLeftOne_nil]; rfl
  · unfold split
    dsimp only
    cases trim fuel text trimTokens with
    | none => rfl
    | some t =>
      rw [Option.bind_some, unify, Option.bind_some]
      unfold splitter
      have : ∀ (f : Nat) (t : Bytes), splitLoop [] f t = none := by
        intro f
        induction f with
        | zero => intro t; rfl
        | succ f ih =>
          intro t
          rw [splitLoop, find_eq (text := t) (pat := []) (p := 0) ⟨t, rfl, Nat.zero_le _⟩ fun i hi => by omega]
          dsimp only
          rw [ih]
          rfl
      rw [this]
      rfl

/-- Finding 80: `trim_left` and `trim_right` return false whatever they trimmed. -/
theorem C96_found_counterexample {tokens : List Bytes} (ht : ∀ t ∈ tokens, t ≠ []) {fuel : Nat} {text : Bytes} (hf : text.length < fuel) :
    (trimLeft fuel text tokens).map (·.1) = some false ∧ (trimRight fuel text tokens).map (·.1) = some false := by
  obtain ⟨r, p, e, -⟩ := trimLeft_spec ht hf
  obtain ⟨r2, p2, e2, -⟩ := trimRight_spec ht hf
  rw [e, e2]
  exact ⟨rfl, rfl⟩

/-- Several delimiters of more than one character interfere: "ab" split at "aa" or "b" is not "a" and "". -/
theorem C96_delimiters_counterexample : split 9 [97, 98] [[97, 97], [98]] [] false = some [[], [97]] := by decide

/-! ## Examples -/

-- " a  b " at spaces; "a, b,,c" at commas with the spaces trimmed.
example : split 9 [32, 97, 32, 32, 98, 32] [[32], [9]] [[32], [9]] true = some [[97], [98]] := by decide
example : words (fun b => [32, 9].contains b) [32, 97, 32, 32, 98, 32] = [[97], [98]] := by decide
example : trim 9 [32, 97, 32] [[32]] = some [97] := by decide
example : replace 9 [97, 97, 97] [97, 97] [98] = some (1, [98, 97]) := by decide
example : trimLeft 9 [32, 97] [[32]] = some (false, [97]) := by decide

end Verif.Strings
