import Verif.Spec.SerialInfo
import Verif.Props.Serial
/-!
# C100: property trees in the info format
-/
namespace Verif.Serial
open Verif.Serial.Spec

/-- Empty, or beginning with whitespace. -/
def Open (s : Bytes) : Prop := ∀ c ∈ s.head?, isSpace c = true

theorem open_nil : Open [] := by intro c h; simp at h
theorem open_append {w s : Bytes} (hw : Open w) (hs : w = [] → Open s) : Open (w ++ s) := by
  cases w with
  | nil => exact hs rfl
  | cons c w => exact fun x hx => hw x hx

theorem words_white {w : Bytes} (hw : White w) {s : Bytes} {ws : List Bytes} (h : Words s ws) : Words (w ++ s) ws := by
  induction w with
  | nil => exact h
  | cons c w ih => exact .space c _ _ (hw c (by simp)) (ih fun x hx => hw x (by simp [hx]))

theorem words_append {s : Bytes} {ws : List Bytes} (h : Words s ws) {r : Bytes} {us : List Bytes} (ho : Open r) (hr : Words r us) :
    Words (s ++ r) (ws ++ us) := by
  induction h with
  | nil => exact hr
  | space c s ws hc _ ih => exact .space c _ _ hc ih
  | word t s ws ht hs _ ih =>
    rw [List.append_assoc, List.cons_append]
    exact .word t _ _ ht (open_append hs fun _ => ho) ih
  | quoted t s ws ht hs _ ih =>
    rw [List.append_assoc, List.cons_append]
    exact .quoted t _ _ ht (open_append hs fun _ => ho) ih

theorem words_word {t : Bytes} (h : Word t) : Words t [t] := by
  have := Words.word t [] [] h open_nil .nil
  rwa [List.append_nil] at this

theorem words_quoted {t : Bytes} (h : ∀ c ∈ t, c ≠ 34) : Words ([34] ++ t ++ [34]) [t] := by
  have := Words.quoted t [] [] h open_nil .nil
  rwa [List.append_nil] at this

theorem white_open {w : Bytes} (h : White w) : Open w := fun c hc => h c (List.mem_of_mem_head? hc)

/-- A text has one sequence of words. -/
theorem words_unique {s : Bytes} {ws : List Bytes} (h : Words s ws) : ∀ {us : List Bytes}, Words s us → ws = us := by
  have split : ∀ {t u a b : Bytes}, (∀ c ∈ t, isSpace c = false) → (∀ c ∈ u, isSpace c = false) → Open a → Open b → t ++ a = u ++ b →
      t = u ∧ a = b := by
    intro t
    induction t with
    | nil =>
      intro u a b _ hu ha _ e
      cases u with
      | nil => exact ⟨rfl, e⟩
      | cons c u =>
        exfalso
        rw [List.nil_append] at e
        have := ha c (by rw [e]; simp)
        rw [hu c (by simp)] at this; cases this
    | cons c t ih =>
      intro u a b ht hu ha hb e
      cases u with
      | nil =>
        exfalso
        rw [List.nil_append] at e
        have := hb c (by rw [← e]; simp)
        rw [ht c (by simp)] at this; cases this
      | cons d u =>
        simp only [List.cons_append, List.cons.injEq] at e
        obtain ⟨e1, e2⟩ := ih (fun x hx => ht x (by simp [hx])) (fun x hx => hu x (by simp [hx])) ha hb e.2
        exact ⟨by rw [e.1, e1], e2⟩
  have cut : ∀ {t u a b : Bytes}, (∀ c ∈ t, c ≠ 34) → (∀ c ∈ u, c ≠ 34) → t ++ 34 :: a = u ++ 34 :: b → t = u ∧ a = b := by
    intro t
    induction t with
    | nil =>
      intro u a b _ hu e
      cases u with
      | nil => exact ⟨rfl, by simpa using e⟩
      | cons c u => simp only [List.nil_append, List.cons_append, List.cons.injEq] at e; exact absurd e.1.symm (hu c (by simp))
    | cons c t ih =>
      intro u a b ht hu e
      cases u with
      | nil => simp only [List.nil_append, List.cons_append, List.cons.injEq] at e; exact absurd e.1 (ht c (by simp))
      | cons d u =>
        simp only [List.cons_append, List.cons.injEq] at e
        obtain ⟨e1, e2⟩ := ih (fun x hx => ht x (by simp [hx])) (fun x hx => hu x (by simp [hx])) e.2
        exact ⟨by rw [e.1, e1], e2⟩
  have head : ∀ {t s : Bytes}, Word t → ∃ c r, t ++ s = c :: r ∧ isSpace c = false ∧ c ≠ 34 := by
    intro t s ht
    obtain ⟨h1, h2, h3⟩ := ht
    cases t with
    | nil => exact absurd rfl h1
    | cons c r => exact ⟨c, r ++ s, rfl, h3 c (by simp), fun e => h2 (by rw [e]; rfl)⟩
  have q34 : isSpace 34 = false := by decide
  induction h with
  | nil =>
    intro us h
    generalize hs : ([] : Bytes) = s at h
    cases h with
    | nil => rfl
    | space c s us hc _ => cases hs
    | word t s us ht _ _ =>
      obtain ⟨c, r, e, _⟩ := head (s := s) ht
      rw [e] at hs; cases hs
    | quoted t s us _ _ _ => cases hs
  | space c s ws hc h ih =>
    intro us h'
    generalize hs : c :: s = s' at h'
    cases h' with
    | nil => cases hs
    | space d s' us hd h' => cases hs; exact ih h'
    | word t s' us ht _ _ =>
      obtain ⟨d, r, e, hd, _⟩ := head (s := s') ht
      rw [e] at hs; cases hs
      rw [hc] at hd; cases hd
    | quoted t s' us _ _ _ =>
      simp only [List.cons_append, List.cons.injEq] at hs
      rw [hs.1, q34] at hc; cases hc
  | word t s ws ht hs0 h ih =>
    intro us h'
    generalize hs : t ++ s = s' at h'
    cases h' with
    | nil =>
      obtain ⟨d, r, e, _⟩ := head (s := s) ht
      rw [e] at hs; cases hs
    | space d s' us hd h' =>
      obtain ⟨c, r, e, hc, _⟩ := head (s := s) ht
      rw [e] at hs; cases hs
      rw [hc] at hd; cases hd
    | word u s' us hu ho h' =>
      obtain ⟨e1, e2⟩ := split ht.2.2 hu.2.2 hs0 ho hs
      subst e1 e2
      rw [ih h']
    | quoted u s' us _ _ _ =>
      obtain ⟨c, r, e, _, hc⟩ := head (s := s) ht
      rw [e] at hs
      simp only [List.cons_append, List.cons.injEq] at hs
      exact absurd hs.1 hc
  | quoted t s ws ht hs0 h ih =>
    intro us h'
    generalize hs : [34] ++ t ++ [34] ++ s = s' at h'
    cases h' with
    | nil => cases hs
    | space d s' us hd h' =>
      simp only [List.cons_append, List.cons.injEq] at hs
      rw [← hs.1, q34] at hd; cases hd
    | word u s' us hu ho h' =>
      obtain ⟨c, r, e, _, hc⟩ := head (s := s') hu
      rw [e] at hs
      simp only [List.cons_append, List.cons.injEq] at hs
      exact absurd hs.1.symm hc
    | quoted u s' us hu _ h' =>
      simp only [List.append_assoc, List.cons_append, List.nil_append, List.cons.injEq, true_and] at hs
      obtain ⟨e1, e2⟩ := cut ht hu hs
      subst e1 e2
      rw [ih h']

theorem word_number (n : Int) : Word (serialize n) := by
  have hd : ∀ c, Spec.isDigit c = true → isSpace c = false ∧ c ≠ 34 := fun c hc => ⟨(digit_other hc).1, (digit_other hc).2.2.2.2.1⟩
  have hall : ∀ m : Nat, ∀ c ∈ Base10.formatDec m, Spec.isDigit c = true := by
    intro m c hc
    obtain ⟨a, b⟩ := (Base10.formatDec_spec m).2.1 c hc
    simp [Spec.isDigit, a, b]
  obtain ⟨c, r, e, hc⟩ := digit_head n.natAbs
  unfold serialize
  split
  · refine ⟨by simp, by simp, fun x hx => ?_⟩
    rcases List.mem_cons.1 hx with rfl | hx
    · decide
    · exact (hd x (hall _ x hx)).1
  · refine ⟨by rw [e]; simp, by rw [e]; simpa using (hd c hc).2, fun x hx => (hd x (hall _ x hx)).1⟩

theorem word_brace : Word [123] ∧ Word [125] := by
  refine ⟨⟨by simp, by simp, ?_⟩, ⟨by simp, by simp, ?_⟩⟩ <;> (intro c hc; rw [List.mem_singleton.1 hc]; decide)

instance : DecidablePred Word := fun s => by unfold Word; infer_instance

theorem starting_open {d : Nat} (h : 0 < d) (s : Bytes) : Open (starting false d ++ s) := by
  refine open_append (white_open (white_starting false d)) fun e => ?_
  unfold starting ending at e
  rw [if_neg (by simp), if_neg (by omega), if_neg (by simp)] at e
  cases e

theorem ending_open (d : Nat) (s : Bytes) : Open (ending false d ++ s) := by
  refine open_append (white_open (white_ending false d)) fun e => ?_
  unfold ending at e
  rw [if_neg (by simp)] at e
  cases e

mutual
/-- Written with indentation, at any depth. -/
theorem write_words (sp : Bytes → Bool) : ∀ (t : Tree), AllInfo sp t → ∀ depth,
    ∃ s, (∀ o, write .info sp false t depth (o, true) = (o ++ (starting false depth ++ s), true)) ∧ Words s (wordsOf t)
  | .null, _, depth => ⟨[110, 117, 108, 108], fun o => by rw [write, emit_good]; rfl, words_word (by decide +kernel)⟩
  | .true_, _, depth => ⟨_, fun o => by rw [write, emit_good], words_word (by decide +kernel)⟩
  | .false_, _, depth => ⟨_, fun o => by rw [write, emit_good], words_word (by decide +kernel)⟩
  | .string text, h, depth => by
    rw [AllInfo] at h
    refine ⟨_, fun o => by rw [write, emit_good], ?_⟩
    rw [wordsOf]
    unfold stringText
    dsimp only
    split at h
    · rename_i hs
      rw [if_pos hs]; exact words_quoted h
    · rename_i hs
      rw [if_neg hs]; exact words_word h
  | .number n, _, depth => ⟨_, fun o => by rw [write, emit_good], words_word (word_number n)⟩
  | .invalid, h, _ => by rw [AllInfo] at h; exact h.elim
  | .array name l, h, depth => by
    rw [AllInfo] at h
    obtain ⟨s, h1, h2, h3⟩ := elements_words sp name l h (depth + 1) (by omega)
    refine ⟨[123] ++ (s ++ (ending false depth ++ [125])), fun o => ?_, ?_⟩
    · rw [write, emit_good, show childDepth .info depth = depth + 1 from rfl, h1, emit_good]
      simp [opening, closing, brackets]
    · rw [wordsOf, List.append_assoc]
      refine words_append (words_word word_brace.1) (open_append h3 fun _ => ending_open _ _) ?_
      exact words_append h2 (ending_open _ _) (words_white (white_ending _ _) (words_word word_brace.2))
  | .object l, h, depth => by
    rw [AllInfo] at h
    obtain ⟨s, h1, h2, h3⟩ := members_words sp l h (depth + 1) (by omega)
    refine ⟨[123] ++ (s ++ (ending false depth ++ [125])), fun o => ?_, ?_⟩
    · rw [write, emit_good, show childDepth .info depth = depth + 1 from rfl, h1, emit_good]
      simp [opening, closing, brackets]
    · rw [wordsOf, List.append_assoc]
      refine words_append (words_word word_brace.1) (open_append h3 fun _ => ending_open _ _) ?_
      exact words_append h2 (ending_open _ _) (words_white (white_ending _ _) (words_word word_brace.2))
theorem elements_words (sp : Bytes → Bool) (name : Bytes) : ∀ (l : List Tree), ElementsInfo sp l → ∀ depth, 0 < depth →
    ∃ s, (∀ o, elements .info sp false name l depth (o, true) = (o ++ s, true)) ∧ Words s (elementWords l) ∧ Open s
  | [], _, depth, _ => ⟨[], fun o => by rw [elements, List.append_nil], .nil, open_nil⟩
  | t :: l, h, depth, hd => by
    rw [ElementsInfo] at h
    obtain ⟨s, h1, h2⟩ := write_words sp t h.1 depth
    obtain ⟨r, g1, g2, g3⟩ := elements_words sp name l h.2 depth hd
    refine ⟨starting false depth ++ s ++ r, fun o => ?_, ?_, ?_⟩
    · rw [elements]
      simp only [reduceCtorEq, if_false, h1, emit_good, elementSeparator, Bool.false_eq_true, List.append_nil, ite_self, g1, List.append_assoc]
    · rw [elementWords]
      exact words_append (words_white (white_starting _ _) h2) g3 g2
    · rw [List.append_assoc]; exact starting_open hd _
theorem members_words (sp : Bytes → Bool) : ∀ (l : List (Bytes × Tree)), MembersInfo sp l → ∀ depth, 0 < depth →
    ∃ s, (∀ o, members .info sp false l depth (o, true) = (o ++ s, true)) ∧ Words s (memberWords l) ∧ Open s
  | [], _, depth, _ => ⟨[], fun o => by rw [members, List.append_nil], .nil, open_nil⟩
  | (name, t) :: l, h, depth, hd => by
    rw [MembersInfo] at h
    obtain ⟨s, h1, h2⟩ := write_words sp t h.2.1 (if t.simple then 0 else depth)
    obtain ⟨r, g1, g2, g3⟩ := members_words sp l h.2.2 depth hd
    have hspace : Open ([32] ++ (starting false (if t.simple then 0 else depth) ++ s)) := by
      intro c hc
      simp only [List.cons_append, List.head?_cons, Option.mem_def, Option.some.injEq] at hc
      rw [← hc]; decide
    refine ⟨starting false depth ++ (name ++ ([32] ++ (starting false (if t.simple then 0 else depth) ++ s))) ++ r, fun o => ?_, ?_, ?_⟩
    · rw [members]
      simp only [named, h1, emit_good, memberSeparator, Bool.false_eq_true, if_false, List.append_nil, ite_self, g1, List.append_assoc]
    · rw [memberWords]
      refine words_append ?_ g3 g2
      refine words_white (white_starting _ _) (words_append (words_word h.1) hspace ?_)
      refine words_white (w := [32]) (fun c hc => by rw [List.mem_singleton.1 hc]; decide) (words_white (white_starting _ _) h2)
    · rw [List.append_assoc]; exact starting_open hd _
end

/-- **C100 (info).** The indented text written for a tree of any depth and size has exactly the words the tree stands for: names and values in order,
braces around the children of arrays and objects; a string with whitespace is quoted and is one word. Missing: a string with whitespace and a quote, an empty
string and one that begins with a quote are not quoted so that they can be told apart (`C100_info_counterexample`); the text on one line is not covered. -/
theorem C100_info_partial (sp : Bytes → Bool) (t : Tree) (h : AllInfo sp t) :
    ∃ s, text .info sp false t = some s ∧ ∀ ws, Words s ws ↔ ws = wordsOf t := by
  obtain ⟨s, h1, h2⟩ := write_words sp t h 0
  refine ⟨s, ?_, fun ws => ⟨fun hw => words_unique hw h2, fun e => e ▸ h2⟩⟩
  unfold text
  rw [h1]
  rfl

/-- **C100 (finding).** Braces are not quoted: the strings "{" and "}" are written as an empty array is. An empty string leaves nothing. -/
theorem C100_info_counterexample (sp : Bytes → Bool) (h0 : sp [] = false) (h1 : sp [123] = false) (h2 : sp [125] = false) :
    text .info sp false (.array [] [.string [123], .string [125]]) = text .info sp false (.array [] [.array [] []]) ∧
    Words ((text .info sp false (.array [] [.string []])).getD []) (wordsOf (.array [] [])) := by
  constructor
  · simp [text, write, elements, emit, opening, closing, brackets, starting, ending, childDepth, stringText, h1, h2, elementSeparator, List.replicate]
  · have e : text .info sp false (.array [] [.string []]) = some ([123] ++ (([10, 32, 32, 32, 32] ++ [10]) ++ [125])) := by
      simp [text, write, elements, emit, opening, closing, brackets, starting, ending, childDepth, stringText, h0, elementSeparator, List.replicate]
    rw [e]
    exact words_append (words_word word_brace.1) (by intro c hc; cases hc; decide)
      (words_white (w := [10, 32, 32, 32, 32] ++ [10]) (by intro c hc; revert c; decide) (words_word word_brace.2))

/-- The members of the sample, one of which has whitespace. -/
example : AllInfo (fun s => s.any isSpace) (.object [([97], .array [120] [.number (-120), .null]), ([98], .object [([99], .string [32, 97])])]) := by
  simp [AllInfo, ElementsInfo, MembersInfo, Word, isSpace]
example : wordsOf (.object [([97], .array [120] [.null]), ([98], .string [32, 97])]) =
    [[123], [97], [123], [110, 117, 108, 108], [125], [98], [32, 97], [125]] := by simp [wordsOf, elementWords, memberWords]

end Verif.Serial
