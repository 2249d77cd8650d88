import Verif.Props.Serial

/-! # C100: property trees as XML -/

namespace Verif.Serial
open Verif Verif.Serial.Spec

/-! ## The reader -/

theorem takeWhile_not {k : UInt8} (a r : Bytes) (h : ∀ c ∈ a, c ≠ k) : (a ++ k :: r).takeWhile (· != k) = a ∧ (a ++ k :: r).dropWhile (· != k) = k :: r := by
  induction a with
  | nil => simp
  | cons c a ih =>
    obtain ⟨h1, h2⟩ := ih fun x hx => h x (by simp [hx])
    have hc : (c != k) = true := by simpa using h c (by simp)
    rw [List.cons_append, List.takeWhile_cons, List.dropWhile_cons, hc]
    simp only [if_true]
    exact ⟨by rw [h1], h2⟩

theorem letter_other : ∀ c : UInt8, isLetter c = true → c ≠ 47 ∧ c ≠ 62 := Der.byte_forall (by decide +kernel)
theorem name_other : ∀ c : UInt8, (isLetter c || Spec.isDigit c || c == 45 || c == 46) = true → c ≠ 62 := Der.byte_forall (by decide +kernel)

theorem name_shape {n : Bytes} (h : XmlName n) : (∃ c r, n = c :: r ∧ c ≠ 47) ∧ ∀ c ∈ n, c ≠ 62 := by
  obtain ⟨c, r, rfl, h1, h2⟩ := h
  refine ⟨⟨c, r, rfl, (letter_other c h1).1⟩, fun x hx => ?_⟩
  rcases List.mem_cons.1 hx with rfl | hx
  · exact (letter_other x h1).2
  · exact name_other x (h2 x hx)

theorem endTag_eq (n rest : Bytes) : endTag n ([60, 47] ++ n ++ [62] ++ rest) = some rest := by
  unfold endTag
  rw [if_pos (List.isPrefixOf_iff_prefix.2 ⟨rest, rfl⟩), List.drop_left]

/-- What may follow elements: an end tag or nothing. -/
def Ends (r : Bytes) : Prop := r = [] ∨ ∃ t, r = 60 :: 47 :: t

theorem xml_end {f : Nat} {w r : Bytes} (hw : White w) (hr : Ends r) : xml (f + 1) (w ++ r) = some ([], r) := by
  unfold xml
  rw [skip_white hw]
  rcases hr with rfl | ⟨t, rfl⟩
  · rfl
  · rw [skip_cons (by decide)]
    simp

/-- The text `s` is read as the elements `l`, before an end tag or the end. -/
def ReadsList (s : Bytes) (l : List Xml) : Prop :=
  (White s ∨ ∃ w b, s = w ++ 60 :: b ∧ White w) ∧
  ∀ f w rest, s.length < f → White w → Ends rest → xml f (s ++ (w ++ rest)) = some (l, rest)
/-- The text `s` is read as the element `e`, before whatever is read. -/
def ReadsOne (s : Bytes) (e : Xml) : Prop :=
  (∃ w b, s = w ++ 60 :: b ∧ White w) ∧
  ∀ f rest more r, s.length ≤ f → xml f rest = some (more, r) → xml (f + 1) (s ++ rest) = some (e :: more, r)

theorem reads_nil : ReadsList [] [] := by
  refine ⟨.inl (by simp [White]), fun f w rest hf hw hr => ?_⟩
  cases f with
  | zero => simp at hf
  | succ f => exact xml_end hw hr

theorem reads_cons {s1 s2 : Bytes} {e : Xml} {l : List Xml} (h1 : ReadsOne s1 e) (h2 : ReadsList s2 l) : ReadsList (s1 ++ s2) (e :: l) := by
  obtain ⟨⟨w, b, e1, hw⟩, h1⟩ := h1
  refine ⟨.inr ⟨w, b ++ s2, by rw [e1]; simp, hw⟩, fun f v rest hf hv hr => ?_⟩
  have hl : 0 < s1.length := by rw [e1]; simp only [List.length_append, List.length_cons]; omega
  cases f with
  | zero => simp at hf
  | succ f =>
    rw [List.length_append] at hf
    rw [List.append_assoc]
    exact h1 f _ l rest (by omega) (h2.2 f v rest (by omega) hv hr)

/-- An opening tag, with what it opens. -/
theorem xml_open {f : Nat} {w n body : Bytes} (hw : White w) (hn : XmlName n) : xml (f + 1) (w ++ ([60] ++ n ++ [62] ++ body)) =
    let text := body.takeWhile (· != 60)
    if text.all isSpace then
      (xml f body).bind fun x => (endTag n x.2).bind fun rest => (xml f rest).map fun y => (.node n x.1 :: y.1, y.2)
    else (endTag n (body.drop text.length)).bind fun rest => (xml f rest).map fun y => (.leaf n text :: y.1, y.2) := by
  obtain ⟨⟨c, r, hc, h47⟩, h62⟩ := name_shape hn
  obtain ⟨t1, t2⟩ := takeWhile_not n body h62
  rw [xml, skip_white hw]
  have e : [60] ++ n ++ [62] ++ body = 60 :: (n ++ 62 :: body) := by simp
  rw [e, skip_cons (by decide)]
  dsimp only
  rw [t1, t2]
  have hh : ¬ (n ++ 62 :: body).head? = some 47 := by
    rw [hc]
    intro h
    exact h47 (by simpa using h)
  simp only [ne_eq, not_true_eq_false, if_false, if_neg hh, List.tail_cons]
  rfl

theorem white_text {w b : Bytes} (hw : White w) : (w ++ 60 :: b).takeWhile (· != 60) = w := by
  refine (takeWhile_not w b fun c hc => ?_).1
  have := hw c hc
  rintro rfl
  revert this; decide

theorem all_white {w : Bytes} (h : White w) : w.all isSpace = true := List.all_eq_true.2 h

theorem reads_node {w n s v : Bytes} {l : List Xml} (hw : White w) (hn : XmlName n) (hs : ReadsList s l) (hv : White v) :
    ReadsOne (w ++ ([60] ++ n ++ [62]) ++ (s ++ (v ++ ([60, 47] ++ n ++ [62])))) (.node n l) := by
  refine ⟨⟨w, n ++ [62] ++ (s ++ (v ++ ([60, 47] ++ n ++ [62]))), by simp, hw⟩, fun f rest more r hf hm => ?_⟩
  have e : w ++ ([60] ++ n ++ [62]) ++ (s ++ (v ++ ([60, 47] ++ n ++ [62]))) ++ rest =
      w ++ ([60] ++ n ++ [62] ++ (s ++ (v ++ ([60, 47] ++ n ++ [62] ++ rest)))) := by simp
  rw [e, xml_open hw hn]
  have ht : ((s ++ (v ++ ([60, 47] ++ n ++ [62] ++ rest))).takeWhile (· != 60)).all isSpace = true := by
    rcases hs.1 with h | ⟨w', b, e', h⟩
    · have e2 : s ++ (v ++ ([60, 47] ++ n ++ [62] ++ rest)) = (s ++ v) ++ 60 :: (47 :: (n ++ [62] ++ rest)) := by simp
      have hsv : White (s ++ v) := by
        intro c hc
        rcases List.mem_append.1 hc with hc | hc
        · exact h c hc
        · exact hv c hc
      rw [e2, white_text hsv]
      exact all_white hsv
    · have e2 : s ++ (v ++ ([60, 47] ++ n ++ [62] ++ rest)) = w' ++ 60 :: (b ++ (v ++ ([60, 47] ++ n ++ [62] ++ rest))) := by rw [e']; simp
      rw [e2, white_text h]
      exact all_white h
  have hb : xml f (s ++ (v ++ ([60, 47] ++ n ++ [62] ++ rest))) = some (l, [60, 47] ++ n ++ [62] ++ rest) := by
    refine hs.2 f v _ ?_ hv (.inr ⟨n ++ [62] ++ rest, by simp⟩)
    simp at hf; omega
  dsimp only
  rw [if_pos ht, hb, Option.bind_some, endTag_eq, Option.bind_some, hm]
  rfl

theorem reads_leaf {w n t : Bytes} (hw : White w) (hn : XmlName n) (ht : XmlText t) :
    ReadsOne (w ++ ([60] ++ n ++ [62]) ++ (t ++ ([60, 47] ++ n ++ [62]))) (if t.all isSpace then .node n [] else .leaf n t) := by
  by_cases h : t.all isSpace = true
  · rw [if_pos h]
    have := reads_node (s := []) hw hn reads_nil (v := t) (List.all_eq_true.1 h)
    simpa using this
  · rw [if_neg h]
    refine ⟨⟨w, n ++ [62] ++ (t ++ ([60, 47] ++ n ++ [62])), by simp, hw⟩, fun f rest more r hf hm => ?_⟩
    have e : w ++ ([60] ++ n ++ [62]) ++ (t ++ ([60, 47] ++ n ++ [62])) ++ rest =
        w ++ ([60] ++ n ++ [62] ++ (t ++ ([60, 47] ++ n ++ [62] ++ rest))) := by simp
    rw [e, xml_open hw hn]
    have e2 : t ++ ([60, 47] ++ n ++ [62] ++ rest) = t ++ 60 :: (47 :: (n ++ [62] ++ rest)) := by simp
    have e3 : (t ++ ([60, 47] ++ n ++ [62] ++ rest)).takeWhile (· != 60) = t := by
      rw [e2]
      exact (takeWhile_not t _ fun c hc => (ht c hc).1).1
    dsimp only
    rw [e3, if_neg h, List.drop_left, endTag_eq, Option.bind_some, hm]
    rfl

/-! ## What is written -/

theorem xml_text_dec (n : Int) : XmlText (serialize n) := by
  have hd : ∀ k, ∀ c ∈ Base10.formatDec k, c ≠ 60 ∧ c ≠ 62 ∧ c ≠ 38 := by
    intro k c hc
    obtain ⟨_, h2, _, _⟩ := Base10.formatDec_spec k
    obtain ⟨a, b⟩ := h2 c hc
    have : ∀ c : UInt8, 48 ≤ c → c ≤ 57 → c ≠ 60 ∧ c ≠ 62 ∧ c ≠ 38 := Der.byte_forall (by decide +kernel)
    exact this c a b
  unfold serialize
  split
  · intro c hc
    rcases List.mem_cons.1 hc with rfl | hc
    · decide
    · exact hd _ c hc
  · exact hd _

theorem starting_zero (flat : Bool) : starting flat 0 = [] := by
  unfold starting; cases flat <;> rfl

/-- A value that is not a compound is written as its text. -/
theorem write_simple (sp : Bytes → Bool) (flat : Bool) (t : Tree) (hs : t.simple = true) (ht : AllXml t) :
    (∀ o, write .xml sp flat t 0 (o, true) = (o ++ plainText t, true)) ∧ XmlText (plainText t) ∧
    ∀ n, element n t = if (plainText t).all isSpace then .node n [] else .leaf n (plainText t) := by
  cases t with
  | null => exact ⟨fun o => by rw [write, starting_zero]; rfl, by simp [plainText, XmlText], fun n => rfl⟩
  | true_ => exact ⟨fun o => by rw [write, starting_zero]; rfl, by unfold plainText XmlText; decide, fun n => rfl⟩
  | false_ => exact ⟨fun o => by rw [write, starting_zero]; rfl, by unfold plainText XmlText; decide, fun n => rfl⟩
  | string s => exact ⟨fun o => by rw [write, starting_zero]; rfl, by rw [AllXml] at ht; exact ht, fun n => rfl⟩
  | number k => exact ⟨fun o => by rw [write, starting_zero]; rfl, xml_text_dec k, fun n => by rw [element] <;> simp⟩
  | invalid => rw [AllXml] at ht; exact ht.elim
  | array _ _ => cases hs
  | object _ => cases hs

theorem simple_reads (sp : Bytes → Bool) (flat : Bool) (t : Tree) (hs : t.simple = true) (ht : AllXml t) (n : Bytes) (hn : XmlName n) (depth : Nat) :
    ∃ s, (∀ o, named .xml flat depth n t.simple (write .xml sp flat t) (o, true) = (o ++ s, true)) ∧ ReadsOne s (element n t) := by
  obtain ⟨h1, h2, h3⟩ := write_simple sp flat t hs ht
  refine ⟨_, fun o => ?_, by rw [h3]; exact reads_leaf (white_starting flat depth) hn h2⟩
  simp only [named, hs, if_true, emit_good, h1]
  simp

mutual
theorem named_reads (sp : Bytes → Bool) (flat : Bool) : ∀ (t : Tree), AllXml t → ∀ n, XmlName n → ∀ depth,
    ∃ s, (∀ o, named .xml flat depth n t.simple (write .xml sp flat t) (o, true) = (o ++ s, true)) ∧ ReadsOne s (element n t)
  | .array name children, ht, n, hn, depth => by
    rw [AllXml] at ht
    obtain ⟨s, h1, h2⟩ := elements_xml sp flat name children ht.1 ht.2 (depth + 1)
    refine ⟨_, fun o => ?_, by rw [element]; exact reads_node (white_starting flat depth) hn h2 (white_ending flat depth)⟩
    simp only [named, Tree.simple, Bool.false_eq_true, if_false, write, opening, closing, childDepth, emit_good, List.append_nil, h1]
    simp
  | .object children, ht, n, hn, depth => by
    rw [AllXml] at ht
    obtain ⟨s, h1, h2⟩ := members_xml sp flat children ht (depth + 1)
    refine ⟨_, fun o => ?_, by rw [element]; exact reads_node (white_starting flat depth) hn h2 (white_ending flat depth)⟩
    simp only [named, Tree.simple, Bool.false_eq_true, if_false, write, opening, closing, childDepth, emit_good, List.append_nil, h1]
    simp
  | .null, ht, n, hn, depth => simple_reads sp flat _ rfl ht n hn depth
  | .true_, ht, n, hn, depth => simple_reads sp flat _ rfl ht n hn depth
  | .false_, ht, n, hn, depth => simple_reads sp flat _ rfl ht n hn depth
  | .string _, ht, n, hn, depth => simple_reads sp flat _ rfl ht n hn depth
  | .number _, ht, n, hn, depth => simple_reads sp flat _ rfl ht n hn depth
  | .invalid, ht, n, hn, depth => simple_reads sp flat _ rfl ht n hn depth
theorem elements_xml (sp : Bytes → Bool) (flat : Bool) (name : Bytes) : ∀ (l : List Tree), (l ≠ [] → XmlName name) → ElementsXml l → ∀ depth,
    ∃ s, (∀ o, elements .xml sp flat name l depth (o, true) = (o ++ s, true)) ∧ ReadsList s (sameNamed name l)
  | [], _, _, depth => ⟨[], fun o => by rw [elements]; simp, by rw [sameNamed]; exact reads_nil⟩
  | c :: cs, hn, hl, depth => by
    rw [ElementsXml] at hl
    obtain ⟨s1, a1, a2⟩ := named_reads sp flat c hl.1 name (hn (by simp)) depth
    obtain ⟨s2, b1, b2⟩ := elements_xml sp flat name cs (fun _ => hn (by simp)) hl.2 depth
    refine ⟨s1 ++ s2, fun o => ?_, by rw [sameNamed]; exact reads_cons a2 b2⟩
    rw [elements]
    simp only [if_true, a1, elementSeparator, emit_good, List.append_nil, ite_self, b1, List.append_assoc]
theorem members_xml (sp : Bytes → Bool) (flat : Bool) : ∀ (l : List (Bytes × Tree)), MembersXml l → ∀ depth,
    ∃ s, (∀ o, members .xml sp flat l depth (o, true) = (o ++ s, true)) ∧ ReadsList s (ownNamed l)
  | [], _, depth => ⟨[], fun o => by rw [members]; simp, by rw [ownNamed]; exact reads_nil⟩
  | (n, c) :: cs, hl, depth => by
    rw [MembersXml] at hl
    obtain ⟨s1, a1, a2⟩ := named_reads sp flat c hl.2.1 n hl.1 depth
    obtain ⟨s2, b1, b2⟩ := members_xml sp flat cs hl.2.2 depth
    refine ⟨s1 ++ s2, fun o => ?_, by rw [ownNamed]; exact reads_cons a2 b2⟩
    rw [members]
    simp only [a1, memberSeparator, emit_good, List.append_nil, ite_self, b1, List.append_assoc]
end

/-- **C100 (XML).** The text written for an array or an object of any depth and size, on one line or indented, is XML: the elements of that
name in order, each with exactly the text or the elements of its value. The names must be names in XML, and texts without markup. -/
theorem C100_xml_partial (sp : Bytes → Bool) (flat : Bool) :
    (∀ name children, AllXml (.array name children) → ∃ s, text .xml sp flat (.array name children) = some s ∧
      document s = some (sameNamed name children)) ∧
    (∀ children, AllXml (.object children) → ∃ s, text .xml sp flat (.object children) = some s ∧ document s = some (ownNamed children)) := by
  have key : ∀ s l, ReadsList s l → document s = some l := by
    intro s l h
    unfold document
    have := h.2 (s.length + 1) [] [] (by omega) (by simp [White]) (.inl rfl)
    rw [List.append_nil, List.append_nil] at this
    rw [this]; rfl
  constructor
  · intro name children ht
    rw [AllXml] at ht
    obtain ⟨s, h1, h2⟩ := elements_xml sp flat name children ht.1 ht.2 0
    refine ⟨s, ?_, key s _ h2⟩
    unfold text
    simp only [write, opening, closing, childDepth, emit_good, List.append_nil, h1, List.nil_append, if_true]
  · intro children ht
    rw [AllXml] at ht
    obtain ⟨s, h1, h2⟩ := members_xml sp flat children ht 0
    refine ⟨s, ?_, key s _ h2⟩
    unfold text
    simp only [write, opening, closing, childDepth, emit_good, List.append_nil, h1, List.nil_append, if_true]

/-- Not in general: markup in a string is written as it is, so that a text and an element are written alike. -/
theorem C100_xml_counterexample (sp : Bytes → Bool) : text .xml sp true (.object [([97], .string [60, 98, 62, 60, 47, 98, 62])]) =
    text .xml sp true (.object [([97], .object [([98], .null)])]) := rfl

/-! ## A concrete case -/

def xmlSample : Tree := .object [([97], .array [120] [.number (-120), .null, .array [] []]), ([98], .object [([99], .string [32, 97])]), ([100], .true_)]

example : AllXml xmlSample := by
  have n : ∀ c : UInt8, isLetter c = true → XmlName [c] := fun c h => ⟨c, [], rfl, h, by simp⟩
  simp only [xmlSample, AllXml, ElementsXml, MembersXml]
  exact ⟨n _ (by decide), ⟨fun _ => n _ (by decide), trivial, trivial, ⟨fun h => absurd rfl h, trivial⟩, trivial⟩, n _ (by decide),
    ⟨n _ (by decide), (by unfold XmlText; decide), trivial⟩, n _ (by decide), trivial, trivial⟩
example : (match xmlSample with | .object children => ownNamed children | _ => []) =
    [.node [97] [.leaf [120] (serialize (-120)), .node [120] [], .node [120] []], .node [98] [.leaf [99] [32, 97]],
    .leaf [100] [116, 114, 117, 101]] := by
  have h : ∃ x, x ∈ serialize (-120) ∧ isSpace x = false := ⟨45, by simp [serialize], by decide⟩
  simp [xmlSample, ownNamed, sameNamed, element, plainText, h]
  decide

end Verif.Serial
