import Verif.Model.Lists
import Verif.Spec.Lists
import Verif.Props.Strings
import Verif.Props.Config
import Verif.Props.Binary
/-!
# C106: lists of values are read back from their text; base 2 and base 32 of C85
-/
namespace Verif.Lists
open Verif Verif.Lists.Spec
open Verif.ScriptText (isWs)
open Verif.Config (Framed word_framed)
open Verif.Radix (encode16 decode16)

theorem ws_iff : ∀ c : UInt8, ([9, 10, 11, 12, 13, 32] : List UInt8).contains c = isWs c := by
  have : ∀ n < 256, ([9, 10, 11, 12, 13, 32] : List UInt8).contains (UInt8.ofNat n) = isWs (UInt8.ofNat n) := by decide +kernel
  intro c
  have := this c.toNat c.toNat_lt
  rwa [UInt8.ofNat_toNat] at this

theorem tokens_eq (s : Bytes) : tokens s = if Strings.words isWs s = [] then [[]] else Strings.words isWs s := by
  have := Strings.C96_words (fuel := s.length + 1) 9 [10, 11, 12, 13, 32] (t := s) (by omega)
  have e : (fun b => ([9, 10, 11, 12, 13, 32] : List UInt8).contains b) = isWs := funext ws_iff
  rw [e] at this
  unfold tokens whitespace
  exact congrArg (Option.getD · []) this

theorem fields_word {t : Bytes} (ht : ∀ c ∈ t, isWs c = false) {s : Bytes} (hs : ∀ c ∈ s.head?, isWs c = true) :
    Strings.fields isWs (t ++ s) = t :: (match s with | [] => [] | _ :: s => Strings.fields isWs s) := by
  induction t with
  | nil =>
    cases s with
    | nil => rfl
    | cons c s => exact Strings.fields_cons_true (hs c rfl) s
  | cons x t ih =>
    obtain ⟨f, fs, h1, h2⟩ := Strings.fields_cons_false (ht x (by simp)) (t ++ s)
    rw [ih fun c hc => ht c (by simp [hc])] at h1
    rw [List.cons_append, h2, ← (List.cons.inj h1).1, ← (List.cons.inj h1).2]

theorem words_eq {s : Bytes} {ws : List Bytes} (h : Words s ws) : Strings.words isWs s = ws := by
  induction h with
  | nil => rfl
  | white c s ws hc _ ih => rw [Strings.words_cons_true hc, ih]
  | word t s ws ht hs _ ih =>
    have : Strings.words isWs (t ++ s) = t :: Strings.words isWs s := by
      unfold Strings.words
      rw [fields_word ht.2 hs, List.filter_cons_of_pos (by simpa using ht.1)]
      cases s with
      | nil => rfl
      | cons c s => rw [Strings.fields_cons_true (hs c rfl), List.filter_cons_of_neg (by simp)]
    rw [this, ih]

theorem joinLoop_eq : ∀ (ts : List Bytes) (out : Bytes), Strings.joinLoop [32] out ts = out ++ ts.flatMap fun t => 32 :: t
  | [], out => by simp [Strings.joinLoop]
  | t :: ts, out => by rw [Strings.joinLoop, joinLoop_eq ts]; simp

theorem words_rest : ∀ (ts : List Bytes), (∀ t ∈ ts, Word t) → Words (ts.flatMap fun t => 32 :: t) ts
  | [], _ => .nil
  | t :: ts, h => by
    refine .white _ _ _ (by decide) (.word _ _ _ (h t (by simp)) ?_ (words_rest ts fun t ht => h t (by simp [ht])))
    intro c hc
    cases ts with
    | nil => simp at hc
    | cons u ts => simp at hc; rw [← hc]; decide

theorem words_join (ts : List Bytes) (h : ∀ t ∈ ts, Word t) : Words (Strings.join ts [32]) ts := by
  cases ts with
  | nil => exact .nil
  | cons t ts =>
    show Words (Strings.joinLoop [32] t ts) _
    rw [joinLoop_eq]
    refine .word _ _ _ (h t (by simp)) ?_ (words_rest ts fun t ht => h t (by simp [ht]))
    intro c hc
    cases ts with
    | nil => simp at hc
    | cons u ts => simp at hc; rw [← hc]; decide

theorem mapM_some {f : Bytes → Option α} {ts : List Bytes} {vs : List α} : ts.mapM f = some vs ↔ List.Forall₂ (fun t v => f t = some v) ts vs := by
  induction ts generalizing vs with
  | nil => cases vs <;> simp
  | cons t ts ih =>
    rw [List.mapM_cons]
    cases ht : f t with
    | none => cases vs <;> simp [ht]
    | some a =>
      cases hts : ts.mapM f with
      | none =>
        cases vs with
        | nil => simp
        | cons v vs => simp only [List.forall₂_cons, ← ih, hts]; simp
      | some as =>
        cases vs with
        | nil => simp
        | cons v vs => simp only [List.forall₂_cons, ← ih, hts, ht]; simp

/-- **C106** What reading a list does: the words of the text, however separated, are read each; the list is refused if one is, and a text without
words is read as one empty word. -/
theorem C106_words (element : Bytes → Option α) {s : Bytes} {ws : List Bytes} (h : Words s ws) (values : List α) :
    deserializeList element s = some values ↔ List.Forall₂ (fun t v => element t = some v) (if ws = [] then [[]] else ws) values := by
  unfold deserializeList
  rw [tokens_eq, words_eq h]
  exact mapM_some

/-- A list that is not empty is read back from its text if each element is, and has a text that is a word. -/
theorem C106_list (write : α → Bytes) (read : Bytes → Option α) (l : List α) (hne : l ≠ []) (h : ∀ a ∈ l, Word (write a) ∧ read (write a) = some a) :
    deserializeList read (serializeList write l) = some l := by
  have hw := words_join (l.map write) (by simpa using fun a ha => (h a ha).1)
  refine (C106_words read hw l).2 ?_
  rw [if_neg (by simpa using hne)]
  clear hne hw
  induction l with
  | nil => simp
  | cons a l ih => exact .cons (h a (by simp)).2 (ih fun b hb => h b (by simp [hb]))

/-- Reading into an array: as many values as it has elements replace them; fewer replace the first; with more there is a write past its end. -/
theorem C106_array (write : α → Bytes) (read : Bytes → Option α) (l array : List α) (hne : l ≠ [])
    (h : ∀ a ∈ l, Word (write a) ∧ read (write a) = some a) :
    (l.length = array.length → deserializeArray read array (serializeList write l) = .ok l) ∧
    (l.length < array.length → deserializeArray read array (serializeList write l) = .ok (l ++ array.drop l.length)) ∧
    (array.length < l.length → deserializeArray read array (serializeList write l) = .undefined) := by
  have hl := C106_list write read l hne h
  have ht : tokens (serializeList write l) = l.map write := by
    unfold serializeList
    rw [tokens_eq, words_eq (words_join (l.map write) (by simpa using fun a ha => (h a ha).1)), if_neg (by simpa using hne)]
  unfold deserializeList at hl
  unfold deserializeArray
  rw [hl, ht, List.length_map]
  refine ⟨fun e => ?_, fun e => ?_, fun e => if_pos e⟩
  · rw [if_neg (by omega)]; simp only [e, List.drop_length, List.append_nil]
  · rw [if_neg (by omega)]

theorem dec_word (n : Nat) : Word (Config.serialize n) := ⟨Config.dec_ne n, Config.dec_noWs n⟩

theorem one_dec (fallback : Bytes) (n : Nat) : serializeOne fallback (Config.serialize n) = Config.serialize n := if_neg (Config.dec_ne n)

/-- Lists of numbers are read back, and refused if a number does not fit. -/
theorem C106_numbers (fallback : Bytes) (limit : Nat) (l : List Nat) (hne : l ≠ []) :
    deserializeNumbers limit (serializeNumbers fallback l) = if ∀ n ∈ l, n < limit then some l else none := by
  have hw := words_join (l.map Config.serialize) (by simpa using fun a _ => dec_word a)
  have : serializeNumbers fallback l = Strings.join (l.map Config.serialize) [32] := by
    unfold serializeNumbers serializeList
    rw [show (fun n => serializeOne fallback (Config.serialize n)) = Config.serialize from funext (one_dec fallback)]
  unfold deserializeNumbers deserializeList
  rw [this, tokens_eq, words_eq hw, if_neg (by simpa using hne), Config.mapM_dec]

theorem hex_word {d : Bytes} (h : d ≠ []) : Word (encode16 d) := ⟨Config.hex_ne h, ScriptText.hex_noWs d⟩

/-- Lists of data are read back if none is empty. -/
theorem C106_data (l : List Bytes) (hne : l ≠ []) (h : ∀ d ∈ l, d ≠ []) : deserializeData (serializeData l) = some l :=
  C106_list encode16 decode16 l hne fun d hd => ⟨hex_word (h d hd), Radix.C31_decode_encode d⟩

/-- Finding 97: no list is read back as the empty one; its text is refused as a list of numbers and read as a list of one empty data; and empty
data is lost from a list. -/
theorem C106_empty_counterexample (fallback : Bytes) (limit : Nat) :
    serializeNumbers fallback [] = [] ∧ deserializeNumbers limit [] = none ∧ deserializeData (serializeData []) = some [[]] ∧
    deserializeData (serializeData [[1], [], [2]]) = some [[1], [2]] := by
  refine ⟨rfl, ?_, by decide +kernel, by decide +kernel⟩
  unfold deserializeNumbers deserializeList
  rw [tokens_eq, words_eq .nil, if_pos rfl]
  rfl

/-- Finding 98: a text with more words than an array has elements is written past its end. -/
theorem C106_array_counterexample : deserializeArray (Config.deserialize 256) [0, 0] [49, 32, 50, 32, 51] = .undefined := by decide +kernel

/-! ### Base 2 and base 32 -/

/-- Bits in a stream are read back; a word that is not of zeros and ones is refused. -/
theorem C85_base2 (x : Binary.Binary) (l : List Bool) (hx : Binary.Holds x l) (hs : x.bytes.length ≤ maxSize) (s : Bytes) :
    (l ≠ [] → Framed s (writeBase2 x) → ∃ y, readBase2 s = some y ∧ Binary.Holds y l) ∧
    (∀ t, Word t → Framed s t → (readBase2 s = none ↔ ∃ c ∈ t, c ≠ 48 ∧ c ≠ 49)) := by
  constructor
  · intro hl h
    have e : writeBase2 x = Binary.text l := Binary.C66_encoded hx hs
    rw [e] at h
    have hc : ∀ c ∈ Binary.text l, isWs c = false := by
      intro c hc
      obtain ⟨b, -, rfl⟩ := List.mem_map.1 hc
      cases b <;> decide
    have hne : Binary.text l ≠ [] := by unfold Binary.text; simpa using hl
    unfold readBase2
    dsimp only
    rw [word_framed h hne hc, Config.word_self hc, (Binary.base2_iff _).2 ⟨l, rfl⟩]
    exact ⟨_, rfl, Binary.ofString_text l⟩
  · intro t ht h
    unfold readBase2 Binary.isBase2
    dsimp only
    rw [word_framed h ht.1 ht.2]
    cases hb : t.all fun c => c == 0x30 || c == 0x31 with
    | true =>
      simp only [Bool.not_true, Bool.false_eq_true, if_false, reduceCtorEq, false_iff]
      rintro ⟨c, hc, h1, h2⟩
      have := List.all_eq_true.1 hb c hc
      simp [h1, h2] at this
    | false =>
      simp only [Bool.not_false, if_true, true_iff]
      obtain ⟨c, hc, h1⟩ := List.all_eq_false.1 hb
      exact ⟨c, hc, by simpa using h1⟩

theorem alphabet32 : ∀ c ∈ Pack.base32Chars, isWs c = false := by decide +kernel

/-- Data in base 32 in a stream is read back. -/
theorem C85_base32 (d s : Bytes) (hd : d ≠ []) (hl : d.length ≤ maxSize) (h : Framed s (writeBase32 d)) : readBase32 s = .ok d := by
  have hc := Pack.C33_base32 d hl [] (by simp)
  unfold writeBase32 at h
  have hne : Pack.encode32 d ≠ [] := by
    intro e
    have := hc.1
    rw [e] at this
    exact hd (by have e2 : Pack.decode32 [] = .ok [] := by decide +kernel
                 rw [e2] at this; exact (Pack.Out.ok.inj this).symm)
  unfold readBase32
  rw [word_framed h hne fun c hh => alphabet32 c (hc.2.2.2 c hh)]
  exact hc.1

/-! ### Examples -/

-- " 1\t2 \n3" has the words "1", "2" and "3".
example : Words [32, 49, 9, 50, 32, 10, 51] [[49], [50], [51]] :=
  .white _ _ _ (by decide) (.word [49] _ _ ⟨by decide, by decide⟩ (by decide) (.white _ _ _ (by decide) (.word [50] _ _ ⟨by decide, by decide⟩ (by decide)
    (.white _ _ _ (by decide) (.white _ _ _ (by decide) (.word [51] _ _ ⟨by decide, by decide⟩ (by decide) .nil))))))

example : deserializeNumbers 256 [32, 49, 9, 50, 32, 10, 51] = some [1, 2, 3] := by decide +kernel
example : serializeNumbers [] [7, 300] = [55, 32, 51, 48, 48] ∧ deserializeNumbers 256 [55, 32, 51, 48, 48] = none := by decide +kernel
example : serializeData [[0xab], [1, 2]] = [97, 98, 32, 48, 49, 48, 50] := by decide +kernel
example : readBase2 [9, 49, 48, 49, 32, 50] = some ⟨3, [0xa0]⟩ ∧ readBase2 [49, 50] = none := by decide +kernel
example : writeBase32 [0xff] = [108, 117] ∧ readBase32 [32, 108, 117] = .ok [0xff] := by decide +kernel
example : Framed [32, 108, 117] (writeBase32 [0xff]) := ⟨[32], [], by decide +kernel, by decide, by simp⟩

end Verif.Lists
