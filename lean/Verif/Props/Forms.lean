import Verif.Spec.Forms
import Verif.Props.Utf
import Verif.Props.Strings

namespace Verif.Forms
open Verif.Utf Verif.Strings

theorem blank_iff (p : Nat) : isAsciiWhitespace p = true ↔ Blank p := by
  simp only [isAsciiWhitespace, Blank, Bool.or_eq_true, Bool.and_eq_true, decide_eq_true_eq, beq_iff_eq]
  omega

theorem cjk_iff (p : Nat) : isCjk p = true ↔ Cjk p := by
  unfold isCjk Cjk isContained isUnicode
  simp only [Bool.and_eq_true, decide_eq_true_eq, List.any_eq_true]
  constructor
  · exact fun h => h.2
  · intro h
    refine ⟨?_, h⟩
    obtain ⟨i, hi, h1, h2⟩ := h
    have : ∀ i ∈ cjkIntervals, i.2 ≤ Unicode.maxPoint := by decide
    exact Nat.le_trans h2 (this i hi)

/-! ## The words, in points -/

/-- The parts between blanks. -/
def parts : List Nat → List (List Nat)
  | [] => [[]]
  | p :: t => if isAsciiWhitespace p then [] :: parts t else
    match parts t with
    | [] => [[p]]
    | f :: fs => (p :: f) :: fs

def wordsOf (t : List Nat) : List (List Nat) := (parts t).filter (· ≠ [])

theorem parts_ne : ∀ t, parts t ≠ []
  | [] => by simp [parts]
  | p :: t => by
    rw [parts]
    split
    · simp
    · split <;> simp

theorem parts_true {p : Nat} (h : isAsciiWhitespace p = true) (t : List Nat) : parts (p :: t) = [] :: parts t := by
  rw [parts, if_pos h]

theorem parts_false {p : Nat} (h : isAsciiWhitespace p = false) (t : List Nat) : ∃ f fs, parts t = f :: fs ∧ parts (p :: t) = (p :: f) :: fs := by
  cases hf : parts t with
  | nil => exact absurd hf (parts_ne t)
  | cons f fs => exact ⟨f, fs, rfl, by rw [parts, if_neg (by simp [h]), hf]⟩

/-- The bytes at which `split` splits. -/
def blanks : List UInt8 := [0x0a, 0x0b, 0x0c, 0x0d, 0x20]
def isBlankByte (b : UInt8) : Bool := ((0x09 : UInt8) :: blanks).contains b

theorem blankByte_iff (b : UInt8) : isBlankByte b = isAsciiWhitespace b.toNat := by
  revert b; exact byte_all (by decide +kernel)

/-- A character that is no blank has no blank byte. -/
theorem encode_no_blank {p : Nat} (h : Scalar p) (hb : isAsciiWhitespace p = false) : ∀ b ∈ encode8One p, isBlankByte b = false := by
  intro b hm
  rw [blankByte_iff]
  by_cases c : p < 0x80
  · unfold encode8One at hm
    rw [if_pos c, List.mem_singleton] at hm
    rw [hm, toNat_ofNat (by omega), hb]
  · have hge : 128 ≤ b.toNat := by
      unfold encode8One at hm
      have := h.1
      rw [if_neg c] at hm
      split at hm
      · simp only [List.mem_cons, List.not_mem_nil, or_false] at hm
        rcases hm with e | e <;> (rw [e, toNat_ofNat (by omega)]; omega)
      · split at hm
        · simp only [List.mem_cons, List.not_mem_nil, or_false] at hm
          rcases hm with e | e | e <;> (rw [e, toNat_ofNat (by omega)]; omega)
        · simp only [List.mem_cons, List.not_mem_nil, or_false] at hm
          rcases hm with e | e | e | e <;> (rw [e, toNat_ofNat (by omega)]; omega)
    apply bneg
    rw [blank_iff]
    unfold Blank
    omega

theorem blank_scalar {p : Nat} (h : isAsciiWhitespace p = true) : Scalar p ∧ encode8One p = [UInt8.ofNat p] ∧ isBlankByte (UInt8.ofNat p) = true := by
  have hb := (blank_iff p).1 h
  have hl : p < 0x80 := by unfold Blank at hb; omega
  refine ⟨⟨by omega, by omega⟩, by rw [encode8One, if_pos hl], ?_⟩
  rw [blankByte_iff, toNat_ofNat (by omega), h]

theorem fields_prefix {x : Bytes} (h : ∀ b ∈ x, isBlankByte b = false) (t : Bytes) :
    ∃ f fs, fields isBlankByte t = f :: fs ∧ fields isBlankByte (x ++ t) = (x ++ f) :: fs := by
  induction x with
  | nil =>
    cases hf : fields isBlankByte t with
    | nil => exact absurd hf (fields_ne _ t)
    | cons f fs => exact ⟨f, fs, rfl, by simp [hf]⟩
  | cons b x ih =>
    obtain ⟨f, fs, e1, e2⟩ := ih fun c hc => h c (List.mem_cons_of_mem _ hc)
    obtain ⟨g, gs, k1, k2⟩ := fields_cons_false (p := isBlankByte) (h b (List.mem_cons_self ..)) (x ++ t)
    rw [e2] at k1
    simp only [List.cons.injEq] at k1
    refine ⟨f, fs, e1, ?_⟩
    rw [List.cons_append, k2, ← k1.1, ← k1.2]
    rfl

theorem fields_bytes : ∀ {points : List Nat}, (∀ p ∈ points, Scalar p) → fields isBlankByte (bytesOf points) = (parts points).map bytesOf
  | [], _ => rfl
  | p :: ps, h => by
    have ih := fields_bytes (points := ps) fun q hq => h q (List.mem_cons_of_mem _ hq)
    have e : bytesOf (p :: ps) = encode8One p ++ bytesOf ps := rfl
    rw [e]
    cases hb : isAsciiWhitespace p with
    | true =>
      obtain ⟨_, e1, e2⟩ := blank_scalar hb
      rw [e1, List.singleton_append, fields_cons_true (p := isBlankByte) e2, ih, parts_true hb]
      rfl
    | false =>
      obtain ⟨f, fs, k1, k2⟩ := fields_prefix (encode_no_blank (h p (List.mem_cons_self ..)) hb) (bytesOf ps)
      obtain ⟨g, gs, j1, j2⟩ := parts_false hb ps
      rw [ih, j1] at k1
      simp only [List.map_cons, List.cons.injEq] at k1
      rw [k2, j2, List.map_cons, ← k1.1, ← k1.2]
      rfl

theorem bytesOf_nil {points : List Nat} (h : ∀ p ∈ points, Scalar p) : bytesOf points = [] ↔ points = [] := by
  cases points with
  | nil => simp [bytesOf]
  | cons p ps =>
    have e : bytesOf (p :: ps) = encode8One p ++ bytesOf ps := rfl
    rw [e, List.append_eq_nil_iff]
    simp [encode_ne (h p (List.mem_cons_self ..))]

theorem parts_mem : ∀ {t f : List Nat}, f ∈ parts t → ∀ p ∈ f, p ∈ t ∧ isAsciiWhitespace p = false
  | [], f, hf => by
    simp only [parts, List.mem_singleton] at hf
    subst hf; simp
  | p :: t, f, hf => by
    cases hb : isAsciiWhitespace p with
    | true =>
      rw [parts_true hb, List.mem_cons] at hf
      rcases hf with rfl | hf
      · simp
      · exact fun q hq => ⟨List.mem_cons_of_mem _ (parts_mem hf q hq).1, (parts_mem hf q hq).2⟩
    | false =>
      obtain ⟨g, gs, e1, e2⟩ := parts_false hb t
      rw [e2, List.mem_cons] at hf
      rcases hf with rfl | hf
      · intro q hq
        rcases List.mem_cons.1 hq with rfl | hq
        · exact ⟨List.mem_cons_self .., hb⟩
        · have := parts_mem (t := t) (f := g) (by rw [e1]; simp) q hq
          exact ⟨List.mem_cons_of_mem _ this.1, this.2⟩
      · intro q hq
        have := parts_mem (t := t) (f := f) (by rw [e1]; simp [hf]) q hq
        exact ⟨List.mem_cons_of_mem _ this.1, this.2⟩

theorem wordsOf_word {t w : List Nat} (h : w ∈ wordsOf t) : Word w ∧ ∀ p ∈ w, p ∈ t := by
  unfold wordsOf at h
  rw [List.mem_filter] at h
  refine ⟨⟨by simpa using h.2, fun p hp hb => ?_⟩, fun p hp => (parts_mem h.1 p hp).1⟩
  have := (parts_mem h.1 p hp).2
  rw [(blank_iff p).2 hb] at this
  cases this

theorem words_bytes {points : List Nat} (h : ∀ p ∈ points, Scalar p) : words isBlankByte (bytesOf points) = (wordsOf points).map bytesOf := by
  unfold words wordsOf
  rw [fields_bytes h, List.filter_map]
  congr 1
  apply List.filter_congr
  intro f hf
  have hs : ∀ p ∈ f, Scalar p := fun p hp => h p (parts_mem hf p hp).1
  simp only [Function.comp, ne_eq, decide_not, bytesOf_nil hs]

/-- The words with a space between them, in points. -/
def betweenN : List (List Nat) → List Nat
  | [] => []
  | [t] => t
  | t :: u :: ts => t ++ 32 :: betweenN (u :: ts)

theorem between_bytes : ∀ ws : List (List Nat), between [0x20] (ws.map bytesOf) = bytesOf (betweenN ws)
  | [] => rfl
  | [w] => rfl
  | u :: v :: ws => by
    have ih := between_bytes (v :: ws)
    rw [List.map_cons] at ih
    rw [List.map_cons, List.map_cons, between, ih, betweenN, bytesOf_append]
    have e : bytesOf (32 :: betweenN (v :: ws)) = [0x20] ++ bytesOf (betweenN (v :: ws)) := rfl
    rw [e, List.append_assoc]

theorem spaced_words (text : Bytes) : spaced text = between [0x20] (words isBlankByte text) := by
  unfold spaced
  have e : asciiTokens = ((0x09 : UInt8) :: blanks).map fun b => [b] := rfl
  rw [e, C96_words (fuel := text.length + 1) 0x09 blanks (by omega), Option.getD_some, join_eq]
  have e2 : (fun b => ((0x09 : UInt8) :: blanks).contains b) = isBlankByte := rfl
  rw [e2]
  split
  · rename_i h; rw [h]; rfl
  · rfl

theorem spaced_bytes {points : List Nat} (h : ∀ p ∈ points, Scalar p) : spaced (bytesOf points) = bytesOf (betweenN (wordsOf points)) := by
  rw [spaced_words, words_bytes h, between_bytes]

/-! ## Squeezing -/

def lastCjk (u : List Nat) : Bool := u.getLast?.any isCjk
def firstCjk (u : List Nat) : Bool := u.head?.any isCjk

/-- The words joined with a space, but not between characters of the scripts. -/
def joinCjk : List (List Nat) → List Nat
  | [] => []
  | [w] => w
  | u :: v :: ws => u ++ ((if lastCjk u && firstCjk v then [] else [32]) ++ joinCjk (v :: ws))

theorem squeeze_word {last p : Nat} (h : isAsciiWhitespace p = false) (r : List Nat) : squeeze last (p :: r) = p :: squeeze p r := by
  cases r with
  | nil => rfl
  | cons q r => rw [squeeze, h]; simp

theorem squeeze_space {last q : Nat} (r : List Nat) (h : isAsciiWhitespace q = false) :
    squeeze last (32 :: q :: r) = (if isCjk last && isCjk q then [] else [32]) ++ squeeze 32 (q :: r) := by
  rw [squeeze]
  have : isAsciiWhitespace 32 = true := rfl
  rw [this, Bool.true_and]
  cases isCjk last && isCjk q <;> simp

theorem word_blank {w : List Nat} (h : Word w) {p : Nat} (hp : p ∈ w) : isAsciiWhitespace p = false := by
  apply bneg
  rw [blank_iff]
  exact h.2 p hp

theorem squeeze_words : ∀ (ws : List (List Nat)), (∀ w ∈ ws, Word w) → ∀ last, squeeze last (betweenN ws) = joinCjk ws
  | [], _, _ => rfl
  | [w], h, last => by
    have hw := h w (by simp)
    show squeeze last w = w
    have : ∀ (x : List Nat) (last : Nat), (∀ p ∈ x, isAsciiWhitespace p = false) → squeeze last x = x := by
      intro x
      induction x with
      | nil => exact fun _ _ => rfl
      | cons p x ih =>
        intro last hx
        rw [squeeze_word (hx p (List.mem_cons_self ..)), ih p fun q hq => hx q (List.mem_cons_of_mem _ hq)]
    exact this w last fun p hp => word_blank hw hp
  | u :: v :: ws, h, last => by
    have hu := h u (by simp)
    have hv := h v (by simp)
    have ih := squeeze_words (v :: ws) fun w hw => h w (List.mem_cons_of_mem _ hw)
    obtain ⟨b, v', ev⟩ : ∃ b v', v = b :: v' := by
      cases v with
      | nil => exact absurd rfl hv.1
      | cons b v' => exact ⟨b, v', rfl⟩
    have hb : isAsciiWhitespace b = false := word_blank hv (by rw [ev]; simp)
    obtain ⟨t, ht⟩ : ∃ t, betweenN (v :: ws) = b :: t := by
      cases ws with
      | nil => exact ⟨v', ev⟩
      | cons x ws => exact ⟨v' ++ 32 :: betweenN (x :: ws), by rw [betweenN, ev]; rfl⟩
    have key : ∀ (x : List Nat) (last : Nat), x ≠ [] → (∀ p ∈ x, isAsciiWhitespace p = false) →
        squeeze last (x ++ 32 :: b :: t) = x ++ ((if lastCjk x && isCjk b then [] else [32]) ++ squeeze 32 (b :: t)) := by
      intro x
      induction x with
      | nil => exact fun _ h => absurd rfl h
      | cons p x ihx =>
        intro last _ hx
        rw [List.cons_append, squeeze_word (hx p (List.mem_cons_self ..))]
        cases x with
        | nil => rw [List.nil_append, squeeze_space _ hb]; rfl
        | cons q x =>
          rw [ihx p (by simp) fun r hr => hx r (List.mem_cons_of_mem _ hr)]
          have : lastCjk (p :: q :: x) = lastCjk (q :: x) := by unfold lastCjk; rw [List.getLast?_cons_cons]
          rw [this]; rfl
    rw [betweenN, ht, key u last hu.1 (fun p hp => word_blank hu hp), ← ht, ih 32, joinCjk]
    have : firstCjk v = isCjk b := by rw [ev]; rfl
    rw [this]

theorem squeeze_sub : ∀ (l : List Nat) (last : Nat), ∀ p ∈ squeeze last l, p ∈ l
  | [], _, p, h => by simp [squeeze] at h
  | [q], _, p, h => by simpa [squeeze] using h
  | q :: r :: l, last, p, h => by
    rw [squeeze] at h
    split at h
    · rcases List.mem_cons.1 h with e | e
      · rw [e]; exact List.mem_cons_self ..
      · exact List.mem_cons_of_mem _ (squeeze_sub (r :: l) q p e)
    · exact List.mem_cons_of_mem _ (squeeze_sub (r :: l) q p h)

theorem betweenN_mem : ∀ {ws : List (List Nat)} {p : Nat}, p ∈ betweenN ws → p = 32 ∨ ∃ w ∈ ws, p ∈ w
  | [], p, h => by simp [betweenN] at h
  | [w], p, h => Or.inr ⟨w, by simp, h⟩
  | u :: v :: ws, p, h => by
    rw [betweenN, List.mem_append, List.mem_cons] at h
    rcases h with h | h | h
    · exact Or.inr ⟨u, by simp, h⟩
    · exact Or.inl h
    · rcases betweenN_mem h with h | ⟨w, h1, h2⟩
      · exact Or.inl h
      · exact Or.inr ⟨w, List.mem_cons_of_mem _ h1, h2⟩

theorem between_scalar {points : List Nat} (h : ∀ p ∈ points, Scalar p) : ∀ p ∈ betweenN (wordsOf points), Scalar p := by
  intro p hp
  rcases betweenN_mem hp with e | ⟨w, h1, h2⟩
  · rw [e]; exact ⟨by omega, by omega⟩
  · exact h p ((wordsOf_word h1).2 p h2)

theorem ofUtf32_scalar {points : List Nat} (h : ∀ p ∈ points, Scalar p) : ofUtf32 points = bytesOf points := by
  unfold ofUtf32 encode8
  rw [if_pos (by rw [List.all_eq_true]; exact fun p hp => (scalar_iff p).2 (h p hp))]
  rfl

theorem toUtf32_bytes {points : List Nat} (h : ∀ p ∈ points, Scalar p) : toUtf32 (bytesOf points) = points := by
  unfold toUtf32
  rw [(C97_utf8 (bytesOf points) points).2 ⟨h, rfl⟩]
  rfl

theorem short_join {ws : List (List Nat)} (h : ∀ w ∈ ws, Word w) (hl : (betweenN ws).length < 3) : joinCjk ws = betweenN ws := by
  match ws, h with
  | [], _ => rfl
  | [w], _ => rfl
  | u :: v :: ws, h =>
    have h1 := List.length_pos_iff.2 (h u (by simp)).1
    have h2 := List.length_pos_iff.2 (h v (by simp)).1
    have h3 : v.length ≤ (betweenN (v :: ws)).length := by
      cases ws with
      | nil => exact Nat.le_refl _
      | cons x ws => rw [betweenN, List.length_append]; omega
    rw [betweenN, List.length_append, List.length_cons] at hl
    omega

theorem compressed_bytes {points : List Nat} (h : ∀ p ∈ points, Scalar p) : compressed (bytesOf points) = bytesOf (joinCjk (wordsOf points)) := by
  have hw : ∀ w ∈ wordsOf points, Word w := fun w hw => (wordsOf_word hw).1
  have hs := between_scalar h
  unfold compressed
  dsimp only
  rw [spaced_bytes h, toUtf32_bytes hs]
  match hm : betweenN (wordsOf points) with
  | a :: b :: c :: r =>
    dsimp only
    have hj := squeeze_words (wordsOf points) hw 0
    rw [hm] at hj
    have ha : isAsciiWhitespace a = false := by
      cases hws : wordsOf points with
      | nil => rw [hws] at hm; simp [betweenN] at hm
      | cons w ws =>
        have hww := hw w (by rw [hws]; simp)
        cases w with
        | nil => exact absurd rfl hww.1
        | cons p w =>
          have : a = p := by
            rw [hws] at hm
            cases ws with
            | nil => rw [betweenN] at hm; simp only [List.cons.injEq] at hm; exact hm.1.symm
            | cons x ws => rw [betweenN] at hm; simp only [List.cons_append, List.cons.injEq] at hm; exact hm.1.symm
          rw [this]; exact word_blank hww (by simp)
    rw [squeeze_word ha] at hj
    rw [hj, ofUtf32_scalar]
    intro p hp
    rw [← hj] at hp
    apply hs p
    rw [hm]
    rcases List.mem_cons.1 hp with e | e
    · rw [e]; simp
    · exact List.mem_cons_of_mem _ (squeeze_sub _ _ p e)
  | [] => dsimp only; rw [short_join hw (by rw [hm]; simp), hm]
  | [a] => dsimp only; rw [short_join hw (by rw [hm]; simp), hm]
  | [a, b] => dsimp only; rw [short_join hw (by rw [hm]; simp), hm]

/-! ## The specification -/

theorem blank_true {p : Nat} (h : Blank p) : isAsciiWhitespace p = true := (blank_iff p).2 h

theorem wordsOf_blank {p : Nat} (h : Blank p) (t : List Nat) : wordsOf (p :: t) = wordsOf t := by
  unfold wordsOf
  rw [parts_true (blank_true h)]
  simp

theorem wordsOf_gap : ∀ {gap : List Nat} (t : List Nat), (∀ p ∈ gap, Blank p) → wordsOf (gap ++ t) = wordsOf t
  | [], _, _ => rfl
  | p :: gap, t, h => by
    rw [List.cons_append, wordsOf_blank (h p (List.mem_cons_self ..)), wordsOf_gap t fun q hq => h q (List.mem_cons_of_mem _ hq)]

theorem parts_word {w : List Nat} (h : ∀ p ∈ w, ¬ Blank p) (t : List Nat) : ∃ f fs, parts t = f :: fs ∧ parts (w ++ t) = (w ++ f) :: fs := by
  induction w with
  | nil =>
    cases hf : parts t with
    | nil => exact absurd hf (parts_ne t)
    | cons f fs => exact ⟨f, fs, rfl, by simp [hf]⟩
  | cons p w ih =>
    obtain ⟨f, fs, e1, e2⟩ := ih fun c hc => h c (List.mem_cons_of_mem _ hc)
    obtain ⟨g, gs, k1, k2⟩ := parts_false (p := p) (bneg fun e => h p (List.mem_cons_self ..) ((blank_iff p).1 e)) (w ++ t)
    rw [e2] at k1
    simp only [List.cons.injEq] at k1
    refine ⟨f, fs, e1, ?_⟩
    rw [List.cons_append, k2, ← k1.1, ← k1.2]
    rfl

theorem wordsOf_word_blank {w : List Nat} (h : Word w) {b : Nat} (hb : Blank b) (t : List Nat) : wordsOf (w ++ b :: t) = w :: wordsOf t := by
  obtain ⟨f, fs, e1, e2⟩ := parts_word h.2 (b :: t)
  rw [parts_true (blank_true hb)] at e1
  simp only [List.cons.injEq] at e1
  unfold wordsOf
  rw [e2, ← e1.1, ← e1.2, List.append_nil, List.filter_cons_of_pos (by simpa using h.1)]

theorem wordsOf_one {w : List Nat} (h : Word w) : wordsOf w = [w] := by
  obtain ⟨f, fs, e1, e2⟩ := parts_word h.2 []
  simp only [parts, List.cons.injEq] at e1
  unfold wordsOf
  rw [List.append_nil] at e2
  rw [e2, ← e1.1, ← e1.2, List.append_nil, List.filter_cons_of_pos (by simpa using h.1)]
  rfl

theorem words_fn {t : List Nat} {ws : List (List Nat)} (h : Words t ws) : ws = wordsOf t := by
  induction h with
  | @none gap h =>
    have := wordsOf_gap [] h
    rw [List.append_nil] at this
    rw [this]; rfl
  | @last gap w after h1 h2 h3 =>
    rw [List.append_assoc, wordsOf_gap _ h1]
    cases after with
    | nil => rw [List.append_nil, wordsOf_one h2]
    | cons b after =>
      have := wordsOf_gap [] (gap := after) fun p hp => h3 p (List.mem_cons_of_mem _ hp)
      rw [List.append_nil] at this
      rw [wordsOf_word_blank h2 (h3 b (List.mem_cons_self ..)), this]
      rfl
  | @cons gap w b rest v ws h1 h2 h3 _ ih =>
    rw [List.append_assoc, wordsOf_gap _ h1, wordsOf_word_blank h2 h3, ← ih]

theorem words_nil {t : List Nat} (h : Words t []) : ∀ p ∈ t, Blank p := by
  cases h with
  | none h => exact h

theorem mem_takeWhile {q : Nat → Bool} : ∀ {l : List Nat} {p : Nat}, p ∈ l.takeWhile q → q p = true
  | [], _, h => by simp at h
  | x :: l, p, h => by
    rw [List.takeWhile_cons] at h
    split at h
    · rcases List.mem_cons.1 h with e | e
      · rw [e]; assumption
      · exact mem_takeWhile e
    · simp at h

theorem dropWhile_head {q : Nat → Bool} : ∀ {l : List Nat} {p : Nat} {r : List Nat}, l.dropWhile q = p :: r → q p = false
  | [], _, _, h => by simp at h
  | x :: l, p, r, h => by
    rw [List.dropWhile_cons] at h
    split at h
    · exact dropWhile_head h
    · simp only [List.cons.injEq] at h
      rw [← h.1]; apply bneg; assumption

theorem words_exist : ∀ (n : Nat) (t : List Nat), t.length ≤ n → ∃ ws, Words t ws := by
  intro n
  induction n with
  | zero =>
    intro t h
    have : t = [] := List.length_eq_zero_iff.1 (by omega)
    subst this
    exact ⟨[], Words.none (by simp)⟩
  | succ n ih =>
    intro t h
    have e1 := List.takeWhile_append_dropWhile (p := isAsciiWhitespace) (l := t)
    have hg : ∀ p ∈ t.takeWhile isAsciiWhitespace, Blank p := fun p hp => (blank_iff p).1 (mem_takeWhile hp)
    cases hr : t.dropWhile isAsciiWhitespace with
    | nil =>
      rw [hr, List.append_nil] at e1
      refine ⟨[], Words.none ?_⟩
      rw [← e1]; exact hg
    | cons p r =>
      have hp := dropWhile_head hr
      have e2 := List.takeWhile_append_dropWhile (p := fun x => !isAsciiWhitespace x) (l := p :: r)
      have hw : Word ((p :: r).takeWhile fun x => !isAsciiWhitespace x) := by
        refine ⟨by rw [List.takeWhile_cons, hp]; simp, fun q hq hb => ?_⟩
        have := mem_takeWhile hq
        rw [blank_true hb] at this
        cases this
      cases hr2 : (p :: r).dropWhile (fun x => !isAsciiWhitespace x) with
      | nil =>
        refine ⟨[(p :: r).takeWhile fun x => !isAsciiWhitespace x], ?_⟩
        rw [hr2] at e2
        rw [hr, ← e2] at e1
        have := Words.last hg hw (after := []) (by simp)
        rw [List.append_assoc, e1] at this
        exact this
      | cons b rest =>
        have hb : Blank b := by
          have := dropWhile_head hr2
          apply (blank_iff b).1
          simpa using this
        have hlen : rest.length ≤ n := by
          have l1 := congrArg List.length e1
          have l2 := congrArg List.length e2
          rw [hr2] at l2
          rw [hr] at l1
          simp only [List.length_append, List.length_cons] at l1 l2
          have := List.length_pos_iff.2 hw.1
          omega
        obtain ⟨ws, hws⟩ := ih rest hlen
        rw [hr2] at e2
        rw [hr, ← e2] at e1
        cases ws with
        | nil =>
          have := words_nil hws
          have := Words.last hg hw (after := b :: rest) (by
            intro q hq
            rcases List.mem_cons.1 hq with e | e
            · rw [e]; exact hb
            · exact this q e)
          rw [List.append_assoc, e1] at this
          exact ⟨_, this⟩
        | cons v ws =>
          have := Words.cons hg hw hb hws
          rw [List.append_assoc, e1] at this
          exact ⟨_, this⟩

theorem words_iff (t : List Nat) (ws : List (List Nat)) : Words t ws ↔ ws = wordsOf t := by
  refine ⟨words_fn, fun h => ?_⟩
  obtain ⟨ws', hw⟩ := words_exist t.length t (Nat.le_refl _)
  rw [h, ← words_fn hw]
  exact hw

theorem last_append (u : List Nat) (a : Nat) : lastCjk (u ++ [a]) = isCjk a := by
  unfold lastCjk
  rw [List.getLast?_append]
  rfl

theorem joined_fn {ws : List (List Nat)} {t : List Nat} (h : Joined ws t) : t = joinCjk ws := by
  induction h with
  | none => rfl
  | last => rfl
  | @space u v r a b ws text h1 _ h3 ih =>
    have e : firstCjk (b :: v) = isCjk b := rfl
    rw [h3, joinCjk, last_append, e, ← ih]
    have : (isCjk a && isCjk b) = false := by
      apply bneg
      rw [Bool.and_eq_true, cjk_iff, cjk_iff]; exact h1
    rw [this]
    rfl
  | @tight u v r a b ws text h1 h2 _ h3 ih =>
    have e : firstCjk (b :: v) = isCjk b := rfl
    rw [h3, joinCjk, last_append, e, ← ih, (cjk_iff a).2 h1, (cjk_iff b).2 h2]
    rfl

theorem joined_exists : ∀ {ws : List (List Nat)}, (∀ w ∈ ws, w ≠ []) → Joined ws (joinCjk ws)
  | [], _ => .none
  | [w], _ => .last
  | u :: v :: ws, h => by
    have ih := joined_exists (ws := v :: ws) fun w hw => h w (List.mem_cons_of_mem _ hw)
    rcases List.eq_nil_or_concat u with e | ⟨u', a, e⟩
    · exact absurd e (h u (by simp))
    · have e' : u = u' ++ [a] := by simpa using e
      subst e'
      cases v with
      | nil => exact absurd rfl (h [] (by simp))
      | cons b v =>
        have e : firstCjk (b :: v) = isCjk b := rfl
        rw [joinCjk, last_append, e]
        by_cases c : Cjk a ∧ Cjk b
        · rw [(cjk_iff a).2 c.1, (cjk_iff b).2 c.2]
          exact .tight c.1 c.2 ih rfl
        · have : (isCjk a && isCjk b) = false := by
            apply bneg
            rw [Bool.and_eq_true, cjk_iff, cjk_iff]; exact c
          rw [this]
          exact .space c ih rfl

/-- The compressed form of a text: its words, with one space between them, but none between two characters of Chinese,
Japanese or Korean script. Every text has words and they can be joined (`C98_words`). -/
theorem C98_compressed {points : List Nat} (h : ∀ p ∈ points, Scalar p) {ws : List (List Nat)} {result : List Nat} (hw : Words points ws)
    (hj : Joined ws result) : compressed (points.flatMap encode8One) = result.flatMap encode8One := by
  have := compressed_bytes h
  rw [joined_fn hj, words_fn hw]
  exact this

theorem C98_words (points : List Nat) : ∃ ws result, (Words points ws ∧ ∀ ws', Words points ws' → ws' = ws) ∧
    (Joined ws result ∧ ∀ r, Joined ws r → r = result) :=
  ⟨wordsOf points, joinCjk (wordsOf points), ⟨(words_iff _ _).2 rfl, fun _ h => words_fn h⟩,
    joined_exists fun w hw => (wordsOf_word hw).1.1, fun _ h => joined_fn h⟩

/-- Texts with the same words have the same compressed form: blanks before, after and between words do not matter. -/
theorem C98_spacing {a b : List Nat} (ha : ∀ p ∈ a, Scalar p) (hb : ∀ p ∈ b, Scalar p) {ws : List (List Nat)} (h1 : Words a ws) (h2 : Words b ws) :
    compressed (a.flatMap encode8One) = compressed (b.flatMap encode8One) := by
  obtain ⟨ws', r, ⟨h3, h4⟩, h5, _⟩ := C98_words a
  have := h4 ws h1
  subst this
  rw [C98_compressed ha h1 h5, C98_compressed hb h2 h5]

theorem wordsOf_between : ∀ {ws : List (List Nat)}, (∀ w ∈ ws, Word w) → wordsOf (betweenN ws) = ws
  | [], _ => rfl
  | [w], h => wordsOf_one (h w (by simp))
  | u :: v :: ws, h => by
    rw [betweenN, wordsOf_word_blank (h u (by simp)) (Or.inl rfl), wordsOf_between fun w hw => h w (List.mem_cons_of_mem _ hw)]

theorem lastCjk_append {u v : List Nat} (h : v ≠ []) : lastCjk (u ++ v) = lastCjk v := by
  unfold lastCjk
  rw [List.getLast?_append]
  cases v with
  | nil => exact absurd rfl h
  | cons b v => rw [List.getLast?_cons]; rfl

theorem rejoin : ∀ {v : List Nat} {ws : List (List Nat)}, (∀ w ∈ v :: ws, Word w) → ∃ v' ws', (∀ w ∈ v' :: ws', Word w) ∧
    joinCjk (v :: ws) = betweenN (v' :: ws') ∧ joinCjk (v' :: ws') = betweenN (v' :: ws') ∧ firstCjk v' = firstCjk v
  | v, [], h => ⟨v, [], h, rfl, rfl, rfl⟩
  | u, v :: ws, h => by
    have hu := h u (by simp)
    obtain ⟨v', ws', h1, h2, h3, h4⟩ := rejoin (v := v) (ws := ws) fun w hw => h w (List.mem_cons_of_mem _ hw)
    have hv' := h1 v' (by simp)
    rw [joinCjk, h2]
    cases hc : lastCjk u && firstCjk v with
    | true =>
      refine ⟨u ++ v', ws', ?_, ?_, ?_, ?_⟩
      · intro w hw
        rcases List.mem_cons.1 hw with e | e
        · rw [e]
          refine ⟨by simp [hu.1], fun p hp => ?_⟩
          rcases List.mem_append.1 hp with hp | hp
          · exact hu.2 p hp
          · exact hv'.2 p hp
        · exact h1 w (List.mem_cons_of_mem _ e)
      · cases ws' with
        | nil => rfl
        | cons x ws' => rw [betweenN, betweenN, List.append_assoc]; rfl
      · cases ws' with
        | nil => rfl
        | cons x ws' =>
          rw [joinCjk, betweenN] at h3
          rw [joinCjk, betweenN, lastCjk_append hv'.1, List.append_assoc, h3, List.append_assoc]
      · unfold firstCjk
        cases u with
        | nil => exact absurd rfl hu.1
        | cons p u => rfl
    | false =>
      refine ⟨u, v' :: ws', ?_, rfl, ?_, rfl⟩
      · intro w hw
        rcases List.mem_cons.1 hw with e | e
        · rw [e]; exact hu
        · exact h1 w e
      · rw [joinCjk, h3, h4, hc]
        rfl

theorem joinCjk_mem : ∀ {ws : List (List Nat)} {p : Nat}, p ∈ joinCjk ws → p = 32 ∨ ∃ w ∈ ws, p ∈ w
  | [], p, h => by simp [joinCjk] at h
  | [w], p, h => Or.inr ⟨w, by simp, h⟩
  | u :: v :: ws, p, h => by
    rw [joinCjk, List.mem_append, List.mem_append] at h
    rcases h with h | h | h
    · exact Or.inr ⟨u, by simp, h⟩
    · split at h
      · simp at h
      · left; simpa using h
    · rcases joinCjk_mem h with h | ⟨w, h1, h2⟩
      · exact Or.inl h
      · exact Or.inr ⟨w, List.mem_cons_of_mem _ h1, h2⟩

theorem join_scalar {points : List Nat} (h : ∀ p ∈ points, Scalar p) : ∀ p ∈ joinCjk (wordsOf points), Scalar p := by
  intro p hp
  rcases joinCjk_mem hp with e | ⟨w, h1, h2⟩
  · rw [e]; exact ⟨by omega, by omega⟩
  · exact h p ((wordsOf_word h1).2 p h2)

/-- The compressed form of a compressed form is itself. -/
theorem C98_idempotent {points : List Nat} (h : ∀ p ∈ points, Scalar p) :
    compressed (compressed (points.flatMap encode8One)) = compressed (points.flatMap encode8One) := by
  show compressed (compressed (bytesOf points)) = compressed (bytesOf points)
  have hs := join_scalar h
  rw [compressed_bytes h, compressed_bytes hs]
  congr 1
  have hw : ∀ w ∈ wordsOf points, Word w := fun w hw => (wordsOf_word hw).1
  cases hc : wordsOf points with
  | nil => rfl
  | cons v ws =>
    rw [hc] at hw
    obtain ⟨v', ws', h1, h2, h3, _⟩ := rejoin hw
    rw [h2, wordsOf_between h1, h3]

/-! ## Filters -/

theorem filter_form {points : List Nat} (h : ∀ p ∈ points, Scalar p) (q : Nat → Bool) :
    (if bytesOf points = [] then bytesOf points else ofUtf32 ((toUtf32 (bytesOf points)).filter q)) = bytesOf (points.filter q) := by
  rw [toUtf32_bytes h]
  split
  · rename_i hn
    rw [(bytesOf_nil h).1 hn]; rfl
  · exact ofUtf32_scalar fun p hp => h p (List.mem_filter.1 hp).1

/-- The text without combining characters: exactly those of combining class zero stay, in order. -/
theorem C98_non_combining {points : List Nat} (h : ∀ p ∈ points, Scalar p) :
    nonCombining (points.flatMap encode8One) = (points.filter fun p => Unicode.ccc p == 0).flatMap encode8One := by
  have := filter_form h fun p => !isCombining p
  show nonCombining (bytesOf points) = bytesOf _
  unfold nonCombining
  rw [this]
  congr 1
  apply List.filter_congr
  intro p hp
  have hu : isUnicode p = true := by exact decide_eq_true (h p hp).1
  unfold isCombining
  rw [hu]
  simp

/-- The text without diacritics: exactly the characters in none of the library's intervals stay, in order. -/
theorem C98_non_diacritic {points : List Nat} (h : ∀ p ∈ points, Scalar p) : ∃ kept : List Nat,
    nonDiacritic (points.flatMap encode8One) = kept.flatMap encode8One ∧ List.Sublist kept points ∧
    (∀ p ∈ points, p ∈ kept ↔ ¬ ∃ i ∈ diacriticIntervals, i.1 ≤ p ∧ p ≤ i.2) ∧
    (∀ p, points.count p = kept.count p ∨ kept.count p = 0) := by
  have := filter_form h fun p => !isDiacritic p
  refine ⟨_, this, List.filter_sublist, fun p hp => ?_, fun p => ?_⟩
  · rw [List.mem_filter]
    have hu : isUnicode p = true := by exact decide_eq_true (h p hp).1
    simp only [hp, true_and, isDiacritic, hu, Bool.true_and, Bool.not_eq_true', ← Bool.not_eq_true, List.any_eq_true, isContained,
      Bool.and_eq_true, decide_eq_true_eq]
  · cases hd : isDiacritic p with
    | true =>
      right
      rw [List.count_eq_zero, List.mem_filter, hd]
      simp
    | false =>
      left
      rw [List.count_filter (by rw [hd]; rfl)]

/-- A text has whitespace exactly if one of its characters is in the table of Unicode whitespace. -/
theorem C98_has_whitespace {points : List Nat} (h : ∀ p ∈ points, Scalar p) :
    hasWhitespace (points.flatMap encode8One) = true ↔ ∃ p ∈ points, p ∈ whitespace := by
  show (toUtf32 (bytesOf points)).any isWhitespace = true ↔ _
  rw [toUtf32_bytes h, List.any_eq_true]
  constructor
  · rintro ⟨p, hp, hw⟩
    simp only [isWhitespace, Bool.and_eq_true, List.any_eq_true, beq_iff_eq] at hw
    obtain ⟨_, q, hq, e⟩ := hw
    exact ⟨p, hp, e ▸ hq⟩
  · rintro ⟨p, hp, hw⟩
    refine ⟨p, hp, ?_⟩
    have := (h p hp).1
    simp only [isWhitespace, isUnicode, Unicode.maxPoint, Bool.and_eq_true, List.any_eq_true, beq_iff_eq, decide_eq_true_eq]
    exact ⟨decide_eq_true this, p, hw, rfl⟩

/-! ## Electrum -/

theorem ascii_decodes {text : Bytes} (h : isAsciiText text = true) : decode8 text = some (text.map UInt8.toNat) := by
  have hb : ∀ b ∈ text, b.toNat < 128 := by
    intro b hb
    have := List.all_eq_true.1 h b hb
    simpa using this
  rw [C97_utf8]
  constructor
  · intro p hp
    obtain ⟨b, h1, h2⟩ := List.mem_map.1 hp
    have := hb b h1
    exact ⟨by omega, by omega⟩
  · clear h
    induction text with
    | nil => rfl
    | cons b t ih =>
      have := hb b (List.mem_cons_self ..)
      rw [List.map_cons, List.flatMap_cons, ← ih fun c hc => hb c (List.mem_cons_of_mem _ hc), encode8One, if_pos (by omega)]
      simp

/-- Finding: every passphrase that is not text (bytes that are not UTF-8) is taken as the empty passphrase. -/
theorem C98_invalid_passphrase_counterexample {passphrase : Bytes} (h : ∀ points, decode8 passphrase ≠ some points) :
    electrumPhrase passphrase = [] ∧ electrumPhrase passphrase = electrumPhrase [] := by
  have e0 : electrumPhrase [] = [] := by decide
  have hd : decode8 passphrase = none := by
    cases hc : decode8 passphrase with
    | none => rfl
    | some p => exact absurd hc (h p)
  have ha : isAsciiText passphrase = false := by
    apply bneg
    intro ha
    rw [ascii_decodes ha] at hd
    cases hd
  have hf : formText true false passphrase = [] := by
    unfold formText toUtf32
    rw [ha, hd]
    rfl
  have e1 : electrumPhrase passphrase = [] := by
    unfold electrumPhrase
    rw [hf]
    decide
  exact ⟨e1, e1.trans e0.symm⟩

end Verif.Forms
