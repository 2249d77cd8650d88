import Verif.Props.Forms
import Verif.Props.Unicode

/-! # Normalization and case of byte texts, and the texts of an Electrum seed -/

namespace Verif.Forms
open Verif.Utf Verif.Strings Verif.Unicode Verif.Unicode.Spec

/-- The points a decomposition yields have encodings. -/
def indexScalar (index : Nat) : Bool :=
  index == 0 || allBelow (fun c => isScalar (at' 32 decompositionPool (index + 1 + c))) (components (at' 32 decompositionPool index))

theorem index2_scalar : allBelow (fun b => allBelow (fun j => indexScalar (at' 16 decompositionIndex2 (128 * b + j))) 128) 106 = true := by
  decide +kernel

theorem fold_scalar : allBelow (fun i => allBelow (fun j => isScalar (at' 32 caseFoldPairs (i * 5 + 2 + j))) 3) foldCount = true := by
  decide +kernel

theorem upper_scalar : allBelow (fun i => allBelow (fun j => isScalar (at' 32 upperPairs (i * 5 + 2 + j))) 3) upperCount = true := by
  decide +kernel

theorem rows_scalar : allBelow (fun i => isScalar (at' 32 compositionPairs (3 * i + 2))) pairsCount = true := by
  decide +kernel

theorem decompose_scalar {p : Nat} (h : ¬ maxPoint < p) : indexScalar (decompose p) = true := by
  have hp : p < 8704 * 128 := by unfold maxPoint at h; omega
  have h7 : p >>> 7 = p / 128 := by rw [Nat.shiftRight_eq_div_pow]
  have hb : p / 128 < 8704 := by omega
  have h1 := allBelow_spec (allBelow_spec index1_check (p / 128 / 128) (by omega)) (p / 128 % 128) (by omega)
  rw [show 128 * (p / 128 / 128) + p / 128 % 128 = p / 128 by omega] at h1
  have h1 := of_decide_eq_true h1
  unfold decompose
  rw [h7]
  have := allBelow_spec (allBelow_spec index2_scalar _ h1) (p % 128) (by omega)
  rw [Nat.mul_comm] at this
  exact this

theorem mapping_scalar {k : Bool} {p : Nat} {l : List Nat} (h : mapping k p = some l) : ∀ q ∈ l, Scalar q := by
  unfold mapping at h
  split at h
  · rename_i hs
    dsimp only at h
    simp only [Option.some.injEq] at h
    have b1 : (p - sBase) / nCount < 19 := by unfold sBase sCount lCount nCount vCount tCount at *; omega
    have b2 : (p - sBase) % nCount / tCount < 21 := by unfold sBase sCount lCount nCount vCount tCount at *; omega
    have b3 : (p - sBase) % tCount < 28 := by unfold tCount; omega
    generalize (p - sBase) / nCount = x at *
    generalize (p - sBase) % nCount / tCount = y at *
    generalize (p - sBase) % tCount = z at *
    intro q hq
    subst h
    have : q = lBase + x ∨ q = vBase + y ∨ q = tBase + z := by
      split at hq <;> simp at hq <;> omega
    unfold Scalar
    unfold lBase vBase tBase at this
    omega
  · split at h
    · cases h
    · rename_i hn
      simp only [Option.some.injEq] at h
      subst h
      have hp : ¬ maxPoint < p := fun e => hn (.inl e)
      have hd : decompose p ≠ 0 := fun e => hn (.inr (.inl e))
      have := decompose_scalar hp
      unfold indexScalar at this
      rw [Bool.or_eq_true, beq_iff_eq] at this
      have := this.resolve_left hd
      intro q hq
      obtain ⟨c, hc, e⟩ := List.mem_map.1 hq
      rw [← e, ← scalar_iff]
      exact allBelow_spec this c (List.mem_range.1 hc)

theorem decomposeOne_scalar (k : Bool) : ∀ (f p : Nat), Scalar p → ∀ q ∈ decomposeOne f k p, Scalar q
  | 0, p, h, q, hq => by
    rw [decomposeOne, List.mem_singleton] at hq
    rw [hq]; exact h
  | f + 1, p, h, q, hq => by
    rw [decomposeOne_succ] at hq
    split at hq
    · rename_i hs
      cases hm : mapping k p with
      | none => rw [hm] at hq; simp at hq
      | some l => rw [hm, Option.getD_some] at hq; exact mapping_scalar hm q hq
    · split at hq
      · rw [List.mem_singleton] at hq
        rw [hq]; exact h
      · rename_i l hl
        obtain ⟨r, h1, h2⟩ := List.mem_flatMap.1 hq
        exact decomposeOne_scalar k f r (mapping_scalar hl r h1) q h2

theorem insC_mem {x p : Nat} : ∀ {l : List Nat}, p ∈ insC x l → p = x ∨ p ∈ l
  | [], h => by left; simpa [insC] using h
  | y :: l, h => by
    rw [insC] at h
    split at h
    · rcases List.mem_cons.1 h with e | e
      · exact .inr (by rw [e]; exact List.mem_cons_self ..)
      · rcases insC_mem e with e | e
        · exact .inl e
        · exact .inr (List.mem_cons_of_mem _ e)
    · simpa using h

theorem order_mem {p : Nat} : ∀ {l : List Nat}, p ∈ order' l → p ∈ l
  | [], h => by simp [order'] at h
  | x :: l, h => by
    have e : order' (x :: l) = insC x (order' l) := rfl
    rw [e] at h
    rcases insC_mem h with e | e
    · rw [e]; exact List.mem_cons_self ..
    · exact List.mem_cons_of_mem _ (order_mem e)

theorem nf_scalar {k : Bool} {l : List Nat} (h : ∀ p ∈ l, Scalar p) : ∀ p ∈ nf k l, Scalar p := by
  intro p hp
  obtain ⟨q, h1, h2⟩ := List.mem_flatMap.1 (order_mem hp)
  exact decomposeOne_scalar k 4 q (h q h1) p h2

theorem composite_scalar {a b c : Nat} (h : Composite a b c) : Scalar c := by
  unfold Scalar
  rcases h with ⟨l, v, h1, h2, _, _, e⟩ | ⟨lv, t, h1, _, h3, _, _, e⟩ | ⟨i, hi, _, _, e⟩
  · unfold lCount vCount at *
    unfold sBase tCount at e
    have : l * 21 + v ≤ 398 := by omega
    omega
  · unfold lCount vCount tCount at *
    unfold sBase at e
    omega
  · have := allBelow_spec rows_scalar i hi
    rw [← e] at this
    exact (scalar_iff c).1 this

theorem lastStarter_split : ∀ {out pre mid : List Nat} {s : Nat}, lastStarter out = some (pre, s, mid) → out = pre ++ s :: mid
  | [], _, _, _, h => by simp [lastStarter] at h
  | x :: l, pre, mid, s, h => by
    rw [lastStarter] at h
    split at h
    · rename_i p' s' m' hl
      simp only [Option.some.injEq, Prod.mk.injEq] at h
      obtain ⟨e1, e2, e3⟩ := h
      subst e1 e2 e3
      rw [lastStarter_split hl]; rfl
    · split at h
      · simp only [Option.some.injEq, Prod.mk.injEq] at h
        obtain ⟨e1, e2, e3⟩ := h
        subst e1 e2 e3
        rfl
      · cases h

theorem composes_scalar {out l r : List Nat} (h : Composes out l r) : (∀ p ∈ out, Scalar p) → (∀ p ∈ l, Scalar p) → ∀ p ∈ r, Scalar p := by
  induction h with
  | done out => exact fun h _ => h
  | @next out out' r l c hstep _ ih =>
    intro h1 h2
    have hc : Scalar c := h2 c (List.mem_cons_self ..)
    have hout : ∀ p ∈ out ++ [c], Scalar p := by
      intro p hp
      rcases List.mem_append.1 hp with e | e
      · exact h1 p e
      · rw [List.mem_singleton.1 e]; exact hc
    refine ih ?_ fun p hp => h2 p (List.mem_cons_of_mem _ hp)
    cases hstep with
    | first h => exact hout
    | keep h hb => exact hout
    | @compose pre mid s _ p h hb hcomp =>
      have e := lastStarter_split h
      intro q hq
      rcases List.mem_append.1 hq with e' | e'
      · exact h1 q (by rw [e]; exact List.mem_append_left _ e')
      · rcases List.mem_cons.1 e' with e' | e'
        · rw [e']; exact composite_scalar hcomp
        · exact h1 q (by rw [e]; exact List.mem_append_right _ (List.mem_cons_of_mem _ e'))

theorem toForm_scalar {k r : Bool} {l : List Nat} (h : ∀ p ∈ l, Scalar p) : ∀ p ∈ toForm k r l, Scalar p := by
  have h0 : ∀ p ∈ toForm k false l, Scalar p := by rw [toForm_eq, normalForm_false]; exact nf_scalar h
  cases r with
  | false => exact h0
  | true => exact composes_scalar (C94_composed k l) (by simp) h0

theorem take3 {a b c n q : Nat} (h : q ∈ [a, b, c].take n) : q = a ∨ q = b ∨ q = c := by
  have := List.mem_of_mem_take h
  simpa using this

theorem lowerOne_scalar {p : Nat} (h : Scalar p) : ∀ q ∈ foldLowerOne p, Scalar q := by
  intro q hq
  rcases foldSearch_found (t := caseFoldPairs) (p := p) (foldCount + 1) 0 foldCount with e | ⟨i, -, hi, -, e⟩
  · have e : foldLowerOne p = [p] := e
    rw [e, List.mem_singleton] at hq
    rw [hq]; exact h
  · have e : foldLowerOne p = _ := e
    rw [e] at hq
    have hr := allBelow_spec fold_scalar i hi
    rw [← scalar_iff]
    rcases take3 hq with e | e | e <;> rw [e]
    · exact allBelow_spec hr 0 (by omega)
    · exact allBelow_spec hr 1 (by omega)
    · exact allBelow_spec hr 2 (by omega)

theorem toLower_scalar {l : List Nat} (h : ∀ p ∈ l, Scalar p) : ∀ p ∈ toLower l, Scalar p := by
  rw [toLower_eq]
  intro p hp
  obtain ⟨q, h1, h2⟩ := List.mem_flatMap.1 hp
  exact lowerOne_scalar (h q h1) p h2

/-! ## Byte texts -/

theorem ascii_points {text : Bytes} {points : List Nat} (ht : text = bytesOf points) (hs : ∀ p ∈ points, Scalar p) (h : isAsciiText text = true) :
    points = text.map UInt8.toNat := by
  have h1 := ascii_decodes h
  rw [(C97_utf8 text points).2 ⟨hs, ht⟩] at h1
  exact Option.some.inj h1

theorem ascii_low {text : Bytes} (h : isAsciiText text = true) : ∀ p ∈ text.map UInt8.toNat, p < 128 := by
  intro p hp
  obtain ⟨b, h1, h2⟩ := List.mem_map.1 hp
  have := List.all_eq_true.1 h b h1
  rw [← h2]
  simpa using this

/-- A normalization form of a text is the bytes of the form of its characters: no text is lost in conversion. -/
theorem C98_normal_text (k r : Bool) {points : List Nat} (h : ∀ p ∈ points, Scalar p) :
    formText k r (points.flatMap encode8One) = (toForm k r points).flatMap encode8One := by
  show formText k r (bytesOf points) = bytesOf _
  unfold formText
  cases ha : isAsciiText (bytesOf points) with
  | true =>
    have e := ascii_points rfl h ha
    have hl := ascii_low ha
    rw [← e] at hl
    rw [(C94_ascii k r hl).1]
    rfl
  | false =>
    simp only [Bool.false_eq_true, if_false]
    rw [toUtf32_bytes h, ← toForm_eq, ofUtf32_scalar (toForm_scalar h)]

theorem encode_ascii {p : Nat} (h : p < 128) : encode8One p = [UInt8.ofNat p] := by rw [encode8One, if_pos (by omega)]

/-- Lower case likewise. -/
theorem C98_lower_text {points : List Nat} (h : ∀ p ∈ points, Scalar p) :
    lowerText (points.flatMap encode8One) = (toLower points).flatMap encode8One := by
  show lowerText (bytesOf points) = bytesOf _
  unfold lowerText
  cases ha : isAsciiText (bytesOf points) with
  | true =>
    have e := ascii_points rfl h ha
    have hl := ascii_low ha
    rw [← e] at hl
    simp only [if_true]
    rw [toLower, if_pos (isAscii_iff.2 hl)]
    clear ha e
    induction points with
    | nil => rfl
    | cons p ps ih =>
      have hp := hl p (List.mem_cons_self ..)
      have ih := ih (fun q hq => h q (List.mem_cons_of_mem _ hq)) fun q hq => hl q (List.mem_cons_of_mem _ hq)
      have e1 : bytesOf (p :: ps) = UInt8.ofNat p :: bytesOf ps := by
        show encode8One p ++ bytesOf ps = _
        rw [encode_ascii hp]; rfl
      have hlow : asciiLower p < 128 := by unfold asciiLower; split <;> omega
      have e2 : bytesOf ((p :: ps).map asciiLower) = UInt8.ofNat (asciiLower p) :: bytesOf (ps.map asciiLower) := by
        show encode8One (asciiLower p) ++ _ = _
        rw [encode_ascii hlow]; rfl
      rw [e1, List.map_cons, ih, e2, toNat_ofNat (by omega)]
  | false =>
    simp only [Bool.false_eq_true, if_false]
    rw [toUtf32_bytes h, ofUtf32_scalar (fun p hp => ?_), toLower_eq]
    obtain ⟨q, h1, h2⟩ := List.mem_flatMap.1 hp
    exact lowerOne_scalar (h q h1) p h2

/-- The passphrase of an Electrum seed, any text: compatibility decomposition, case folding, combining characters
removed, and the words that are left joined. -/
theorem C98_electrum_phrase {points : List Nat} (h : ∀ p ∈ points, Scalar p) {ws : List (List Nat)} {result : List Nat}
    (hw : Words ((toLower (toNfkd points)).filter fun p => ccc p == 0) ws) (hj : Joined ws result) :
    electrumPhrase (points.flatMap encode8One) = result.flatMap encode8One := by
  have h1 := toForm_scalar (k := true) (r := false) h
  have h2 := toLower_scalar h1
  unfold electrumPhrase
  rw [C98_normal_text true false h, C98_lower_text h1, C98_non_combining h2]
  exact C98_compressed (fun p hp => h2 p (List.mem_filter.1 hp).1) hw hj

/-- The sentence of an Electrum seed: its words joined, without combining characters. -/
theorem C98_electrum_sentence {words : List (List Nat)} (h : ∀ w ∈ words, ∀ p ∈ w, Scalar p) {ws : List (List Nat)} {result : List Nat}
    (hw : Words ((betweenN words).filter fun p => ccc p == 0) ws) (hj : Joined ws result) :
    electrumSentence (words.map fun w => w.flatMap encode8One) = result.flatMap encode8One := by
  have hs : ∀ p ∈ betweenN words, Scalar p := by
    intro p hp
    rcases betweenN_mem hp with e | ⟨w, h1, h2⟩
    · rw [e]; exact ⟨by omega, by omega⟩
    · exact h w h1 p h2
  have e : join (words.map fun w => w.flatMap encode8One) [0x20] = bytesOf (betweenN words) := by
    rw [join_eq]; exact between_bytes words
  unfold electrumSentence
  rw [e]
  show compressed (nonCombining ((betweenN words).flatMap encode8One)) = _
  rw [C98_non_combining hs]
  exact C98_compressed (fun p hp => hs p (List.mem_filter.1 hp).1) hw hj

/-! ## The hypotheses are met -/

-- " a  b", and words of Chinese characters.
example : Words [32, 97, 9, 32, 98] [[97], [98]] := (words_iff _ _).2 (by decide)
example : Joined [[97], [0x4e2d], [0x56fd, 97]] [97, 32, 0x4e2d, 0x56fd, 97] :=
  .space (u := []) (by rw [← cjk_iff, ← cjk_iff]; decide) (.tight (u := []) ((cjk_iff _).1 (by decide)) ((cjk_iff _).1 (by decide)) .last rfl) rfl
example : compressed ([32, 0x4e2d, 10, 0x56fd, 32, 32, 97].flatMap encode8One) = [0x4e2d, 0x56fd, 32, 97].flatMap encode8One := by decide
example : ∀ points, decode8 [0x70, 0xff] ≠ some points := by
  intro p h
  have : decode8 [0x70, 0xff] = none := by decide
  rw [this] at h
  cases h
-- "Ñ A" and "n a"
example : electrumPhrase ([0xd1, 32, 32, 65].flatMap encode8One) = [110, 32, 97].flatMap encode8One := by decide +kernel

/-- Finding: only ASCII whitespace separates words, although Electrum splits at all Unicode whitespace: a passphrase
with a line separator keeps it. -/
theorem C98_separator_counterexample : isWhitespace 0x2028 = true ∧
    electrumPhrase ([97, 0x2028, 98].flatMap encode8One) = [97, 0x2028, 98].flatMap encode8One := by decide +kernel

end Verif.Forms
