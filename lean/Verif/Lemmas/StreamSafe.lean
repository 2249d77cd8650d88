import Verif.Lemmas.Stream
/-! Helper lemmas: every reader call stays inside the buffer, inside its limit, and failures stick. -/
namespace Verif

/-- Keeps the buffer, the position inside it, and the contract flag. -/
structure Safe {α} (p : Reader α) : Prop where
  ok : ∀ s : RS, s.OK → (p s).2.OK
  data : ∀ s : RS, s.OK → (p s).2.data = s.data
  ub : ∀ s : RS, s.OK → (p s).2.ub = s.ub

/-- Never raises the absolute end position permitted by the limit. -/
def Lim {α} (p : Reader α) : Prop :=
  ∀ s : RS, s.OK → (p s).2.pos + (p s).2.rem ≤ s.pos + s.rem

theorem Tame.safe {α} {p : Reader α} (h : Tame p) : Safe p := ⟨h.ok, h.data, h.ub⟩

theorem Lim.bind {α β} {p : Reader α} {f : α → Reader β} (hs : Safe p) (hp : Lim p)
    (hf : ∀ x, Lim (f x)) : Lim (p >>= f) := fun s h =>
  Nat.le_trans (hf _ _ (hs.ok s h)) (hp s h)

theorem Lim.pure {α} (x : α) : Lim (Pure.pure x : Reader α) := fun _ _ => Nat.le_refl _

theorem Lim.ite {α} {c : Prop} [Decidable c] {p q : Reader α} (hp : Lim p) (hq : Lim q) :
    Lim (if c then p else q) := by split <;> assumption

theorem lim_invalidate : Lim invalidate := fun _ _ => Nat.le_refl _

theorem lim_doRead (n : Nat) : Lim (doRead n) := by
  rintro ⟨d, p, g, r, u⟩ h
  have := h.wf
  simp only [doRead, noteSize] at *
  repeat' split
  all_goals simp only at *
  all_goals omega

theorem lim_doSkip (n : Nat) : Lim (doSkip n) := by
  rintro ⟨d, p, g, r, u⟩ h
  have := h.wf
  simp only [doSkip, noteSize] at *
  repeat' split
  all_goals simp only at *
  all_goals omega

theorem doRewind_lim {n : Nat} {s : RS} (hg : s.good = true) (hn : n ≤ s.pos) :
    (doRewind n s).2.pos + (doRewind n s).2.rem ≤ s.pos + s.rem ∧ (doRewind n s).2.good = true := by
  obtain ⟨d, p, g, r, u⟩ := s
  simp only at hg hn
  subst hg
  have hc : cadd r n ≤ r + n := Nat.min_le_left _ _
  have hp : ¬ p < n := by omega
  simp only [doRewind, noteSize]
  repeat' split
  all_goals first | contradiction | skip
  all_goals refine ⟨?_, ?_⟩
  all_goals simp only at *
  all_goals omega

theorem lim_peek : Lim peekByte := by
  intro s _
  unfold peekByte
  repeat' split
  all_goals exact Nat.le_refl _

theorem lim_readByte : Lim readByte := .bind (tame_doRead (by decide)).safe (lim_doRead 1) fun _ => .pure _

theorem lim_readVariable : Lim readVariable := by
  have hb : Lim (do invalidate; return 0 : Reader Nat) := .bind tame_invalidate.safe lim_invalidate fun _ => .pure _
  have hr : ∀ n, n < offMax → Lim (readLE n) := fun n hn =>
    .bind (tame_doRead hn).safe (lim_doRead n) fun _ => .pure _
  unfold readVariable
  refine .bind tame_readByte.safe lim_readByte fun _ => ?_
  refine .ite (.bind (tame_readLE (by decide)).safe (hr 8 (by decide)) fun _ => .ite (.pure _) hb) ?_
  refine .ite (.bind (tame_readLE (by decide)).safe (hr 4 (by decide)) fun _ => .ite (.pure _) hb) ?_
  exact .ite (.bind (tame_readLE (by decide)).safe (hr 2 (by decide)) fun _ => .ite (.pure _) hb) (.pure _)

theorem lim_readSize (l : Nat) : Lim (readSize l) :=
  .bind tame_readVariable.safe lim_readVariable fun _ =>
    .ite (.bind tame_invalidate.safe lim_invalidate fun _ => .pure _) (.pure _)

theorem lim_readBytes (n : Nat) : Lim (readBytes n) := by
  intro s h
  unfold readBytes
  repeat' split
  · exact Nat.le_refl _
  · exact Nat.le_refl _
  · exact lim_doRead n s h

theorem tame_skipVariable : Tame skipVariable := by
  unfold skipVariable
  refine tame_readByte.bind fun _ => .ite (tame_doSkip (by decide)) (.ite (tame_doSkip (by decide))
    (.ite (tame_doSkip (by decide)) (.pure _)))

theorem lim_skipVariable : Lim skipVariable := by
  unfold skipVariable
  refine .bind tame_readByte.safe lim_readByte fun _ => .ite (lim_doSkip _) (.ite (lim_doSkip _)
    (.ite (lim_doSkip _) (.pure _)))

theorem isExhausted_false {s : RS} (h : (isExhausted s).1 = false) :
    s.good = true ∧ 0 < s.rem ∧ s.pos < s.data.length := by
  simp [isExhausted] at h
  refine ⟨h.1.2, by omega, h.2⟩

theorem isExhausted_iff {s : RS} : (isExhausted s).1 = true ↔ s.good = false ∨ s.view = [] := by
  rw [← List.length_eq_zero_iff, s.view_length]
  simp only [isExhausted, Bool.or_eq_true, beq_iff_eq, Bool.not_eq_true', decide_eq_true_eq]
  constructor
  · rintro ((h | h) | h)
    · right; omega
    · left; exact h
    · right; omega
  · rintro (h | h)
    · left; right; exact h
    · by_cases h0 : s.rem = 0
      · left; left; exact h0
      · right; omega

theorem doSkip_one {s : RS} (h : (isExhausted s).1 = false) : doSkip 1 s = ((), s.adv 1) := by
  obtain ⟨hg, hr, hp⟩ := isExhausted_false h
  obtain ⟨d, p, g, r, u⟩ := s
  simp only at hg hr hp
  subst hg
  have h1 : ¬ r < 1 := by omega
  have h2 : ¬ d.length - p < 1 := by omega
  simp [doSkip, noteSize_small (by decide : 1 < offMax), h1, h2, RS.adv]

/-- The counting loop advances over everything visible. -/
theorem countLoop_eq : ∀ (fuel c : Nat) (s : RS), s.good = true → s.view.length ≤ fuel →
    countLoop fuel c s = (c + s.view.length, s.adv s.view.length) := by
  intro fuel
  induction fuel with
  | zero =>
    intro c s _ h
    have : s.view.length = 0 := by omega
    simp [countLoop, this]
  | succ fuel ih =>
    intro c s hg h
    unfold countLoop
    split
    · rename_i he
      rcases isExhausted_iff.mp he with h1 | h1
      · rw [hg] at h1; cases h1
      · rw [h1]; simp
    · rename_i he
      simp only [Bool.not_eq_true] at he
      rw [doSkip_one he]
      show countLoop fuel (c + 1) (s.adv 1) = _
      obtain ⟨_, hr, hp⟩ := isExhausted_false he
      have hl := s.view_length
      have hv : (s.adv 1).view.length = s.view.length - 1 := by rw [RS.view_adv]; simp
      rw [ih (c + 1) (s.adv 1) hg (by omega), hv]
      rw [RS.adv_adv, show 1 + (s.view.length - 1) = s.view.length by omega]
      rw [show c + 1 + (s.view.length - 1) = c + s.view.length by omega]

/-- Rewinding what was just consumed restores the state (while the limit is representable). -/
theorem doRewind_adv {s : RS} {n : Nat} (hg : s.good = true) (hn : n < offMax) (hr : n ≤ s.rem)
    (hm : s.rem ≤ maxSize) : doRewind n (s.adv n) = ((), s) := by
  obtain ⟨d, p, g, r, u⟩ := s
  simp only at hg hr hm
  subst hg
  have : cadd (r - n) n = r := by unfold cadd; omega
  simp only [doRewind, RS.adv, noteSize_small hn, this, if_true]
  split
  · rename_i h; subst h; rfl
  · rw [if_neg (by omega)]; simp

/-- `read_bytes()` returns everything visible and leaves nothing visible. -/
theorem readAll_eq {s : RS} (hs : s.OK) (hg : s.good = true) (hm : s.rem ≤ maxSize) :
    readAll s = (s.view, s.adv s.view.length) := by
  have hl := s.view_length
  have := hs.small
  unfold readAll
  rw [countLoop_eq _ 0 s hg (by omega)]
  simp only [Nat.zero_add]
  rw [doRewind_adv hg (by omega) (by omega) hm]
  exact fwd_readBytes s.view s hs hg (List.prefix_refl _)

theorem readAll_bad {s : RS} (hg : s.good = false) :
    (readAll s).1 = [] ∧ (readAll s).2.good = false ∧ (readAll s).2.pos = s.pos ∧
    (readAll s).2.data = s.data ∧ (readAll s).2.ub = s.ub ∧ (readAll s).2.rem = cadd s.rem 0 := by
  have he : (isExhausted s).1 = true := isExhausted_iff.mpr (.inl hg)
  unfold readAll
  simp only [countLoop, he, if_true, doRewind, noteSize_small (by decide : 0 < offMax), readBytes]
  simp [hg]

/-- When the limit exceeds every representable size (only possible for a nonsensical limit) the rewind saturates;
the limit never grows either way. -/
theorem lim_readAll : Lim readAll := by
  intro s hs
  cases hg : s.good with
  | false =>
    obtain ⟨_, _, h3, _, _, h6⟩ := readAll_bad hg
    rw [h3, h6]; unfold cadd; omega
  | true =>
    have hl := s.view_length
    have hw := hs.wf
    have hsm := hs.small
    unfold readAll
    rw [countLoop_eq _ 0 s hg (by omega)]
    simp only [Nat.zero_add]
    have hok : (s.adv s.view.length).OK := hs.adv (Nat.le_refl _)
    have h1 := doRewind_lim (s := s.adv s.view.length) (n := s.view.length) hg (by simp)
    have h2 := lim_readBytes s.view.length _ ((tame_doRewind (n := s.view.length) (by omega)).ok _ hok)
    simp only [RS.adv_pos, RS.adv_rem] at h1
    omega

theorem tame_readAll : Tame readAll := by
  have key : ∀ s : RS, s.OK → (readAll s).2.OK ∧ (readAll s).2.data = s.data ∧ (readAll s).2.ub = s.ub := by
    intro s hs
    cases hg : s.good with
    | false =>
      obtain ⟨_, _, h3, h4, h5, _⟩ := readAll_bad hg
      exact ⟨⟨by rw [h3, h4]; exact hs.wf, by rw [h4]; exact hs.small⟩, h4, h5⟩
    | true =>
      have hl := s.view_length
      have hw := hs.wf
      have hsm := hs.small
      unfold readAll
      rw [countLoop_eq _ 0 s hg (by omega)]
      simp only [Nat.zero_add]
      have hok : (s.adv s.view.length).OK := hs.adv (Nat.le_refl _)
      have t1 := tame_doRewind (n := s.view.length) (by omega)
      have t2 := tame_readBytes (n := s.view.length) (by omega)
      have o1 := t1.ok _ hok
      exact ⟨t2.ok _ o1, by rw [t2.data _ o1, t1.data _ hok]; rfl, by rw [t2.ub _ o1, t1.ub _ hok]; rfl⟩
  exact ⟨fun s h => (key s h).1, fun s h => (key s h).2.1, fun s h => (key s h).2.2,
    fun s h => (readAll_bad h).2.1⟩

theorem ok_clear {s : RS} (h : s.OK) (b : Bool) : RS.OK { s with good := b } := ⟨h.wf, h.small⟩

theorem safe_setPosition {a : Nat} (ha : a < offMax) : Safe (setPosition a) := by
  have key : ∀ s : RS, s.OK → (setPosition a s).2.OK ∧ (setPosition a s).2.data = s.data ∧
      (setPosition a s).2.ub = s.ub := by
    intro s hs
    have hw := hs.wf
    have hsm := hs.small
    have hc := ok_clear hs true
    unfold setPosition
    dsimp only
    split
    · exact ⟨hc, rfl, rfl⟩
    split
    · have t := tame_doSkip (n := a - s.pos) (by omega)
      exact ⟨t.ok _ hc, t.data _ hc, t.ub _ hc⟩
    · have t := tame_doRewind (n := s.pos - a) (by omega)
      exact ⟨t.ok _ hc, t.data _ hc, t.ub _ hc⟩
  exact ⟨fun s h => (key s h).1, fun s h => (key s h).2.1, fun s h => (key s h).2.2⟩

theorem lim_setPosition (a : Nat) : Lim (setPosition a) := by
  intro s hs
  have hc := ok_clear hs true
  unfold setPosition
  dsimp only
  split
  · exact Nat.le_refl _
  split
  · exact lim_doSkip _ _ hc
  · exact (doRewind_lim (s := { s with good := true }) rfl (Nat.sub_le _ _)).1

theorem stringLoop_safe : ∀ (n : Nat) (out : Bytes), Safe (stringLoop n out) ∧ Lim (stringLoop n out) := by
  intro n
  induction n with
  | zero => exact fun out => ⟨⟨fun _ h => h, fun _ _ => rfl, fun _ _ => rfl⟩, fun _ _ => Nat.le_refl _⟩
  | succ n ih =>
    intro out
    have key : ∀ s : RS, s.OK → ((stringLoop (n + 1) out s).2.OK ∧ (stringLoop (n + 1) out s).2.data = s.data ∧
      (stringLoop (n + 1) out s).2.ub = s.ub) ∧
      (stringLoop (n + 1) out s).2.pos + (stringLoop (n + 1) out s).2.rem ≤ s.pos + s.rem := by
      intro s hs
      unfold stringLoop
      split
      · obtain ⟨hS, hL⟩ := ih (out ++ [(readByte s).1])
        have o := tame_readByte.ok s hs
        exact ⟨⟨hS.ok _ o, by rw [hS.data _ o, tame_readByte.data s hs],
          by rw [hS.ub _ o, tame_readByte.ub s hs]⟩, Nat.le_trans (hL _ o) (lim_readByte s hs)⟩
      · exact ⟨⟨hs, rfl, rfl⟩, Nat.le_refl _⟩
    exact ⟨⟨fun s h => (key s h).1.1, fun s h => (key s h).1.2.1, fun s h => (key s h).1.2.2⟩,
      fun s h => (key s h).2⟩

theorem readStringBuffer_safe (n : Nat) : Safe (readStringBuffer n) ∧ Lim (readStringBuffer n) := by
  obtain ⟨hS, hL⟩ := stringLoop_safe n []
  have key : ∀ s : RS, s.OK → ((readStringBuffer n s).2.OK ∧ (readStringBuffer n s).2.data = s.data ∧
      (readStringBuffer n s).2.ub = s.ub) ∧
      (readStringBuffer n s).2.pos + (readStringBuffer n s).2.rem ≤ s.pos + s.rem := by
    intro s hs
    unfold readStringBuffer
    split
    · exact ⟨⟨hs, rfl, rfl⟩, Nat.le_refl _⟩
    · exact ⟨⟨ok_clear (hS.ok s hs) true, hS.data s hs, hS.ub s hs⟩, hL s hs⟩
  exact ⟨⟨fun s h => (key s h).1.1, fun s h => (key s h).1.2.1, fun s h => (key s h).1.2.2⟩,
    fun s h => (key s h).2⟩

theorem readString_safe (l : Nat) : Safe (readString l) ∧ Lim (readString l) := by
  have t := tame_readSize l
  refine ⟨⟨?_, ?_, ?_⟩, .bind t.safe (lim_readSize l) fun n => (readStringBuffer_safe n).2⟩
  · exact fun s h => (readStringBuffer_safe _).1.ok _ (t.ok s h)
  · intro s h; show (readStringBuffer _ _).2.data = _
    rw [(readStringBuffer_safe _).1.data _ (t.ok s h), t.data s h]
  · intro s h; show (readStringBuffer _ _).2.ub = _
    rw [(readStringBuffer_safe _).1.ub _ (t.ok s h), t.ub s h]

theorem readByte_one {s : RS} (hs : s.OK) (h : (isExhausted s).1 = false) :
    readByte s = (s.view.headD 0, s.adv 1) := by
  obtain ⟨hg, hr, hp⟩ := isExhausted_false h
  have hl := s.view_length
  match hv : s.view with
  | [] => rw [hv] at hl; simp at hl; omega
  | b :: t => exact fwd_readByte b s hs hg (by rw [hv]; exact ⟨t, rfl⟩)

/-- The terminator scan only advances; when it succeeds, line and terminator together are what it advanced over. -/
theorem lineLengthLoop_adv (term : Bytes) : ∀ (fuel index length : Nat) (s : RS), s.OK →
    index < term.length →
    let r := lineLengthLoop term fuel index length s
    ∃ k, k ≤ s.view.length ∧ r.2 = s.adv k ∧
      (s.good = false → r.1 = none) ∧
      ∀ n, r.1 = some n → length ≤ n ∧ n + term.length = length + index + k := by
  intro fuel
  induction fuel with
  | zero => intro index length s _ _; exact ⟨0, Nat.zero_le _, by simp [lineLengthLoop], fun _ => rfl, by simp [lineLengthLoop]⟩
  | succ fuel ih =>
    intro index length s hs hi
    have hgood : ∀ (h : (isExhausted s).1 = false), s.good = true := fun h => (isExhausted_false h).1
    simp only [lineLengthLoop]
    by_cases he : (isExhausted s).1 = true
    · simp only [he, if_true]
      exact ⟨0, Nat.zero_le _, by simp, fun _ => trivial, by simp⟩
    · rw [if_neg he]
      have he' : (isExhausted s).1 = false := by simpa using he
      rw [readByte_one hs he']
      obtain ⟨hg, hr, hp⟩ := isExhausted_false he'
      have hl := s.view_length
      have ok1 : (s.adv 1).OK := hs.adv (by omega)
      have hl1 : (s.adv 1).view.length = s.view.length - 1 := by rw [RS.view_adv]; simp
      simp only
      split
      · split
        · exact ⟨1, by omega, rfl, by simp [hg], by intro n hn; simp at hn; omega⟩
        · obtain ⟨k, h1, h2, h3, h4⟩ := ih (index + 1) length (s.adv 1) ok1 (by omega)
          exact ⟨1 + k, by omega, by rw [h2]; simp, by simp [hg], fun n hn => by have := h4 n hn; omega⟩
      · split
        · split
          · obtain ⟨k, h1, h2, h3, h4⟩ := ih 1 (length + index) (s.adv 1) ok1 (by omega)
            exact ⟨1 + k, by omega, by rw [h2]; simp, by simp [hg], fun n hn => by have := h4 n hn; omega⟩
          · obtain ⟨k, h1, h2, h3, h4⟩ := ih 0 (length + index + 1) (s.adv 1) ok1 (by omega)
            exact ⟨1 + k, by omega, by rw [h2]; simp, by simp [hg], fun n hn => by have := h4 n hn; omega⟩
        · obtain ⟨k, h1, h2, h3, h4⟩ := ih 0 (length + 1) (s.adv 1) ok1 (by omega)
          exact ⟨1 + k, by omega, by rw [h2]; simp, by simp [hg], fun n hn => by have := h4 n hn; omega⟩

theorem readLine_safe (term : Bytes) :
    Tame (readLine term) ∧ Lim (readLine term) := by
  have key : ∀ s : RS, s.OK → ((readLine term s).2.OK ∧ (readLine term s).2.data = s.data ∧
      (readLine term s).2.ub = s.ub) ∧ (readLine term s).2.pos + (readLine term s).2.rem ≤ s.pos + s.rem := by
    intro s hs
    unfold readLine
    split
    · exact ⟨⟨ok_clear hs _, rfl, rfl⟩, Nat.le_refl _⟩
    · rename_i hne
      have hpos : 0 < term.length := List.length_pos_iff.mpr hne
      have hl := s.view_length
      have hw := hs.wf
      have hsm := hs.small
      obtain ⟨k, h1, h2, h3, h4⟩ := lineLengthLoop_adv term (s.data.length + 1) 0 0 s hs hpos
      have ok2 : (s.adv k).OK := hs.adv h1
      generalize hL : lineLengthLoop term (s.data.length + 1) 0 0 s = L at *
      obtain ⟨o, s2⟩ := L
      simp only at h2 h3 h4
      subst h2
      match o with
      | none => exact ⟨⟨ok_clear ok2 _, rfl, rfl⟩, by simp; omega⟩
      | some 0 => exact ⟨⟨ok2, rfl, rfl⟩, by simp; omega⟩
      | some (n + 1) =>
        have hk := h4 _ rfl
        have hgood : s.good = true := by
          cases hg : s.good with
          | true => rfl
          | false => exact absurd (h3 hg) (by simp)
        have t1 := tame_doRewind (n := n + 1 + term.length) (by omega)
        have t2 := tame_doRead (n := n + 1) (by omega)
        have t3 := tame_doSkip (n := term.length) (by omega)
        have o1 := t1.ok _ ok2
        have o2 := t2.ok _ o1
        simp only
        have l1 := (doRewind_lim (s := s.adv k) (n := n + 1 + term.length) hgood (by simp; omega)).1
        have l2 := lim_doRead (n + 1) _ o1
        have l3 := lim_doSkip term.length _ o2
        refine ⟨⟨t3.ok _ o2, ?_, ?_⟩, ?_⟩
        · rw [t3.data _ o2, t2.data _ o1, t1.data _ ok2]; rfl
        · rw [t3.ub _ o2, t2.ub _ o1, t1.ub _ ok2]; rfl
        · simp only [RS.adv_pos, RS.adv_rem] at l1
          omega
  refine ⟨⟨fun s h => (key s h).1.1, fun s h => (key s h).1.2.1, fun s h => (key s h).1.2.2, ?_⟩,
    fun s h => (key s h).2⟩
  intro s hg
  have he : (isExhausted s).1 = true := isExhausted_iff.mpr (.inl hg)
  unfold readLine
  split
  · rfl
  · simp [lineLengthLoop, he]

end Verif
