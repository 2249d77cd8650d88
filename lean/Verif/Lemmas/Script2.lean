import Verif.Lemmas.Script
/-! Helper lemmas: the counting pass and `script::from_data`. -/
namespace Verif

/-- As `Moved`, but a limit beyond the buffer may lose up to `k`. -/
structure RS.Loss (k : Nat) (s s' : RS) : Prop where
  data : s'.data = s.data
  ub : s'.ub = s.ub
  fwd : s.pos ≤ s'.pos
  wf : s'.pos ≤ s.data.length
  le : s'.pos + s'.rem ≤ s.pos + s.rem
  keep : s'.pos + s'.rem = s.pos + s.rem ∨
    (s.data.length < s.pos + s.rem ∧ s.pos + s.rem ≤ s'.pos + s'.rem + k)

theorem RS.Loss.refl {k : Nat} {s : RS} (h : s.OK) : RS.Loss k s s :=
  ⟨rfl, rfl, Nat.le_refl _, h.wf, Nat.le_refl _, .inl rfl⟩

theorem RS.Loss.ok {k : Nat} {s s' : RS} (h : RS.Loss k s s') (hs : s.OK) : s'.OK :=
  ⟨by rw [h.data]; exact h.wf, by rw [h.data]; exact hs.small⟩

theorem RS.Loss.trans {j k : Nat} {a b c : RS} (h : RS.Loss j a b) (l : RS.Loss k b c) : RS.Loss (j + k) a c where
  data := l.data.trans h.data
  ub := l.ub.trans h.ub
  fwd := Nat.le_trans h.fwd l.fwd
  wf := by have := l.wf; rwa [h.data] at this
  le := Nat.le_trans l.le h.le
  keep := by
    have h1 := h.keep; have k1 := l.keep; have := h.le
    rw [h.data] at k1
    omega

theorem RS.Loss.mono {j k : Nat} {a b : RS} (h : RS.Loss j a b) (hk : j ≤ k) : RS.Loss k a b :=
  ⟨h.data, h.ub, h.fwd, h.wf, h.le, by have := h.keep; omega⟩

/-- An attempted read on a good reader: loses nothing if it succeeds; if the limit refused, the result is zero filled. -/
theorem doRead_loss {n : Nat} (hn : n < offMax) {s : RS} (hs : s.OK) (hg : s.good = true) :
    RS.Loss n s (doRead n s).2 ∧
    ((doRead n s).2.good = true → (doRead n s).2.pos + (doRead n s).2.rem = s.pos + s.rem) ∧
    ((doRead n s).2.good = false →
      ((doRead n s).2.pos + (doRead n s).2.rem = s.pos + s.rem ∧ (doRead n s).1 = List.replicate n 0) ∨
      s.data.length < s.pos + s.rem) := by
  obtain ⟨d, p, g, r, u⟩ := s
  have hw := hs.wf
  simp only at hg hw
  subst hg
  simp only [doRead, noteSize_small hn, if_true]
  split
  · exact ⟨⟨rfl, rfl, Nat.le_refl _, hw, Nat.le_refl _, .inl rfl⟩, by simp, fun _ => .inl ⟨rfl, rfl⟩⟩
  · split
    · refine ⟨⟨rfl, rfl, hw, Nat.le_refl _, ?_, .inr ⟨?_, ?_⟩⟩, by simp, fun _ => .inr ?_⟩ <;> (try dsimp only) <;> omega
    · refine ⟨⟨rfl, rfl, ?_, ?_, ?_, .inl ?_⟩, fun _ => ?_, by simp⟩ <;> (try dsimp only) <;> omega

theorem doSkip_loss {n : Nat} (hn : n < offMax) {s : RS} (hs : s.OK) (hg : s.good = true) :
    RS.Loss n s (doSkip n s).2 ∧
    ((doSkip n s).2.good = true → (doSkip n s).2.pos + (doSkip n s).2.rem = s.pos + s.rem) := by
  obtain ⟨d, p, g, r, u⟩ := s
  have hw := hs.wf
  simp only at hg hw
  subst hg
  simp only [doSkip, noteSize_small hn, if_true]
  split
  · exact ⟨⟨rfl, rfl, Nat.le_refl _, hw, Nat.le_refl _, .inl rfl⟩, by simp⟩
  · split
    · rename_i h0; subst h0
      refine ⟨⟨rfl, rfl, ?_, ?_, ?_, .inl ?_⟩, fun _ => ?_⟩ <;> (try dsimp only) <;> omega
    · split
      · refine ⟨⟨rfl, rfl, ?_, ?_, ?_, .inr ⟨?_, ?_⟩⟩, by simp⟩ <;> (try dsimp only) <;> omega
      · refine ⟨⟨rfl, rfl, ?_, ?_, ?_, .inl ?_⟩, fun _ => ?_⟩ <;> (try dsimp only) <;> omega

/-- Skipping on a failed reader only spends limit. -/
theorem doSkip_bad {n : Nat} (hn : n < offMax) {s : RS} (hg : s.good = false) :
    (doSkip n s).2.data = s.data ∧ (doSkip n s).2.ub = s.ub ∧ (doSkip n s).2.pos = s.pos ∧
    (doSkip n s).2.rem ≤ s.rem ∧ s.rem ≤ (doSkip n s).2.rem + n ∧ (doSkip n s).2.good = false := by
  obtain ⟨d, p, g, r, u⟩ := s
  simp only at hg
  subst hg
  simp only [doSkip, noteSize_small hn, Bool.false_eq_true, if_false]
  split
  · refine ⟨rfl, rfl, rfl, ?_, ?_, rfl⟩ <;> (try dsimp only) <;> omega
  · split
    · refine ⟨rfl, rfl, rfl, ?_, ?_, rfl⟩ <;> (try dsimp only) <;> omega
    · refine ⟨rfl, rfl, rfl, ?_, ?_, rfl⟩ <;> (try dsimp only) <;> omega

theorem leNat_replicate_zero (n : Nat) : leNat (List.replicate n 0) = 0 := by
  induction n with
  | zero => rfl
  | succ n ih => simp [List.replicate_succ, leNat, ih]

theorem readDataSize_loss (code : UInt8) {s : RS} (hs : s.OK) (hg : s.good = true) :
    RS.Loss 4 s (readDataSize code s).2 ∧
    ((readDataSize code s).2.good = true → (readDataSize code s).2.pos + (readDataSize code s).2.rem = s.pos + s.rem) ∧
    ((readDataSize code s).2.good = false →
      ((readDataSize code s).2.pos + (readDataSize code s).2.rem = s.pos + s.rem ∧ (readDataSize code s).1 = 0) ∨
      s.data.length < s.pos + s.rem) := by
  unfold readDataSize
  split
  · obtain ⟨h1, h2, h3⟩ := doRead_loss (n := 1) (by decide) hs hg
    refine ⟨h1.mono (by omega), h2, fun hb => ?_⟩
    rcases h3 hb with ⟨h4, h5⟩ | h4
    · left
      refine ⟨h4, ?_⟩
      show ((doRead 1 s).1.headD 0).toNat = 0
      rw [h5]; rfl
    · exact .inr h4
  split
  · obtain ⟨h1, h2, h3⟩ := doRead_loss (n := 2) (by decide) hs hg
    refine ⟨h1.mono (by omega), h2, fun hb => ?_⟩
    rcases h3 hb with ⟨h4, h5⟩ | h4
    · left
      refine ⟨h4, ?_⟩
      show leNat (doRead 2 s).1 = 0
      rw [h5]; rfl
    · exact .inr h4
  split
  · obtain ⟨h1, h2, h3⟩ := doRead_loss (n := 4) (by decide) hs hg
    refine ⟨h1.mono (by omega), h2, fun hb => ?_⟩
    rcases h3 hb with ⟨h4, h5⟩ | h4
    · left
      refine ⟨h4, ?_⟩
      show leNat (doRead 4 s).1 = 0
      rw [h5]; rfl
    · exact .inr h4
  split
  · refine ⟨.refl hs, fun _ => rfl, fun hb => ?_⟩
    rw [show (pure code.toNat : Reader Nat) s = (code.toNat, s) from rfl, hg] at hb; cases hb
  · refine ⟨.refl hs, fun _ => rfl, fun hb => ?_⟩
    rw [show (pure 0 : Reader Nat) s = (0, s) from rfl, hg] at hb; cases hb

theorem countOp_loss {s : RS} (hs : s.OK) :
    RS.Loss (2 ^ 33) s (countOp s).2 ∧
    ((countOp s).2.good = true → (countOp s).2.pos + (countOp s).2.rem = s.pos + s.rem) ∧
    (s.good = false → countOp s = (false, s)) := by
  unfold countOp
  by_cases he : (isExhausted s).1 = true
  · rw [if_pos he]
    exact ⟨.refl hs, fun _ => rfl, fun _ => rfl⟩
  · rw [if_neg he]
    have he' : (isExhausted s).1 = false := by simpa using he
    obtain ⟨hg, hr, hp⟩ := isExhausted_false he'
    rw [readByte_one hs he']
    have ok1 : (s.adv 1).OK := hs.adv (by rw [s.view_length]; omega)
    have l1 : RS.Loss 0 s (s.adv 1) := by
      refine ⟨rfl, rfl, ?_, ?_, ?_, .inl ?_⟩ <;> simp <;> omega
    dsimp only
    obtain ⟨h1, h2, h3⟩ := readDataSize_loss (s.view.headD 0) ok1 hg
    have hlt := readDataSize_lt (s.view.headD 0) (s.adv 1)
    have hoff : offMax = 2 ^ 63 := rfl
    generalize readDataSize (s.view.headD 0) (s.adv 1) = n at *
    have ok2 := h1.ok ok1
    have e1 := l1.keep
    refine ⟨?_, ?_, ?_⟩
    · cases hg2 : n.2.good with
      | true =>
        obtain ⟨k1, _⟩ := doSkip_loss (n := n.1) (by omega) ok2 hg2
        exact ((l1.trans h1).trans k1).mono (by omega)
      | false =>
        obtain ⟨b1, b2, b3, b4, b5, _⟩ := doSkip_bad (n := n.1) (by omega) hg2
        have t := l1.trans h1
        show RS.Loss _ s (doSkip n.1 n.2).2
        refine ⟨by rw [b1]; exact t.data, by rw [b2]; exact t.ub, by rw [b3]; exact t.fwd, by rw [b3]; exact t.wf, ?_, ?_⟩
        · have := t.le; rw [b3]; omega
        · have tk := t.keep
          rw [b3]
          rcases h3 hg2 with ⟨q1, q2⟩ | q
          · left
            simp only [RS.adv_pos, RS.adv_rem] at q1
            omega
          · right
            simp only [RS.adv_pos, RS.adv_rem, RS.adv_data] at q
            refine ⟨by omega, ?_⟩
            rcases tk with tk | tk <;> omega
    · intro hgood
      cases hg2 : n.2.good with
      | true =>
        obtain ⟨_, k2⟩ := doSkip_loss (n := n.1) (by omega) ok2 hg2
        have := k2 hgood
        have := h2 hg2
        simp only [RS.adv_pos, RS.adv_rem] at *
        show (doSkip n.1 n.2).2.pos + (doSkip n.1 n.2).2.rem = _
        omega
      | false =>
        have := (doSkip_bad (n := n.1) (by omega) hg2).2.2.2.2.2
        rw [show (skipBytes n.1 n.2).2.good = false from this] at hgood
        cases hgood
    · intro h; rw [hg] at h; cases h

theorem opCountLoop_loss : ∀ (fuel c : Nat) (s : RS), s.OK → RS.Loss (2 ^ 33) s (opCountLoop fuel c s).2 := by
  intro fuel
  induction fuel with
  | zero => intro c s hs; exact .refl hs
  | succ fuel ih =>
    intro c s hs
    obtain ⟨h1, h2, h3⟩ := countOp_loss hs
    unfold opCountLoop
    dsimp only
    split
    · cases hg : (countOp s).2.good with
      | true =>
        have l0 : RS.Loss 0 s (countOp s).2 := ⟨h1.data, h1.ub, h1.fwd, h1.wf, h1.le, .inl (h2 hg)⟩
        exact (l0.trans (ih (c + 1) _ (h1.ok hs))).mono (by omega)
      | false =>
        have : opCountLoop fuel (c + 1) (countOp s).2 = (c + 1, (countOp s).2) := by
          cases fuel with
          | zero => rfl
          | succ f =>
            unfold opCountLoop
            rw [(countOp_loss (h1.ok hs)).2.2 hg]
            rfl
        rw [this]
        exact h1
    · exact h1

/-- The counting pass restores the reader, except that a limit beyond the buffer may shrink (by less than `2^33`). -/
theorem opCount_spec {s : RS} (hs : s.OK) (hg : s.good = true) (hr : s.Rep) :
    ∃ r, (opCount s).2 = { s with rem := r } ∧ r ≤ maxSize ∧
      (r = s.rem ∨ (s.data.length < s.pos + s.rem ∧ s.rem ≤ r + 2 ^ 33)) := by
  have l := opCountLoop_loss (s.data.length + 1) 0 s hs
  unfold opCount
  simp only [hg, Bool.not_true, Bool.false_eq_true, if_false]
  generalize (opCountLoop (s.data.length + 1) 0 s).2 = t at *
  have h1 := l.fwd; have h2 := l.keep; have h3 := l.wf; have h4 := l.data; have h5 := l.ub; have h6 := l.le
  have hsm := hs.small
  obtain ⟨d, p, g, r, u⟩ := s
  obtain ⟨d', p', g', r', u'⟩ := t
  simp only [RS.Rep] at *
  subst h4 h5 hg
  have hmax : maxSize = 2 ^ 64 - 1 := rfl
  have hoff : offMax = 2 ^ 63 := rfl
  unfold setPosition
  dsimp only
  by_cases e : p = p'
  · subst e
    simp only [if_true]
    exact ⟨r', rfl, by omega, by omega⟩
  · rw [if_neg e, if_neg (by omega)]
    have e0 : ¬ p' - p = 0 := by omega
    have e1 : ¬ p' < p' - p := by omega
    simp only [doRewind, noteSize_small (show p' - p < offMax by omega), e0, e1, if_false, if_true]
    have hc : cadd r' (p' - p) = min (r' + (p' - p)) maxSize := rfl
    refine ⟨cadd r' (p' - p), by rw [show p' - (p' - p) = p by omega], by omega, by omega⟩

theorem opCount_bad {s : RS} (hg : s.good = false) : opCount s = (0, s) := by
  unfold opCount; simp [hg]

theorem readOps_bad {s : RS} (hg : s.good = false) (fuel : Nat) : readOps fuel s = ([], s) := by
  cases fuel with
  | zero => rfl
  | succ f => unfold readOps; rw [if_pos (isExhausted_iff.mpr (.inl hg))]

/-- `script::from_data` with no limit in force: everything to the end of the buffer is the script. -/
theorem Script.read_unprefixed {s : RS} (hs : s.OK) (hg : s.good = true) (hr : s.rem = maxSize) :
    (Script.read false s).1.valid = true ∧ OpsOK (Script.read false s).1.ops ∧
    opsData (Script.read false s).1.ops = s.rest ∧
    (Script.read false s).1.size = s.rest.length ∧ (Script.read false s).2.good = true ∧
    (Script.read false s).2.pos = s.data.length ∧ (Script.read false s).2.data = s.data ∧
    (Script.read false s).2.ub = s.ub := by
  have hmax : maxSize = 2 ^ 64 - 1 := rfl
  have hoff : offMax = 2 ^ 63 := rfl
  have hsm := hs.small
  have hw := hs.wf
  obtain ⟨r, hst, hle, hk⟩ := opCount_spec hs hg (by unfold RS.Rep; omega)
  unfold Script.read
  simp only [Bool.false_eq_true, if_false]
  rw [hst]
  have ok : RS.OK { s with rem := r } := ⟨hw, hsm⟩
  have hv : RS.view { s with rem := r } = s.rest := by
    unfold RS.view
    exact List.take_of_length_le (by simp only [RS.rest, List.length_drop]; omega)
  have hvl : s.rest.length = s.data.length - s.pos := s.rest_length
  obtain ⟨h1, h2, h3, h4, h5, h6, h7⟩ := readOps_spec (s.data.length + 1) { s with rem := r } ok hg hle
    (by rw [hv]; omega)
  rw [hv] at h2 h4
  dsimp only at h1 h2 h3 h4 h5 h6 h7 ⊢
  exact ⟨h3, h1, h2, by rw [h4]; omega, h3, by rw [h4]; omega, h5, h6⟩

/-- `script::from_data` with a size prefix. -/
theorem Script.read_prefixed_ok {s : RS} (hs : s.OK) (e : Nat)
    (he : readSize maxSize s = (e, (readSize maxSize s).2)) (hg : (readSize maxSize s).2.good = true)
    (hfit : e ≤ (readSize maxSize s).2.data.length - (readSize maxSize s).2.pos) :
    let t := (readSize maxSize s).2
    OpsOK (Script.read true s).1.ops ∧ opsData (Script.read true s).1.ops = t.rest.take e ∧
    (Script.read true s).1.valid = true ∧ (Script.read true s).1.size = e ∧
    (Script.read true s).2 = { t with pos := t.pos + e, rem := maxSize } := by
  have ok := (tame_readSize maxSize).ok s hs
  intro t
  have hmax : maxSize = 2 ^ 64 - 1 := rfl
  have hoff : offMax = 2 ^ 63 := rfl
  have hsm := ok.small
  have hw := ok.wf
  unfold Script.read
  simp only [if_true]
  rw [he]
  dsimp only
  change t.good = true at hg
  change e ≤ t.data.length - t.pos at hfit
  change t.OK at ok
  change t.data.length < offMax at hsm
  change t.pos ≤ t.data.length at hw
  rw [show (readSize maxSize s).2 = t from rfl]
  clear_value t
  rw [show (setLimit e t).2 = { t with rem := e } from rfl]
  have ok1 : RS.OK { t with rem := e } := ⟨hw, hsm⟩
  obtain ⟨r, hst, hle, hk⟩ := opCount_spec ok1 hg (show e ≤ maxSize by omega)
  have hre : r = e := by
    rcases hk with h | ⟨h, _⟩
    · exact h
    · simp only at h; omega
  rw [hst, hre]
  have hv : RS.view { t with rem := e } = t.rest.take e := rfl
  have hvl : (t.rest.take e).length = e := by rw [List.length_take, t.rest_length]; omega
  obtain ⟨h1, h2, h3, h4, h5, h6, h7⟩ := readOps_spec (t.data.length + 1) { t with rem := e } ok1 hg
    (show e ≤ maxSize by omega) (by rw [hv]; omega)
  rw [hv] at h2 h4
  rw [hvl] at h4
  dsimp only at *
  generalize readOps (t.data.length + 1) { t with rem := e } = R at *
  have hsz : R.2.pos - t.pos = e := by omega
  rw [hsz]
  simp only [ne_eq, not_true, if_false]
  refine ⟨h1, h2, h3, trivial, ?_⟩
  obtain ⟨o, d, p, g, r', u⟩ := R
  simp only [clearLimit, setLimit] at *
  subst h4 h5 h6
  rw [h3, hg]

/-- A prefixed script whose prefix fails, or exceeds what follows, fails. -/
theorem Script.read_prefixed_bad {s : RS} (hs : s.OK)
    (h : (readSize maxSize s).2.good = false ∨
      (readSize maxSize s).2.data.length - (readSize maxSize s).2.pos < (readSize maxSize s).1) :
    let t := (readSize maxSize s).2
    (Script.read true s).1.valid = false ∧ (Script.read true s).2.good = false ∧
    (Script.read true s).2.data = t.data ∧ (Script.read true s).2.ub = t.ub ∧
    (Script.read true s).2.rem = maxSize ∧ (Script.read true s).2.pos ≤ t.data.length := by
  have ok := (tame_readSize maxSize).ok s hs
  have hel := readSize_le maxSize s
  intro t
  have hmax : maxSize = 2 ^ 64 - 1 := rfl
  have hoff : offMax = 2 ^ 63 := rfl
  have hsm := ok.small
  have hw := ok.wf
  unfold Script.read
  simp only [if_true]
  rw [show (readSize maxSize s).2 = t from rfl] at *
  generalize (readSize maxSize s).1 = e at *
  clear_value t
  rw [show (setLimit e t).2 = { t with rem := e } from rfl]
  have ok1 : RS.OK { t with rem := e } := ⟨hw, hsm⟩
  rcases Bool.eq_false_or_eq_true t.good with hg | hg
  · rcases h with h | h
    · rw [hg] at h; cases h
    obtain ⟨r, hst, hle, hk⟩ := opCount_spec ok1 hg hel
    rw [hst]
    simp only at hk ⊢
    have ok2 : RS.OK { t with rem := r } := ⟨hw, hsm⟩
    obtain ⟨h1, h2, h3, h4, h5, h6, h7⟩ := readOps_spec (t.data.length + 1) { t with rem := r } ok2 hg hle
      (by rw [RS.view_length]; simp only; omega)
    have hvl := RS.view_length { t with rem := r }
    simp only at hvl h4 h5 h6
    generalize readOps (t.data.length + 1) { t with rem := r } = R at *
    have hne : R.2.pos - t.pos ≠ e := by omega
    rw [if_pos hne]
    simp only [clearLimit, setLimit, invalidate]
    exact ⟨trivial, trivial, h5, h6, trivial, by omega⟩
  · rw [opCount_bad (by exact hg), readOps_bad (by exact hg)]
    simp only [clearLimit, setLimit, invalidate]
    by_cases hc : t.pos - t.pos ≠ e
    · simp only [if_pos hc]; simp [hw]
    · simp only [if_neg hc]; simp [hg, hw]

theorem tame_Script_read_true : Tame (Script.read true) := by
  have t0 := tame_readSize maxSize
  have key : ∀ s : RS, s.OK → (Script.read true s).2.OK ∧ (Script.read true s).2.data = s.data ∧
      (Script.read true s).2.ub = s.ub := by
    intro s hs
    have ok := t0.ok s hs
    have hsm := ok.small
    by_cases h : (readSize maxSize s).2.good = false ∨
      (readSize maxSize s).2.data.length - (readSize maxSize s).2.pos < (readSize maxSize s).1
    · obtain ⟨_, _, h3, h4, _, h6⟩ := Script.read_prefixed_bad hs h
      exact ⟨⟨by rw [h3]; exact h6, by rw [h3]; exact hsm⟩, by rw [h3, t0.data s hs], by rw [h4, t0.ub s hs]⟩
    · rw [not_or, Bool.not_eq_false] at h
      have hfit := Nat.le_of_not_lt h.2
      obtain ⟨_, _, _, _, h5⟩ := Script.read_prefixed_ok hs (readSize maxSize s).1 rfl h.1 hfit
      have hw := ok.wf
      rw [h5]
      refine ⟨⟨?_, hsm⟩, t0.data s hs, t0.ub s hs⟩
      dsimp only; omega
  refine ⟨fun s h => (key s h).1, fun s h => (key s h).2.1, fun s h => (key s h).2.2, ?_⟩
  intro s hg
  have hb := t0.sticky s hg
  unfold Script.read
  simp only [if_true]
  generalize readSize maxSize s = q at *
  rw [opCount_bad (by exact hb), readOps_bad (by exact hb)]
  simp only [clearLimit, setLimit, invalidate]
  have key2 : ∀ (c : Prop) [Decidable c] (a b : RS), a.good = false → b.good = false →
      (if c then a else b).good = false := by
    intro c _ a b h1 h2; split <;> assumption
  exact key2 _ _ _ rfl hb

end Verif
