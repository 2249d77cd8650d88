import Verif.Spec.Chain
import Verif.Lemmas.StreamSafe
/-! Helper lemmas: operation and script codecs. -/
namespace Verif

/-- The limit is representable (always so in the code, where it is a `size_t`). -/
def RS.Rep (s : RS) : Prop := s.rem ≤ maxSize

/-! ### operations -/

/-- Size field that follows an opcode. -/
def sizeField (code : UInt8) (n : Nat) : Bytes :=
  if code = 76 then [UInt8.ofNat n]
  else if code = 77 then writeLE 2 n
  else if code = 78 then writeLE 4 n
  else []

theorem Op.toData_eq (o : Op) (h : o.underflow = false) :
    o.toData = o.code :: (sizeField o.code o.data.length ++ o.data) := by
  unfold Op.toData sizeField; simp [h]

theorem Op.size_eq (o : Op) : o.size = o.toData.length := by
  unfold Op.size Op.toData
  split
  · rfl
  split
  · simp; omega
  split
  · simp [writeLE]; omega
  split
  · simp [writeLE]; omega
  · simp; omega

theorem Bwd.bindPure {α β} {p : Reader α} {R : α → Bytes → Prop} (h : Bwd p R) (g : α → β) :
    Bwd (p >>= fun v => Pure.pure (g v)) (fun y b => ∃ x, y = g x ∧ R x b) :=
  (h.bind fun v => .pure (g v)).mono (by
    rintro y b ⟨x, a, c, rfl, ha, rfl, rfl⟩
    exact ⟨x, rfl, by simpa using ha⟩)

theorem bwd_readDataSize (code : UInt8) :
    Bwd (readDataSize code) (fun n b => b = sizeField code n ∧ SizeFits code n) := by
  unfold readDataSize
  refine (Bwd.ite (bwd_readByte.bindPure _) (Bwd.ite (bwd_readLE (by decide)) (Bwd.ite (bwd_readLE (by decide))
    (Bwd.ite (.pure _) (.pure 0))))).mono ?_
  rintro n b (⟨rfl, x, rfl, rfl⟩ | ⟨h1, (⟨rfl, rfl, hn⟩ | ⟨h2, (⟨rfl, rfl, hn⟩ | ⟨h3, (⟨h4, rfl, rfl⟩ | ⟨h4, rfl, rfl⟩)⟩)⟩)⟩)
  · exact ⟨by simp [sizeField], x.toNat_lt⟩
  · exact ⟨by simp [sizeField], by simp [SizeFits]; omega⟩
  · exact ⟨by simp [sizeField], by simp [SizeFits]; omega⟩
  · exact ⟨by simp [sizeField, h1, h2, h3], by simp [SizeFits, h1, h2, h3, h4]⟩
  · exact ⟨by simp [sizeField, h1, h2, h3], by simp [SizeFits, h1, h2, h3, h4]⟩

theorem fwd_readDataSize (code : UInt8) (n : Nat) (h : SizeFits code n) :
    Fwd (readDataSize code) (sizeField code n) n := by
  unfold readDataSize sizeField
  unfold SizeFits at h
  by_cases h1 : code = 76
  · simp only [h1, if_true] at h ⊢
    have := (fwd_readByte (UInt8.ofNat n)).map (fun b => b.toNat)
    have e : (UInt8.ofNat n).toNat = n := by rw [UInt8.toNat_ofNat']; omega
    rwa [e] at this
  · rw [if_neg h1] at h ⊢
    rw [if_neg h1]
    by_cases h2 : code = 77
    · rw [if_pos h2] at h ⊢; rw [if_pos h2]; exact fwd_readLE 2 n (by omega)
    · rw [if_neg h2] at h ⊢; rw [if_neg h2]
      by_cases h3 : code = 78
      · rw [if_pos h3] at h ⊢; rw [if_pos h3]; exact fwd_readLE 4 n (by omega)
      · rw [if_neg h3] at h ⊢; rw [if_neg h3]
        by_cases h4 : code ≤ 75
        · rw [if_pos h4] at h ⊢; rw [h]; exact Fwd.pure _
        · rw [if_neg h4] at h ⊢; rw [h]; exact Fwd.pure _

theorem readDataSize_lt (code : UInt8) (s : RS) : (readDataSize code s).1 < 2 ^ 32 := by
  have hb : ∀ n (s : RS), (doRead n s).1.length = n := by
    intro n s
    unfold doRead
    split
    · simp
    · generalize noteSize n { s with rem := s.rem - n } = t
      dsimp only
      split
      · split
        · simp only [List.length_append, List.length_replicate, RS.rest, List.length_drop]; omega
        · simp only [List.length_take, RS.rest, List.length_drop]; omega
      · simp
  have hl : ∀ n (s : RS), (readLE n s).1 < 256 ^ n := by
    intro n s
    have := leNat_lt (doRead n s).1
    rw [hb] at this
    exact this
  unfold readDataSize
  split
  · have := (readByte s).1.toNat_lt
    show (readByte s).1.toNat < _; omega
  split
  · have := hl 2 s; omega
  split
  · have := hl 4 s; omega
  split
  · have := code.toNat_lt
    show code.toNat < _; omega
  · show 0 < _; omega

theorem tame_readDataSize (code : UInt8) : Tame (readDataSize code) := (bwd_readDataSize code).tame

theorem lim_readDataSize (code : UInt8) : Lim (readDataSize code) := by
  have hr : ∀ n, n < offMax → Lim (readLE n) := fun n hn =>
    .bind (tame_doRead hn).safe (lim_doRead n) fun _ => .pure _
  unfold readDataSize
  exact .ite (.bind tame_readByte.safe lim_readByte fun _ => .pure _)
    (.ite (hr 2 (by decide)) (.ite (hr 4 (by decide)) (.ite (.pure _) (.pure _))))

/-! ### Attempted reads can be undone -/

/-- From `s` to `s'` only position (forward) and limit changed; the absolute end of the limit never grows, and it is
intact unless the limit lies beyond the buffer both before and after. -/
structure RS.Moved (s s' : RS) : Prop where
  data : s'.data = s.data
  ub : s'.ub = s.ub
  fwd : s.pos ≤ s'.pos
  wf : s'.pos ≤ s.data.length
  le : s'.pos + s'.rem ≤ s.pos + s.rem
  keep : s'.pos + s'.rem = s.pos + s.rem ∨
    (s.data.length ≤ s.pos + s.rem ∧ s.data.length ≤ s'.pos + s'.rem)

theorem RS.Moved.refl {s : RS} (h : s.OK) : s.Moved s :=
  ⟨rfl, rfl, Nat.le_refl _, h.wf, Nat.le_refl _, .inl rfl⟩

theorem RS.Moved.trans {a b c : RS} (h : a.Moved b) (k : b.Moved c) : a.Moved c where
  data := k.data.trans h.data
  ub := k.ub.trans h.ub
  fwd := Nat.le_trans h.fwd k.fwd
  wf := by have := k.wf; rwa [h.data] at this
  le := Nat.le_trans k.le h.le
  keep := by
    have h1 := h.keep; have k1 := k.keep
    rw [h.data] at k1
    omega

def Mvd {α} (p : Reader α) : Prop := ∀ s : RS, s.OK → s.good = true → s.Moved (p s).2

theorem Mvd.pure {α} (x : α) : Mvd (Pure.pure x : Reader α) := fun _ h _ => .refl h

theorem Mvd.ite {α} {c : Prop} [Decidable c] {p q : Reader α} (hp : Mvd p) (hq : Mvd q) :
    Mvd (if c then p else q) := by split <;> assumption

theorem moved_invalidate {s : RS} (h : s.OK) : s.Moved (invalidate s).2 :=
  ⟨rfl, rfl, Nat.le_refl _, h.wf, Nat.le_refl _, .inl rfl⟩

theorem mvd_doRead {n : Nat} (hn : n < offMax) : Mvd (doRead n) := by
  rintro ⟨d, p, g, r, u⟩ h hg
  have hw := h.wf
  simp only at hg hw
  subst hg
  simp only [doRead, noteSize_small hn, if_true]
  split
  · exact ⟨rfl, rfl, Nat.le_refl _, hw, Nat.le_refl _, .inl rfl⟩
  · split
    · refine ⟨rfl, rfl, hw, Nat.le_refl _, ?_, .inr ⟨?_, ?_⟩⟩ <;> dsimp only <;> omega
    · refine ⟨rfl, rfl, ?_, ?_, ?_, .inl ?_⟩ <;> dsimp only <;> omega

theorem mvd_readByte : Mvd readByte := fun s h hg => mvd_doRead (by decide) s h hg

theorem mvd_readDataSize (code : UInt8) : Mvd (readDataSize code) := by
  have hr : ∀ n, n < offMax → Mvd (readLE n) := fun n hn s h hg => mvd_doRead hn s h hg
  unfold readDataSize
  exact .ite (fun s h hg => mvd_readByte s h hg)
    (.ite (hr 2 (by decide)) (.ite (hr 4 (by decide)) (.ite (.pure _) (.pure _))))

theorem mvd_readBytes {n : Nat} (hn : n < offMax) : Mvd (readBytes n) := by
  intro s h hg
  unfold readBytes
  repeat' split
  · exact .refl h
  · exact .refl h
  · exact mvd_doRead hn s h hg

/-- Returning to the start after an attempted read makes the same bytes visible again. -/
theorem Moved.rewound {s s' : RS} (h : s.Moved s') (hs : s.OK) (hr : s.Rep) :
    (setPosition s.pos s').2.good = true ∧ (setPosition s.pos s').2.pos = s.pos ∧
    (setPosition s.pos s').2.data = s.data ∧ (setPosition s.pos s').2.ub = s.ub ∧
    (setPosition s.pos s').2.view = s.view ∧ (setPosition s.pos s').2.Rep := by
  have h1 := h.fwd; have h2 := h.keep; have h3 := h.wf; have h4 := h.data; have h5 := h.ub
  have hle := h.le
  have hsm := hs.small; have hw := hs.wf
  obtain ⟨d, p, g, r, u⟩ := s
  obtain ⟨d', p', g', r', u'⟩ := s'
  simp only [RS.Rep] at *
  subst h4 h5
  have hmax : maxSize = 2 ^ 64 - 1 := rfl
  have hoff : offMax = 2 ^ 63 := rfl
  unfold setPosition
  dsimp only
  by_cases e : p = p'
  · subst e
    simp only [if_true]
    refine ⟨trivial, trivial, trivial, trivial, ?_, by omega⟩
    unfold RS.view RS.rest
    dsimp only
    rcases h2 with h2 | h2
    · rw [show r' = r by omega]
    · rw [List.take_of_length_le (by rw [List.length_drop]; omega),
        List.take_of_length_le (by rw [List.length_drop]; omega)]
  · rw [if_neg e, if_neg (by omega)]
    have e0 : ¬ p' - p = 0 := by omega
    have e1 : ¬ p' < p' - p := by omega
    simp only [doRewind, noteSize_small (show p' - p < offMax by omega), e0, e1, if_false, if_true]
    refine ⟨trivial, by omega, trivial, trivial, ?_, Nat.min_le_right _ _⟩
    unfold RS.view RS.rest
    dsimp only
    rw [show p' - (p' - p) = p by omega]
    have hc : cadd r' (p' - p) = min (r' + (p' - p)) maxSize := rfl
    rcases h2 with h2 | h2
    · rw [show cadd r' (p' - p) = r by omega]
    · rw [List.take_of_length_le (by rw [List.length_drop]; omega),
        List.take_of_length_le (by rw [List.length_drop]; omega)]

/-! ### `operation::from_data` -/

/-- The body of `operation::from_data` up to the underflow test. -/
def opBody : Reader (UInt8 × Bytes) := do
  let c ← readByte
  let n ← readDataSize c
  let d ← (if n > maxBytes then do invalidate; return [] else readBytes n)
  return (c, d)

theorem readBytes_bad {n : Nat} {s : RS} (h : s.good = false) : readBytes n s = ([], s) := by
  unfold readBytes; split
  · rfl
  · simp [h]

theorem Op.read_eq (s : RS) (hg : s.good = true) :
    Op.read s =
      (if (opBody s).2.good then ({ code := (opBody s).1.1, data := (opBody s).1.2, underflow := false }, (opBody s).2)
       else ({ code := anyInvalid, data := (readAll (setPosition s.pos (opBody s).2).2).1, underflow := true },
         (readAll (setPosition s.pos (opBody s).2).2).2)) := by
  unfold Op.read opBody
  simp only [hg, Bool.not_true, Bool.false_eq_true, if_false, bind_run, pure_run]
  generalize readByte s = c
  generalize readDataSize c.1 c.2 = n
  by_cases hn : n.1 > maxBytes
  · simp [hn, invalidate]
  · simp only [hn, if_false]
    cases hgd : n.2.good with
    | false => simp [readBytes_bad hgd, hgd]
    | true =>
      simp only [if_true]
      generalize readBytes n.1 n.2 = w
      cases w.2.good <;> simp

theorem bwd_opBody : Bwd opBody (fun x b => b = x.1 :: (sizeField x.1 x.2.length ++ x.2) ∧
    SizeFits x.1 x.2.length ∧ x.2.length ≤ maxBytes) := by
  unfold opBody
  refine (bwd_readByte.bind fun c => (bwd_readDataSize c).bind (Rb := fun n y b =>
    y.1 = c ∧ y.2 = b ∧ b.length = n ∧ n ≤ maxBytes) fun n => ?_).mono ?_
  · by_cases hn : n > maxBytes
    · rw [if_pos hn]
      exact (bwd_fail (R := fun _ _ => False) []).bindPure (fun d => (c, d)) |>.mono (by rintro _ _ ⟨_, _, h⟩; exact h.elim)
    · rw [if_neg hn]
      refine ((bwd_readBytes (n := n) ?_).bindPure (fun d => (c, d))).mono ?_
      · have : maxBytes = 4000000 := rfl
        have : offMax = 2 ^ 63 := rfl
        omega
      · rintro y b ⟨x, rfl, rfl, hl⟩
        exact ⟨rfl, rfl, hl, by omega⟩
  · rintro ⟨y1, y2⟩ b ⟨c, a, b2, rfl, rfl, n, a2, b3, rfl, ⟨rfl, hf⟩, rfl, rfl, hl, hn⟩
    subst hl
    exact ⟨rfl, hf, hn⟩

theorem readByte_bad_zero {s : RS} (hs : s.OK) (hg : s.good = true) (h : (readByte s).2.good = false) :
    (readByte s).1 = 0 := by
  have hv : s.view = [] := by
    match hv : s.view with
    | [] => rfl
    | b :: t =>
      have := fwd_readByte b s hs hg (by rw [hv]; exact ⟨t, rfl⟩)
      rw [this, RS.adv_good, hg] at h
      cases h
  have hl := s.view_length
  rw [hv] at hl
  obtain ⟨d, p, g, r, u⟩ := s
  simp only at hg hl
  subst hg
  unfold readByte
  simp only [bind_run, pure_run, doRead, noteSize_small (by decide : 1 < offMax), if_true]
  by_cases hr : r < 1
  · rw [if_pos hr]; rfl
  · rw [if_neg hr]
    have : d.length - p = 0 := by simp at hl; omega
    rw [if_pos (by omega)]
    have : List.drop p d = [] := List.drop_eq_nil_of_le (by omega)
    simp [RS.rest, this]

theorem mvd_opBody : Mvd opBody := by
  intro s hs hg
  unfold opBody
  simp only [bind_run, pure_run]
  have h0 := mvd_readByte s hs hg
  have o0 := tame_readByte.ok s hs
  have hoff : offMax = 2 ^ 63 := rfl
  refine h0.trans ?_
  cases hg0 : (readByte s).2.good with
  | false =>
    rw [readByte_bad_zero hs hg hg0]
    have : readDataSize 0 (readByte s).2 = (0, (readByte s).2) := rfl
    rw [this]
    simp only
    rw [if_neg (by decide)]
    rw [readBytes_bad hg0]
    exact .refl o0
  | true =>
    have hn := readDataSize_lt (readByte s).1 (readByte s).2
    have h1 := mvd_readDataSize (readByte s).1 (readByte s).2 o0 hg0
    have o1 := (tame_readDataSize (readByte s).1).ok _ o0
    refine h1.trans ?_
    split
    · exact moved_invalidate o1
    · cases hg1 : (readDataSize (readByte s).1 (readByte s).2).2.good with
      | false => rw [readBytes_bad hg1]; exact .refl o1
      | true => exact mvd_readBytes (by omega) _ o1 hg1

theorem fwd_op (o : Op) (h : o.Consistent) : Fwd opBody o.toData (o.code, o.data) := by
  rw [Op.toData_eq o h.notUnder]
  unfold opBody
  refine ((fwd_readByte o.code).bind ((fwd_readDataSize o.code o.data.length h.fits).bind (b := o.data)
    (y := (o.code, o.data)) ?_)).congr rfl rfl
  rw [if_neg (by have := h.bound; omega)]
  exact (fwd_readBytes o.data).map (fun d => (o.code, d))

/-- Serialized consistent operations are parsed back, wherever they stand. -/
theorem Op.read_fwd {o : Op} (h : o.Consistent) {s : RS} (hs : s.OK) (hg : s.good = true)
    (hv : o.toData <+: s.view) : Op.read s = (o, s.adv o.toData.length) := by
  rw [Op.read_eq s hg, fwd_op o h s hs hg hv]
  simp only [RS.adv_good, hg, if_true]
  have := h.notUnder
  cases o
  simp_all

/-- What parsing one operation does on any usable reader. -/
theorem Op.read_cases {s : RS} (hs : s.OK) (hg : s.good = true) (hr : s.Rep) :
    ((Op.read s).1.Consistent ∧ (Op.read s).1.toData <+: s.view ∧
      (Op.read s).2 = s.adv (Op.read s).1.toData.length) ∨
    ((Op.read s).1 = { code := anyInvalid, data := s.view, underflow := true } ∧
      (Op.read s).2.good = true ∧ (Op.read s).2.pos = s.pos + s.view.length ∧ (Op.read s).2.data = s.data ∧
      (Op.read s).2.ub = s.ub ∧ (Op.read s).2.view = [] ∧ (Op.read s).2.Rep ∧
      ∀ o : Op, o.Consistent → ¬ o.toData <+: s.view) := by
  rw [Op.read_eq s hg]
  cases hb : (opBody s).2.good with
  | true =>
    left
    obtain ⟨_, b, hp, ⟨rfl, hf, hm⟩, hst⟩ := bwd_opBody.back s hs hb
    simp only [if_true]
    have hc : Op.Consistent { code := (opBody s).1.1, data := (opBody s).1.2, underflow := false } :=
      ⟨rfl, hf, hm⟩
    have he := Op.toData_eq _ hc.notUnder
    simp only at he
    exact ⟨hc, by rw [he]; exact hp, by rw [he]; exact hst⟩
  | false =>
    right
    simp only [Bool.false_eq_true, if_false]
    obtain ⟨h1, h2, h3, h4, h5, h6⟩ := Moved.rewound (mvd_opBody s hs hg) hs hr
    generalize (setPosition s.pos (opBody s).2).2 = t at *
    have ok : t.OK := ⟨by rw [h2, h3]; exact hs.wf, by rw [h3]; exact hs.small⟩
    rw [readAll_eq ok h1 h6]
    refine ⟨by rw [h5], h1, by rw [h5]; simp [h2], h3, h4, by rw [RS.view_adv]; simp, ?_, ?_⟩
    · have : t.rem ≤ maxSize := h6
      show t.rem - _ ≤ maxSize
      omega
    · intro o ho hpre
      have := fwd_op o ho s hs hg hpre
      rw [this] at hb
      rw [RS.adv_good, hg] at hb
      cases hb

theorem Op.toData_pos {o : Op} (h : o.Consistent) : 0 < o.toData.length := by
  rw [Op.toData_eq o h.notUnder]; simp

/-! ### Operation lists -/

/-- The operation loop consumes every visible byte and its result re-serializes to them. -/
theorem readOps_spec : ∀ (fuel : Nat) (s : RS), s.OK → s.good = true → s.Rep → s.view.length < fuel →
    OpsOK (readOps fuel s).1 ∧ opsData (readOps fuel s).1 = s.view ∧ (readOps fuel s).2.good = true ∧
    (readOps fuel s).2.pos = s.pos + s.view.length ∧ (readOps fuel s).2.data = s.data ∧
    (readOps fuel s).2.ub = s.ub ∧ (readOps fuel s).2.Rep := by
  intro fuel
  induction fuel with
  | zero => intro s _ _ _ h; omega
  | succ fuel ih =>
    intro s hs hg hr hf
    unfold readOps
    by_cases he : (isExhausted s).1 = true
    · rw [if_pos he]
      rcases isExhausted_iff.mp he with h | h
      · rw [hg] at h; cases h
      · exact ⟨.nil, by rw [h]; rfl, hg, by rw [h]; simp, rfl, rfl, hr⟩
    · rw [if_neg he]
      have hvne : s.view ≠ [] := fun h => he (isExhausted_iff.mpr (.inr h))
      have hvpos : 0 < s.view.length := List.length_pos_iff.mpr hvne
      dsimp only
      rcases Op.read_cases hs hg hr with ⟨hc, hp, hst⟩ | ⟨ho, hg2, hpos, hdata, hub, hview, hrep, hno⟩
      · have hlen := hp.length_le
        have hpos := Op.toData_pos hc
        have ok2 : (Op.read s).2.OK := by rw [hst]; exact hs.adv hlen
        have hv2 : (Op.read s).2.view = s.view.drop (Op.read s).1.toData.length := by
          conv => lhs; rw [hst]
          rw [RS.view_adv]
        obtain ⟨i1, i2, i3, i4, i5, i6, i7⟩ := ih (Op.read s).2 ok2 (by rw [hst]; exact hg)
          (by rw [hst]; have : s.rem ≤ maxSize := hr; show s.rem - _ ≤ maxSize; omega)
          (by rw [hv2, List.length_drop]; omega)
        refine ⟨.cons _ _ hc i1, ?_, i3, ?_, by rw [i5, hst]; rfl, by rw [i6, hst]; rfl, i7⟩
        · show (Op.read s).1.toData ++ opsData _ = _
          rw [i2, hv2]
          obtain ⟨t, ht⟩ := hp
          conv => lhs; arg 2; rw [← ht, List.drop_left]
          exact ht
        · rw [i4, hv2, List.length_drop]
          conv => lhs; lhs; rw [hst]
          simp only [RS.adv_pos]
          omega
      · have hex : (isExhausted (Op.read s).2).1 = true := isExhausted_iff.mpr (.inr hview)
        have hnext : readOps fuel (Op.read s).2 = ([], (Op.read s).2) := by
          cases fuel with
          | zero => rfl
          | succ f => unfold readOps; rw [if_pos hex]
        rw [hnext, ho]
        refine ⟨.under _ hvne hno, ?_, hg2, hpos, hdata, hub, hrep⟩
        simp [opsData, Op.toData]

/-- Conversely, visible bytes that are the serialization of an admissible list parse to that list. -/
theorem readOps_fwd : ∀ (ops : List Op), OpsOK ops → ∀ (fuel : Nat) (s : RS), s.OK → s.good = true → s.Rep →
    s.view.length < fuel → s.view = opsData ops → (readOps fuel s).1 = ops := by
  intro ops h
  induction h with
  | nil =>
    intro fuel s hs hg hr hf hv
    cases fuel with
    | zero => rfl
    | succ f =>
      unfold readOps
      rw [if_pos (isExhausted_iff.mpr (.inr hv))]
  | under d hne hno =>
    intro fuel s hs hg hr hf hv
    have hv' : s.view = d := by rw [hv]; simp [opsData, Op.toData]
    cases fuel with
    | zero => omega
    | succ f =>
      unfold readOps
      rw [if_neg (by
        intro he
        rcases isExhausted_iff.mp he with h | h
        · rw [hg] at h; cases h
        · exact hne (hv'.symm.trans h))]
      dsimp only
      rcases Op.read_cases hs hg hr with ⟨hc, hp, _⟩ | ⟨ho, _, _, _, _, hview, _, _⟩
      · exact absurd (hv' ▸ hp) (hno _ hc)
      · have hex : (isExhausted (Op.read s).2).1 = true := isExhausted_iff.mpr (.inr hview)
        have hnext : readOps f (Op.read s).2 = ([], (Op.read s).2) := by
          cases f with
          | zero => rfl
          | succ f => unfold readOps; rw [if_pos hex]
        rw [hnext, ho, hv']
  | cons o os hc _ ih =>
    intro fuel s hs hg hr hf hv
    have hv' : s.view = o.toData ++ opsData os := hv
    have hpre : o.toData <+: s.view := by rw [hv']; exact List.prefix_append _ _
    have hpos := Op.toData_pos hc
    cases fuel with
    | zero => omega
    | succ f =>
      unfold readOps
      rw [if_neg (by
        intro he
        rcases isExhausted_iff.mp he with h | h
        · rw [hg] at h; cases h
        · rw [h] at hpre; have := hpre.length_le; simp at this; rw [this] at hpos; simp at hpos)]
      dsimp only
      rw [Op.read_fwd hc hs hg hpre]
      have hlen := hpre.length_le
      have hvd : (s.adv o.toData.length).view = opsData os := by rw [RS.view_adv, hv', List.drop_left]
      rw [ih f (s.adv o.toData.length) (hs.adv hlen) hg
        (by have : s.rem ≤ maxSize := hr; show s.rem - _ ≤ maxSize; omega)
        (by rw [RS.view_adv, List.length_drop]; omega) hvd]

end Verif
