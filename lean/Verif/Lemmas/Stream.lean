import Verif.Model.Stream
/-! Helper lemmas about the stream model. -/
namespace Verif

@[simp] theorem bind_run {α β} (p : Reader α) (f : α → Reader β) (s : RS) :
    (p >>= f) s = f (p s).1 (p s).2 := rfl
@[simp] theorem pure_run {α} (a : α) (s : RS) : (pure a : Reader α) s = (a, s) := rfl

@[simp] theorem leBytes_length (n v : Nat) : (leBytes n v).length = n := by
  induction n generalizing v with
  | zero => rfl
  | succ n ih => simp [leBytes, ih]

@[simp] theorem beBytes_length (n v : Nat) : (beBytes n v).length = n := by simp [beBytes]

theorem leNat_lt (b : Bytes) : leNat b < 256 ^ b.length := by
  induction b with
  | nil => simp [leNat]
  | cons x xs ih =>
    have := x.toNat_lt
    simp only [leNat, List.length_cons, Nat.pow_succ]
    omega

theorem leNat_leBytes (n v : Nat) : leNat (leBytes n v) = v % 256 ^ n := by
  induction n generalizing v with
  | zero => simp [leBytes, leNat, Nat.mod_one]
  | succ n ih =>
    simp only [leBytes, leNat, ih, UInt8.toNat_ofNat']
    rw [Nat.pow_succ 256 n, Nat.mul_comm (256 ^ n), Nat.mod_mul]
    omega

theorem leNat_leBytes_of_lt {n v : Nat} (h : v < 256 ^ n) : leNat (leBytes n v) = v := by
  rw [leNat_leBytes, Nat.mod_eq_of_lt h]

theorem leBytes_leNat (b : Bytes) : leBytes b.length (leNat b) = b := by
  induction b with
  | nil => rfl
  | cons x xs ih =>
    have := x.toNat_lt
    simp only [List.length_cons, leBytes, leNat]
    rw [show (x.toNat + 256 * leNat xs) % 256 = x.toNat by omega,
        show (x.toNat + 256 * leNat xs) / 256 = leNat xs by omega, ih]
    simp

theorem leBytes_leNat' {b : Bytes} {n : Nat} (h : b.length = n) : leBytes n (leNat b) = b := by
  subst h; exact leBytes_leNat b

theorem leNat_append (a b : Bytes) : leNat (a ++ b) = leNat a + 256 ^ a.length * leNat b := by
  induction a with
  | nil => simp [leNat]
  | cons x xs ih =>
    simp only [List.cons_append, leNat, ih, List.length_cons, Nat.pow_succ]
    rw [Nat.mul_add, Nat.add_assoc, ← Nat.mul_assoc, Nat.mul_comm 256 (256 ^ xs.length)]

theorem leNat_inj {a b : Bytes} (hl : a.length = b.length) (h : leNat a = leNat b) : a = b := by
  rw [← leBytes_leNat a, ← leBytes_leNat b, hl, h]

theorem writeVariable_length (v : Nat) : (writeVariable v).length = variableSize v := by
  unfold writeVariable variableSize writeLE
  split
  · rfl
  split
  · simp
  split <;> simp

theorem variableSize_le (v : Nat) : variableSize v ≤ 9 := by
  unfold variableSize; repeat' split
  all_goals omega

theorem variableSize_pos (v : Nat) : 1 ≤ variableSize v := by
  unfold variableSize; repeat' split
  all_goals omega

/-! ### Visible bytes and advancing -/

namespace RS

/-- The bytes the reader may still deliver: the rest of the buffer cut at the limit. -/
def view (s : RS) : Bytes := s.rest.take s.rem

/-- Advance position and limit by `n`. -/
def adv (s : RS) (n : Nat) : RS := { s with pos := s.pos + n, rem := s.rem - n }

/-- A usable reader: position within the buffer, buffer addressable by signed offsets. -/
structure OK (s : RS) : Prop where
  wf : s.pos ≤ s.data.length
  small : s.data.length < offMax

/-- The limit does not cut the buffer. -/
def Unl (s : RS) : Prop := s.data.length - s.pos ≤ s.rem

@[simp] theorem adv_zero (s : RS) : s.adv 0 = s := by simp [adv]
@[simp] theorem adv_adv (s : RS) (m n : Nat) : (s.adv m).adv n = s.adv (m + n) := by
  simp [adv, Nat.add_assoc, Nat.sub_sub]
@[simp] theorem adv_good (s : RS) (n : Nat) : (s.adv n).good = s.good := rfl
@[simp] theorem adv_data (s : RS) (n : Nat) : (s.adv n).data = s.data := rfl
@[simp] theorem adv_pos (s : RS) (n : Nat) : (s.adv n).pos = s.pos + n := rfl
@[simp] theorem adv_rem (s : RS) (n : Nat) : (s.adv n).rem = s.rem - n := rfl
@[simp] theorem adv_ub (s : RS) (n : Nat) : (s.adv n).ub = s.ub := rfl

theorem rest_length (s : RS) : s.rest.length = s.data.length - s.pos := by simp [rest]

theorem view_length (s : RS) : s.view.length = min s.rem (s.data.length - s.pos) := by
  simp [view, rest_length]

theorem rest_adv (s : RS) (n : Nat) : (s.adv n).rest = s.rest.drop n := by
  simp [rest, adv, List.drop_drop]

theorem view_adv (s : RS) (n : Nat) : (s.adv n).view = s.view.drop n := by
  simp [view, rest_adv, List.drop_take]

theorem OK.adv {s : RS} (h : s.OK) {n : Nat} (hn : n ≤ s.view.length) : (s.adv n).OK := by
  have := s.view_length
  have := h.wf
  exact ⟨by simp; omega, h.small⟩

theorem Unl.view {s : RS} (h : s.Unl) : s.view = s.rest := by
  unfold RS.view; apply List.take_of_length_le; rw [rest_length]; exact h

theorem Unl.adv {s : RS} (h : s.Unl) (n : Nat) : (s.adv n).Unl := by
  unfold Unl at *; simp; omega

end RS

/-! ### Basic operations on a view -/

theorem noteSize_small {n : Nat} (h : n < offMax) (s : RS) : noteSize n s = s := by
  unfold noteSize; rw [if_pos h]

theorem doRead_ok {s : RS} (hs : s.OK) (hg : s.good = true) {bs : Bytes} {n : Nat}
    (hn : bs.length = n) (hv : bs <+: s.view) : doRead n s = (bs, s.adv n) := by
  subst hn
  obtain ⟨t, ht⟩ := hv
  have hl := congrArg List.length ht
  rw [List.length_append, s.view_length] at hl
  have hpos := hs.wf
  have hsm := hs.small
  have : s.rest.take bs.length = bs := by
    have h1 : s.view.take bs.length = bs := by rw [← ht]; simp
    rw [RS.view, List.take_take, Nat.min_eq_left (by omega)] at h1
    exact h1
  obtain ⟨d, p, g, r, u⟩ := s
  simp only at hg hl hpos hsm
  subst hg
  have h1 : ¬ r < bs.length := by omega
  have h2 : ¬ d.length - p < bs.length := by omega
  simp only [doRead, noteSize_small (show bs.length < offMax by omega), h1, h2, if_false, if_true]
  simp only [RS.rest] at this
  simp [RS.rest, RS.adv, this]

theorem doRead_good {s : RS} (hs : s.OK) {n : Nat} (h : (doRead n s).2.good = true) :
    s.good = true ∧ n ≤ s.view.length ∧ doRead n s = (s.view.take n, s.adv n) := by
  have hsm := hs.small
  by_cases h1 : s.rem < n
  · simp [doRead, h1] at h
  by_cases hg : s.good = true
  · by_cases h2 : s.data.length - s.pos < n
    · exfalso
      unfold doRead noteSize at h
      simp only [h1, if_false] at h
      split at h <;> simp [hg, h2] at h
    · have hl : n ≤ s.view.length := by rw [s.view_length]; omega
      refine ⟨hg, hl, doRead_ok hs hg (by rw [List.length_take]; omega) (List.take_prefix _ _)⟩
  · exfalso
    unfold doRead noteSize at h
    simp only [h1, if_false] at h
    split at h <;> simp [hg] at h

/-! ### Forward (serialize then parse) -/

/-- `p` reads exactly `bs`, yields `x`, advances position and limit by the length of `bs`. -/
def Fwd {α} (p : Reader α) (bs : Bytes) (x : α) : Prop :=
  ∀ s : RS, s.OK → s.good = true → bs <+: s.view → p s = (x, s.adv bs.length)

theorem prefix_drop {a b v : Bytes} (h : a ++ b <+: v) : b <+: v.drop a.length := by
  obtain ⟨t, rfl⟩ := h
  exact ⟨t, by simp⟩

theorem Fwd.bind {α β} {p : Reader α} {f : α → Reader β} {a b : Bytes} {x : α} {y : β}
    (hp : Fwd p a x) (hf : Fwd (f x) b y) : Fwd (p >>= f) (a ++ b) y := by
  intro s hs hg hv
  have ha : a <+: s.view := (List.prefix_append a b).trans hv
  have hla := ha.length_le
  rw [bind_run, hp s hs hg ha]
  rw [hf _ (hs.adv hla) (by simpa using hg) (by rw [RS.view_adv]; exact prefix_drop hv)]
  simp

theorem Fwd.pure {α} (x : α) : Fwd (pure x) [] x := by
  intro s _ _ _; simp

theorem Fwd.map {α β} {p : Reader α} {a : Bytes} {x : α} (g : α → β) (hp : Fwd p a x) :
    Fwd (p >>= fun v => Pure.pure (g v)) a (g x) := by
  have := hp.bind (f := fun v => Pure.pure (g v)) (Fwd.pure (g x))
  simpa using this

theorem Fwd.congr {α} {p : Reader α} {a b : Bytes} {x y : α} (h : Fwd p a x) (hab : a = b) (hxy : x = y) :
    Fwd p b y := by subst hab; subst hxy; exact h

theorem fwd_doRead (bs : Bytes) (n : Nat) (h : bs.length = n) : Fwd (doRead n) bs bs := by
  intro s hs hg hv
  rw [doRead_ok hs hg h hv, h]

theorem fwd_readByte (b : UInt8) : Fwd readByte [b] b :=
  (fwd_doRead [b] 1 rfl).map (fun v => v.headD 0)

theorem fwd_readLE (n v : Nat) (h : v < 256 ^ n) : Fwd (readLE n) (writeLE n v) v := by
  have := (fwd_doRead (leBytes n v) n (by simp)).map leNat
  rw [leNat_leBytes_of_lt h] at this
  exact this

theorem fwd_readBE (n v : Nat) (h : v < 256 ^ n) : Fwd (readBE n) (writeBE n v) v := by
  have := (fwd_doRead (beBytes n v) n (by simp)).map beNat
  rw [show beNat (beBytes n v) = v by simp [beNat, beBytes, leNat_leBytes_of_lt h]] at this
  exact this

theorem fwd_isGood : Fwd isGood [] true := by
  intro s _ hg _; simp [isGood, hg]

theorem fwd_readVariable (v : Nat) (h : v < 2 ^ 64) : Fwd readVariable (writeVariable v) v := by
  unfold writeVariable readVariable
  split
  · rename_i h1
    have hb : (UInt8.ofNat v).toNat = v := by rw [UInt8.toNat_ofNat']; omega
    have e1 : UInt8.ofNat v ≠ 0xff := by
      intro hc; have := congrArg UInt8.toNat hc; rw [hb] at this; simp at this; omega
    have e2 : UInt8.ofNat v ≠ 0xfe := by
      intro hc; have := congrArg UInt8.toNat hc; rw [hb] at this; simp at this; omega
    have e3 : UInt8.ofNat v ≠ 0xfd := by
      intro hc; have := congrArg UInt8.toNat hc; rw [hb] at this; simp at this; omega
    refine ((fwd_readByte (UInt8.ofNat v)).bind (b := []) (y := v) ?_)
    rw [if_neg e1, if_neg e2, if_neg e3, hb]
    exact Fwd.pure v
  · split
    · rename_i h1 h2
      refine ((fwd_readByte 0xfd).bind (b := writeLE 2 v) (y := v) ?_)
      rw [if_neg (by decide), if_neg (by decide), if_pos rfl]
      refine ((fwd_readLE 2 v (by omega)).bind (b := []) (y := v) ?_).congr (by simp) rfl
      rw [if_pos (by omega)]
      exact Fwd.pure v
    · split
      · rename_i h1 h2 h3
        refine ((fwd_readByte 0xfe).bind (b := writeLE 4 v) (y := v) ?_)
        rw [if_neg (by decide), if_pos rfl]
        refine ((fwd_readLE 4 v (by omega)).bind (b := []) (y := v) ?_).congr (by simp) rfl
        rw [if_pos (by omega)]
        exact Fwd.pure v
      · rename_i h1 h2 h3
        refine ((fwd_readByte 0xff).bind (b := writeLE 8 v) (y := v) ?_)
        rw [if_pos rfl]
        refine ((fwd_readLE 8 v (by omega)).bind (b := []) (y := v) ?_).congr (by simp) rfl
        rw [if_pos (by omega)]
        exact Fwd.pure v

theorem fwd_readSize (limit v : Nat) (h : v < 2 ^ 64) (hl : v ≤ limit) :
    Fwd (readSize limit) (writeVariable v) v := by
  refine ((fwd_readVariable v h).bind (b := []) (y := v) ?_).congr (by simp) rfl
  rw [if_neg (by omega)]
  exact Fwd.pure v

theorem fwd_readBytes (bs : Bytes) : Fwd (readBytes bs.length) bs bs := by
  intro s hs hg hv
  unfold readBytes
  by_cases h : bs.length = 0
  · have : bs = [] := List.length_eq_zero_iff.mp h
    subst this; simp
  · rw [if_neg h]; simp only [hg, Bool.not_true, Bool.false_eq_true, if_false]
    exact doRead_ok hs hg rfl hv

/-! ### Tame readers: safe on usable states, failures are sticky -/

/-- `p` keeps the buffer, keeps the reader usable, never leaves its contract, and never turns a failed
reader into a good one. -/
structure Tame {α} (p : Reader α) : Prop where
  ok : ∀ s : RS, s.OK → (p s).2.OK
  data : ∀ s : RS, s.OK → (p s).2.data = s.data
  ub : ∀ s : RS, s.OK → (p s).2.ub = s.ub
  sticky : ∀ s : RS, s.good = false → (p s).2.good = false

theorem Tame.bind {α β} {p : Reader α} {f : α → Reader β} (hp : Tame p) (hf : ∀ x, Tame (f x)) :
    Tame (p >>= f) where
  ok s h := (hf _).ok _ (hp.ok s h)
  data s h := by rw [bind_run, (hf _).data _ (hp.ok s h), hp.data s h]
  ub s h := by rw [bind_run, (hf _).ub _ (hp.ok s h), hp.ub s h]
  sticky s h := (hf _).sticky _ (hp.sticky s h)

/-- Bind where the continuation is only tame on values satisfying a postcondition of `p`. -/
theorem Tame.bind' {α β} {p : Reader α} {f : α → Reader β} {P : α → Prop} (hp : Tame p)
    (hP : ∀ s, P (p s).1) (hf : ∀ x, P x → Tame (f x)) : Tame (p >>= f) where
  ok s h := (hf _ (hP s)).ok _ (hp.ok s h)
  data s h := by rw [bind_run, (hf _ (hP s)).data _ (hp.ok s h), hp.data s h]
  ub s h := by rw [bind_run, (hf _ (hP s)).ub _ (hp.ok s h), hp.ub s h]
  sticky s h := (hf _ (hP s)).sticky _ (hp.sticky s h)

theorem Tame.pure {α} (x : α) : Tame (Pure.pure x : Reader α) :=
  ⟨fun _ h => h, fun _ _ => rfl, fun _ _ => rfl, fun _ h => h⟩

theorem Tame.ite {α} {c : Prop} [Decidable c] {p q : Reader α} (hp : Tame p) (hq : Tame q) :
    Tame (if c then p else q) := by split <;> assumption

theorem tame_isGood : Tame isGood := ⟨fun _ h => h, fun _ _ => rfl, fun _ _ => rfl, fun _ h => h⟩
theorem tame_invalidate : Tame invalidate :=
  ⟨fun _ h => ⟨h.wf, h.small⟩, fun _ _ => rfl, fun _ _ => rfl, fun _ _ => rfl⟩

theorem tame_doRead {n : Nat} (hn : n < offMax) : Tame (doRead n) := by
  constructor
  all_goals
    rintro ⟨d, p, g, r, u⟩ h
    simp only [doRead, noteSize_small hn]
  · have := h.wf; have := h.small
    simp only at *
    repeat' split
    all_goals constructor
    all_goals simp only
    all_goals omega
  · repeat' split
    all_goals rfl
  · repeat' split
    all_goals rfl
  · simp only at h
    subst h
    split <;> rfl

theorem tame_doSkip {n : Nat} (hn : n < offMax) : Tame (doSkip n) := by
  constructor
  all_goals
    rintro ⟨d, p, g, r, u⟩ h
    simp only [doSkip, noteSize_small hn]
  · have := h.wf; have := h.small
    simp only at *
    repeat' split
    all_goals constructor
    all_goals simp only
    all_goals omega
  · repeat' split
    all_goals rfl
  · repeat' split
    all_goals rfl
  · simp only at h
    subst h
    repeat' split
    all_goals rfl

theorem tame_doRewind {n : Nat} (hn : n < offMax) : Tame (doRewind n) := by
  constructor
  all_goals
    rintro ⟨d, p, g, r, u⟩ h
    simp only [doRewind, noteSize_small hn]
  · have := h.wf; have := h.small
    simp only at *
    repeat' split
    all_goals constructor
    all_goals simp only
    all_goals omega
  · repeat' split
    all_goals rfl
  · repeat' split
    all_goals rfl
  · simp only at h
    subst h
    repeat' split
    all_goals rfl

theorem tame_peekByte : Tame peekByte := by
  constructor
  all_goals intro s h
  all_goals unfold peekByte
  · split
    · exact ⟨h.wf, h.small⟩
    split
    · exact h
    · exact ⟨h.wf, h.small⟩
  · repeat' split
    all_goals rfl
  · repeat' split
    all_goals rfl
  · simp only [h, Bool.false_and, Bool.false_eq_true, if_false]; split <;> rfl

theorem tame_setLimit (n : Nat) : Tame (setLimit n) :=
  ⟨fun _ h => ⟨h.wf, h.small⟩, fun _ _ => rfl, fun _ _ => rfl, fun _ h => h⟩

theorem tame_readByte : Tame readByte := (tame_doRead (by decide)).bind fun _ => .pure _
theorem tame_readLE {n : Nat} (h : n < offMax) : Tame (readLE n) := (tame_doRead h).bind fun _ => .pure _
theorem tame_readBE {n : Nat} (h : n < offMax) : Tame (readBE n) := (tame_doRead h).bind fun _ => .pure _

theorem tame_readVariable : Tame readVariable := by
  unfold readVariable
  refine tame_readByte.bind fun _ => ?_
  have hbad : Tame (do invalidate; return 0 : Reader Nat) := tame_invalidate.bind fun _ => .pure _
  refine .ite ((tame_readLE (by decide)).bind fun _ => .ite (.pure _) hbad) ?_
  refine .ite ((tame_readLE (by decide)).bind fun _ => .ite (.pure _) hbad) ?_
  refine .ite ((tame_readLE (by decide)).bind fun _ => .ite (.pure _) hbad) ?_
  exact .pure _

theorem tame_readSize (l : Nat) : Tame (readSize l) :=
  tame_readVariable.bind fun _ => .ite (tame_invalidate.bind fun _ => .pure _) (.pure _)

theorem readSize_le (l : Nat) (s : RS) : (readSize l s).1 ≤ l := by
  unfold readSize
  simp only [bind_run]
  split
  · simp
  · simp only [pure_run]; omega

theorem tame_readBytes {n : Nat} (h : n < offMax) : Tame (readBytes n) := by
  have t := tame_doRead h
  constructor
  all_goals intro s hs
  all_goals unfold readBytes
  · repeat' split
    · exact hs
    · exact hs
    · exact t.ok s hs
  · repeat' split
    · rfl
    · rfl
    · exact t.data s hs
  · repeat' split
    · rfl
    · rfl
    · exact t.ub s hs
  · repeat' split
    · exact hs
    · exact hs
    · exact t.sticky s hs

/-! ### Backward (parse then re-serialize) -/

/-- If `p` ends in a good state it started good, consumed exactly some bytes related by `R` to its
result, and advanced position and limit accordingly. -/
structure Bwd {α} (p : Reader α) (R : α → Bytes → Prop) : Prop where
  tame : Tame p
  back : ∀ s : RS, s.OK → (p s).2.good = true →
    s.good = true ∧ ∃ bs, bs <+: s.view ∧ R (p s).1 bs ∧ (p s).2 = s.adv bs.length

theorem Bwd.bind {α β} {p : Reader α} {f : α → Reader β} {Ra : α → Bytes → Prop}
    {Rb : α → β → Bytes → Prop} (hp : Bwd p Ra) (hf : ∀ x, Bwd (f x) (Rb x)) :
    Bwd (p >>= f) (fun y bs => ∃ x a b, bs = a ++ b ∧ Ra x a ∧ Rb x y b) where
  tame := hp.tame.bind fun x => (hf x).tame
  back s hs hgood := by
    rw [bind_run] at hgood ⊢
    cases hg1 : (p s).2.good with
    | false => rw [(hf _).tame.sticky _ hg1] at hgood; cases hgood
    | true =>
      obtain ⟨g, a, hpa, hra, hst⟩ := hp.back s hs hg1
      obtain ⟨_, b, hpb, hrb, hst2⟩ := (hf _).back _ (hp.tame.ok s hs) hgood
      refine ⟨g, a ++ b, ?_, ⟨_, a, b, rfl, hra, hrb⟩, ?_⟩
      · rw [hst, RS.view_adv] at hpb
        obtain ⟨t, ht⟩ := hpa
        rw [← ht] at hpb ⊢
        rw [List.drop_left] at hpb
        exact (List.prefix_append_right_inj _).mpr hpb
      · rw [hst2, hst]; simp

theorem Bwd.mono {α} {p : Reader α} {R R' : α → Bytes → Prop} (h : Bwd p R) (hr : ∀ x b, R x b → R' x b) :
    Bwd p R' where
  tame := h.tame
  back s hs hg := by
    obtain ⟨g, b, h1, h2, h3⟩ := h.back s hs hg
    exact ⟨g, b, h1, hr _ _ h2, h3⟩

theorem Bwd.pure {α} (x : α) : Bwd (Pure.pure x : Reader α) (fun y b => y = x ∧ b = []) where
  tame := .pure x
  back s _ h := ⟨h, [], List.nil_prefix, ⟨rfl, rfl⟩, by simp⟩

theorem Bwd.ite {α} {c : Prop} [Decidable c] {p q : Reader α} {R R' : α → Bytes → Prop}
    (hp : Bwd p R) (hq : Bwd q R') :
    Bwd (if c then p else q) (fun x b => (c ∧ R x b) ∨ (¬ c ∧ R' x b)) := by
  split
  · rename_i h; exact hp.mono fun _ _ hr => .inl ⟨h, hr⟩
  · rename_i h; exact hq.mono fun _ _ hr => .inr ⟨h, hr⟩

theorem bwd_doRead {n : Nat} (hn : n < offMax) : Bwd (doRead n) (fun x b => x = b ∧ b.length = n) where
  tame := tame_doRead hn
  back s hs hg := by
    obtain ⟨g, hl, he⟩ := doRead_good hs hg
    have hlen : (s.view.take n).length = n := by rw [List.length_take]; omega
    exact ⟨g, s.view.take n, List.take_prefix _ _, ⟨by rw [he], hlen⟩, by rw [he, hlen]⟩

theorem bwd_isGood : Bwd isGood (fun x b => x = true ∧ b = []) where
  tame := tame_isGood
  back s _ h := ⟨h, [], List.nil_prefix, ⟨h, rfl⟩, by simp [isGood]⟩

/-- A reader that fails unconditionally satisfies every backward relation. -/
theorem bwd_fail {α} {R : α → Bytes → Prop} (v : α) :
    Bwd (do invalidate; return v : Reader α) R where
  tame := tame_invalidate.bind fun _ => .pure _
  back s _ h := by simp [invalidate] at h

theorem bwd_readByte : Bwd readByte (fun x b => b = [x]) :=
  ((bwd_doRead (by decide : 1 < offMax)).bind fun _ => .pure _).mono (by
    rintro y b ⟨x, a, c, rfl, ⟨rfl, hl⟩, rfl, rfl⟩
    match x, hl with
    | [z], _ => rfl)

theorem bwd_readLE {n : Nat} (hn : n < offMax) :
    Bwd (readLE n) (fun x b => b = writeLE n x ∧ x < 256 ^ n) :=
  ((bwd_doRead hn).bind fun _ => .pure _).mono (by
    rintro y b ⟨x, a, c, rfl, ⟨rfl, hl⟩, rfl, rfl⟩
    exact ⟨by rw [List.append_nil, writeLE, leBytes_leNat' hl], hl ▸ leNat_lt x⟩)

theorem bwd_readBE {n : Nat} (hn : n < offMax) :
    Bwd (readBE n) (fun x b => b = writeBE n x ∧ x < 256 ^ n) :=
  ((bwd_doRead hn).bind fun _ => .pure _).mono (by
    rintro y b ⟨x, a, c, rfl, ⟨rfl, hl⟩, rfl, rfl⟩
    have hr : x.reverse.length = n := by simpa using hl
    refine ⟨?_, ?_⟩
    · rw [List.append_nil, writeBE, beNat, beBytes, leBytes_leNat' hr, List.reverse_reverse]
    · have := leNat_lt x.reverse; rw [hr] at this; exact this)

theorem u8_ofNat_toNat (x : UInt8) : UInt8.ofNat x.toNat = x := by simp

theorem bwd_readVariable : Bwd readVariable (fun x b => b = writeVariable x ∧ x < 2 ^ 64) := by
  unfold readVariable
  refine (bwd_readByte.bind (Rb := fun size y b => [size] ++ b = writeVariable y ∧ y < 2 ^ 64)
    fun size => ?_).mono ?_
  rotate_left
  · rintro y b ⟨x, a, c, rfl, rfl, h⟩; exact h
  refine (Bwd.ite ((bwd_readLE (by decide)).bind fun v => Bwd.ite (.pure v) (bwd_fail (R := fun _ _ => False) 0))
    (Bwd.ite ((bwd_readLE (by decide)).bind fun v => Bwd.ite (.pure v) (bwd_fail (R := fun _ _ => False) 0))
    (Bwd.ite ((bwd_readLE (by decide)).bind fun v => Bwd.ite (.pure v) (bwd_fail (R := fun _ _ => False) 0))
      (.pure size.toNat)))).mono ?_
  rintro y b (⟨rfl, x, a, c, rfl, ⟨rfl, hx⟩, (⟨hg, rfl, rfl⟩ | ⟨_, hf⟩)⟩ |
    ⟨h1, (⟨rfl, x, a, c, rfl, ⟨rfl, hx⟩, (⟨hg, rfl, rfl⟩ | ⟨_, hf⟩)⟩ |
    ⟨h2, (⟨rfl, x, a, c, rfl, ⟨rfl, hx⟩, (⟨hg, rfl, rfl⟩ | ⟨_, hf⟩)⟩ |
    ⟨h3, rfl, rfl⟩)⟩)⟩)
  · unfold writeVariable
    rw [if_neg (by omega), if_neg (by omega), if_neg (by omega)]
    exact ⟨by simp, hx⟩
  · exact hf.elim
  · unfold writeVariable
    rw [if_neg (by omega), if_neg (by omega), if_pos (by omega)]
    exact ⟨by simp, by omega⟩
  · exact hf.elim
  · unfold writeVariable
    rw [if_neg (by omega), if_pos (by omega)]
    exact ⟨by simp, by omega⟩
  · exact hf.elim
  · have := size.toNat_lt
    have : size.toNat < 0xfd := by
      have e1 : size.toNat ≠ 0xff := fun hc => h1 (UInt8.toNat_inj.mp hc)
      have e2 : size.toNat ≠ 0xfe := fun hc => h2 (UInt8.toNat_inj.mp hc)
      have e3 : size.toNat ≠ 0xfd := fun hc => h3 (UInt8.toNat_inj.mp hc)
      omega
    unfold writeVariable
    rw [if_pos this]
    exact ⟨by simp, by omega⟩

theorem bwd_readSize (l : Nat) :
    Bwd (readSize l) (fun x b => b = writeVariable x ∧ x < 2 ^ 64 ∧ x ≤ l) :=
  (bwd_readVariable.bind fun v =>
    Bwd.ite (bwd_fail (R := fun _ _ => False) 0) (.pure v)).mono (by
      rintro y b ⟨x, a, c, rfl, ⟨rfl, hx⟩, (⟨_, hf⟩ | ⟨hg, rfl, rfl⟩)⟩
      · exact hf.elim
      · exact ⟨by simp, hx, by omega⟩)

theorem bwd_readBytes {n : Nat} (hn : n < offMax) : Bwd (readBytes n) (fun x b => x = b ∧ b.length = n) where
  tame := tame_readBytes hn
  back s hs hg := by
    unfold readBytes at hg ⊢
    by_cases h0 : n = 0
    · subst h0
      simp only [if_true] at hg ⊢
      exact ⟨hg, [], List.nil_prefix, ⟨rfl, rfl⟩, by simp⟩
    · rw [if_neg h0] at hg ⊢
      cases hgd : s.good with
      | false => simp [hgd] at hg
      | true =>
        simp only [hgd, Bool.not_true, Bool.false_eq_true, if_false] at hg ⊢
        have := (bwd_doRead hn).back s hs hg
        exact ⟨trivial, this.2⟩

end Verif
