import Verif.Model.View
import Verif.Lemmas.Codec2
import Verif.Lemmas.Connect
/-! Helper lemmas for the block and transaction views. -/
namespace Verif

/-- `FwdU` for readers whose result depends on the position. -/
def FwdAt {α} (n : Nat) (p : Reader α) (bs : Bytes) (x : α) : Prop :=
  ∀ s : RS, s.pos = n → s.OK → s.good = true → s.Unl → bs <+: s.rest → (p s).1 = x ∧ RS.Mv bs.length s (p s).2

theorem FwdU.at {α} {p : Reader α} {bs : Bytes} {x : α} (h : FwdU p bs x) (n : Nat) : FwdAt n p bs x := fun s _ => h s

theorem FwdAt.bind {α β} {n : Nat} {p : Reader α} {f : α → Reader β} {a b : Bytes} {x : α} {y : β}
    (hp : FwdAt n p a x) (hf : FwdAt (n + a.length) (f x) b y) : FwdAt n (p >>= f) (a ++ b) y := by
  intro s hn hs hg hu hv
  have ha : a <+: s.rest := (List.prefix_append a b).trans hv
  obtain ⟨h1, h2⟩ := hp s hn hs hg hu ha
  obtain ⟨h3, h4⟩ := hf (p s).2 (by rw [h2.pos, hn]) (h2.ok hs ha.length_le) (h2.good.trans hg) h2.unl
    (by rw [h2.rest]; exact prefix_drop hv)
  rw [bind_run, h1]
  exact ⟨h3, by rw [List.length_append]; exact h2.trans h4⟩

theorem FwdAt.congr {α} {n : Nat} {p : Reader α} {a b : Bytes} {x y : α} (h : FwdAt n p a x) (hab : a = b) (hxy : x = y) :
    FwdAt n p b y := by subst hab; subst hxy; exact h

theorem FwdAt.bind0 {α β} {n : Nat} {p : Reader α} {f : α → Reader β} {b : Bytes} {x : α} {y : β}
    (hp : FwdAt n p [] x) (hf : FwdAt n (f x) b y) : FwdAt n (p >>= f) b y := (hp.bind hf).congr (by simp) rfl

theorem fwd_getPosition (n : Nat) : FwdAt n getPosition [] n := fun _ hn _ _ hu _ => ⟨hn, rfl, rfl, rfl, rfl, hu⟩

theorem fwd_doSkip (bs : Bytes) (h : bs.length < offMax) : Fwd (doSkip bs.length) bs () := by
  intro s hs hg hv
  have hl := hv.length_le
  have hvl := s.view_length
  unfold doSkip
  rw [if_neg (by omega)]
  simp only [noteSize_small h]
  by_cases h0 : bs.length = 0
  · rw [if_pos h0]; simp [RS.adv, h0]
  · rw [if_neg h0, if_pos hg, if_neg (by omega)]; rfl

theorem bwd_doSkip {n : Nat} (h : n < offMax) : Bwd (doSkip n) (fun _ bs => bs.length = n) where
  tame := tame_doSkip h
  back s hs hg := by
    have hvl := s.view_length
    unfold doSkip at hg ⊢
    by_cases h1 : s.rem < n
    · rw [if_pos h1] at hg; cases hg
    · rw [if_neg h1] at hg ⊢
      simp only [noteSize_small h] at hg ⊢
      by_cases h0 : n = 0
      · rw [if_pos h0] at hg ⊢
        exact ⟨hg, [], List.nil_prefix, h0.symm, by simp [RS.adv, h0]⟩
      · rw [if_neg h0] at hg ⊢
        cases hgd : s.good with
        | false => simp [hgd] at hg
        | true =>
          simp only [hgd, if_true] at hg ⊢
          by_cases h2 : s.data.length - s.pos < n
          · rw [if_pos h2] at hg; cases hg
          · rw [if_neg h2]
            have hlen : (s.view.take n).length = n := by rw [List.length_take]; omega
            exact ⟨trivial, s.view.take n, List.take_prefix _ _, hlen, by rw [hlen]; simp [RS.adv, hgd]⟩

theorem BwdU.bind' {α β} {p : Reader α} {f : α → Reader β} {Ra : α → Bytes → Prop} {P : α → Prop}
    {Rb : α → β → Bytes → Prop} (hp : BwdU p Ra) (hP : ∀ s, P (p s).1) (hf : ∀ x, P x → BwdU (f x) (Rb x)) :
    BwdU (p >>= f) (fun y bs => ∃ x a b, bs = a ++ b ∧ Ra x a ∧ Rb x y b) where
  tame := hp.tame.bind' hP fun x hx => (hf x hx).tame
  back s hs hu hgood := by
    rw [bind_run] at hgood ⊢
    cases hg1 : (p s).2.good with
    | false => rw [(hf _ (hP s)).tame.sticky _ hg1] at hgood; cases hgood
    | true =>
      obtain ⟨g, a, hpa, hra, hst⟩ := hp.back s hs hu hg1
      obtain ⟨_, b, hpb, hrb, hst2⟩ := (hf _ (hP s)).back _ (hp.tame.ok s hs) hst.unl hgood
      refine ⟨g, a ++ b, ?_, ⟨_, a, b, rfl, hra, hrb⟩, by rw [List.length_append]; exact hst.trans hst2⟩
      rw [hst.rest] at hpb
      obtain ⟨t, ht⟩ := hpa
      rw [← ht] at hpb ⊢
      rw [List.drop_left] at hpb
      exact (List.prefix_append_right_inj _).mpr hpb

theorem bwd_getPosition : BwdU getPosition (fun _ b => b = []) :=
  ⟨⟨fun _ h => h, fun _ _ => rfl, fun _ _ => rfl, fun _ h => h⟩,
    fun s _ hu hg => ⟨hg, [], List.nil_prefix, rfl, ⟨rfl, rfl, rfl, rfl, hu⟩⟩⟩

end Verif

namespace Verif.Views
open Verif Validate Merkle

/-! ### witnesses -/

theorem fwd_skip {w : Witness} (h : w.Writable) : FwdU Witness.skip (w.toData true) (w.stack.any fun e => !e.isEmpty) := by
  intro s hs hg hu hp
  obtain ⟨h1, h2⟩ := (fwd_witness h).U s hs hg hu hp
  obtain ⟨k1, k2⟩ := witness_skip s hs
  rw [k1]
  exact ⟨by rw [k2 (h2.good.trans hg), h1]; rfl, h2⟩

theorem tame_skip : Tame Witness.skip := by
  have t := bwd_witness.tame
  exact ⟨fun s hs => by rw [(witness_skip s hs).1]; exact t.ok s hs, fun s hs => by rw [(witness_skip s hs).1]; exact t.data s hs,
    fun s hs => by rw [(witness_skip s hs).1]; exact t.ub s hs, fun s hs => by
      have hse : ∀ n s, s.good = false → (skipElements n s).2.good = false := by
        intro n
        induction n with
        | zero => intro s h; exact h
        | succ n ih2 =>
          intro s h
          exact ih2 _ ((tame_readBytes (Nat.lt_of_le_of_lt (readSize_le maxBytes s) maxBytes_lt)).sticky _
            ((tame_readSize maxBytes).sticky s h))
      exact hse _ _ ((tame_readSize maxBytes).sticky s hs)⟩

theorem bwd_skip : BwdU Witness.skip (fun r b => ∃ w : Witness, w.Writable ∧ r = (w.stack.any fun e => !e.isEmpty) ∧
    b = w.toData true) where
  tame := tame_skip
  back s hs hu hg := by
    obtain ⟨k1, k2⟩ := witness_skip s hs
    rw [k1] at hg ⊢
    obtain ⟨g, b, hp, ⟨hw, _, rfl⟩, hm⟩ := bwd_witness.U.back s hs hu hg
    exact ⟨g, _, hp, ⟨_, hw, k2 hg, rfl⟩, hm⟩

theorem fwd_skipWits : ∀ (is : List Input), (∀ i ∈ is, i.witness.Writable) →
    FwdU (skipWits is.length) (is.flatMap fun i => i.witness.toData true) (someElement is) := by
  intro is
  induction is with
  | nil => intro _; exact FwdU.pure _
  | cons i is ih =>
    intro h
    exact (fwd_skip (h i (by simp))).bind ((ih fun y hy => h y (by simp [hy])).bind0 (FwdU.pure _))

theorem bwd_skipWits : ∀ (n : Nat), BwdU (skipWits n) (fun r b => ∃ ws : List Witness, ws.length = n ∧
    (∀ w ∈ ws, w.Writable) ∧ r = (ws.any fun w => w.stack.any fun e => !e.isEmpty) ∧ b = ws.flatMap fun w => w.toData true) := by
  intro n
  induction n with
  | zero => exact (BwdU.pure _).mono (by rintro _ _ ⟨rfl, rfl⟩; exact ⟨[], rfl, by simp, rfl, rfl⟩)
  | succ n ih =>
    refine (bwd_skip.bind fun w => ih.bind fun r => BwdU.pure _).mono ?_
    rintro y b ⟨w, a, b1, rfl, ⟨w', hw, rfl, rfl⟩, r, a1, b2, rfl, ⟨ws, hl, hr, rfl, rfl⟩, rfl, rfl⟩
    refine ⟨w' :: ws, by simp [hl], ?_, by simp, by simp⟩
    intro x hx
    rcases List.mem_cons.mp hx with rfl | hx
    · exact hw
    · exact hr x hx

/-! ### inputs and outputs -/

/-- The script can be skipped by the view. -/
def Short (sc : Script) : Prop := sc.Writable ∧ sc.size ≤ maxBytes

theorem short_toData {sc : Script} (h : Short sc) : sc.toData true = writeVariable sc.size ++ opsData sc.ops ∧
    (opsData sc.ops).length = sc.size := ⟨rfl, h.1.size.symm⟩

def inputTable (i : Input) : Nat := (i.script.toData true).length
def outputTable (o : Output) : Nat := variableSize o.value.toNat + (o.script.toData true).length

theorem table_eq {sc : Script} (h : Short sc) : (sc.toData true).length = variableSize sc.size + sc.size := by
  rw [(short_toData h).1, List.length_append, writeVariable_length, (short_toData h).2]

theorem maxBytes_val : maxBytes = 4000000 := rfl
theorem offMax_val : offMax = 2 ^ 63 := rfl

theorem fwd_skipInputs : ∀ (is : List Input), (∀ i ∈ is, Short i.script) →
    FwdU (skipInputs is.length) (is.flatMap Input.toData) (is.map inputTable).sum := by
  intro is
  induction is with
  | nil => intro _; exact FwdU.pure _
  | cons i is ih =>
    intro h
    have hi := h i (by simp)
    have hlen := (short_toData hi).2
    have hmb := maxBytes_val
    have hom := offMax_val
    have hle := hi.2
    have h1 : FwdU (doSkip 36) i.point.toData () := by
      have := (fwd_doSkip i.point.toData (by rw [← Point.size_ok]; decide)).U
      rwa [← Point.size_ok] at this
    have h2 := (fwd_readSize maxBytes i.script.size (by omega) hi.2).U
    have h3 : FwdU (doSkip (i.script.size + 4)) (opsData i.script.ops ++ writeU32 i.sequence) () := by
      have := (fwd_doSkip (opsData i.script.ops ++ writeU32 i.sequence) (by simp [hlen]; omega)).U
      simpa [hlen] using this
    refine (h1.bind (h2.bind (h3.bind ((ih fun y hy => h y (by simp [hy])).map _)))).congr ?_ ?_
    · simp [Input.toData, (short_toData hi).1]
    · simp [inputTable, table_eq hi]

theorem fwd_skipOutputs : ∀ (os : List Output), (∀ o ∈ os, Short o.script) →
    FwdU (skipOutputs os.length) (os.flatMap Output.toData) (os.map outputTable).sum := by
  intro os
  induction os with
  | nil => intro _; exact FwdU.pure _
  | cons o os ih =>
    intro h
    have hi := h o (by simp)
    have hlen := (short_toData hi).2
    have hmb := maxBytes_val
    have hom := offMax_val
    have hle := hi.2
    have h1 := (fwd_readU64 o.value).U
    have h2 := (fwd_readSize maxBytes o.script.size (by omega) hi.2).U
    have h3 : FwdU (doSkip o.script.size) (opsData o.script.ops) () := by
      have := (fwd_doSkip (opsData o.script.ops) (by omega)).U
      rwa [hlen] at this
    refine (h1.bind (h2.bind (h3.bind ((ih fun y hy => h y (by simp [hy])).map _)))).congr ?_ ?_
    · simp [Output.toData, (short_toData hi).1]
    · simp [outputTable, table_eq hi, Nat.add_assoc]

/-- Any bytes are a script. -/
def scriptOf (d : Bytes) : Script := { ops := parseOps d, valid := true, size := d.length }

theorem scriptOf_ok {d : Bytes} (h : d.length ≤ maxBytes) : Short (scriptOf d) ∧ (scriptOf d).toData true = writeVariable d.length ++ d := by
  have hmb := maxBytes_val
  have hl : d.length < 2 ^ 63 := by omega
  refine ⟨⟨⟨parseOps_ok hl, by rw [show (scriptOf d).ops = parseOps d from rfl, parseOps_data hl]; rfl⟩, h⟩, ?_⟩
  show writeVariable d.length ++ opsData (parseOps d) = _
  rw [parseOps_data hl]

theorem u32_of {b : Bytes} (h : b.length = 4) : ∃ v : UInt32, writeU32 v = b := by
  refine ⟨UInt32.ofNat (leNat b), ?_⟩
  have hlt := leNat_lt b
  rw [h] at hlt
  unfold writeU32 writeLE
  rw [UInt32.toNat_ofNat_of_lt' (by simpa using hlt), ← h]
  exact leBytes_leNat b

theorem point_of {b : Bytes} (h : b.length = 36) : ∃ p : Point, p.toData = b := by
  obtain ⟨v, hv⟩ := u32_of (b := b.drop 32) (by simp [h])
  refine ⟨{ hash := ⟨b.take 32, by simp [h]⟩, index := v, valid := true }, ?_⟩
  show b.take 32 ++ writeU32 v = b
  rw [hv, List.take_append_drop]

theorem bwd_skipInputs : ∀ (n : Nat), BwdU (skipInputs n) (fun _ b => ∃ is : List Input, is.length = n ∧
    (∀ i ∈ is, Short i.script ∧ i.witness = Witness.empty) ∧ b = is.flatMap Input.toData) := by
  intro n
  have hmb := maxBytes_val
  have hom := offMax_val
  induction n with
  | zero => exact (BwdU.pure _).mono (by rintro _ _ ⟨rfl, rfl⟩; exact ⟨[], rfl, by simp, rfl⟩)
  | succ n ih =>
    refine ((bwd_doSkip (n := 36) (by decide)).U.bind fun _ => (bwd_readSize maxBytes).U.bind' (P := fun k => k ≤ maxBytes)
      (fun s => readSize_le _ s) fun k hk => (bwd_doSkip (n := k + 4) (by omega)).U.bind fun _ => ih.bind fun r => BwdU.pure _).mono ?_
    rintro y b ⟨_, a, b1, rfl, hp, k, a1, b2, rfl, ⟨rfl, _, hk⟩, _, a2, b3, rfl, hs, r, a3, b4, rfl, ⟨is, hl, hi, rfl⟩, _, rfl⟩
    obtain ⟨p, rfl⟩ := point_of hp
    obtain ⟨v, hv⟩ := u32_of (b := a2.drop k) (by simp [hs])
    have hd : (a2.take k).length = k := by simp [hs]
    have hsc := scriptOf_ok (d := a2.take k) (by omega)
    refine ⟨{ point := p, script := scriptOf (a2.take k), witness := Witness.empty, sequence := v } :: is, by simp [hl], ?_, ?_⟩
    · intro x hx
      rcases List.mem_cons.mp hx with rfl | hx
      · exact ⟨hsc.1, rfl⟩
      · exact hi x hx
    · simp only [List.flatMap_cons, Input.toData, hsc.2, hv, hd, List.append_assoc, List.append_nil]
      rw [← List.append_assoc (a2.take k), List.take_append_drop]

theorem bwd_skipOutputs : ∀ (n : Nat), BwdU (skipOutputs n) (fun _ b => ∃ os : List Output, os.length = n ∧
    (∀ o ∈ os, Short o.script) ∧ b = os.flatMap Output.toData) := by
  intro n
  have hmb := maxBytes_val
  have hom := offMax_val
  induction n with
  | zero => exact (BwdU.pure _).mono (by rintro _ _ ⟨rfl, rfl⟩; exact ⟨[], rfl, by simp, rfl⟩)
  | succ n ih =>
    refine (bwd_readU64.U.bind fun _ => (bwd_readSize maxBytes).U.bind' (P := fun k => k ≤ maxBytes)
      (fun s => readSize_le _ s) fun k hk => (bwd_doSkip (n := k) (by omega)).U.bind fun _ => ih.bind fun r => BwdU.pure _).mono ?_
    rintro y b ⟨v, a, b1, rfl, rfl, k, a1, b2, rfl, ⟨rfl, _, hk⟩, _, a2, b3, rfl, hs, r, a3, b4, rfl, ⟨os, hl, hi, rfl⟩, _, rfl⟩
    have hsc := scriptOf_ok (d := a2) (by omega)
    refine ⟨{ value := v, script := scriptOf a2 } :: os, by simp [hl], ?_, ?_⟩
    · intro x hx
      rcases List.mem_cons.mp hx with rfl | hx
      · exact hsc.1
      · exact hi x hx
    · simp [Output.toData, hsc.2, hs]

end Verif.Views
