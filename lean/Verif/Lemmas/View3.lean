import Verif.Lemmas.View2
/-! Helper lemmas for the block and transaction views: only serialised blocks are accepted. -/
namespace Verif.Views
open Verif Validate Merkle Verif.Spec

theorem bwd_body (H : Bytes → Hash) (data : Bytes) (c w : Bool) (start : Nat) (hw : Bool) (n : Nat) :
    BwdU (TxView.readBody H data c w start hw n) (fun _ b => n ≠ 0 ∧ ∃ (is : List Input) (os : List Output) (ws : List Witness)
      (lt : UInt32), is.length = n ∧ (∀ i ∈ is, Short i.script ∧ i.witness = Witness.empty) ∧ os ≠ [] ∧ os.length ≤ maxCount ∧
      (∀ o ∈ os, Short o.script) ∧ (hw = true → ws.length = n ∧ (∀ x ∈ ws, x.Writable) ∧
        (ws.any fun x => x.stack.any fun e => !e.isEmpty) = true) ∧
      b = is.flatMap Input.toData ++ (writeVariable os.length ++ (os.flatMap Output.toData ++
        ((if hw then ws.flatMap (fun x => x.toData true) else []) ++ writeU32 lt)))) := by
  have hwits : BwdU (if hw then skipWits n else pure true) (fun r b => ∃ ws : List Witness,
      (hw = true → ws.length = n ∧ (∀ x ∈ ws, x.Writable) ∧ r = (ws.any fun x => x.stack.any fun e => !e.isEmpty)) ∧
      b = if hw then ws.flatMap (fun x => x.toData true) else []) := by
    cases hw with
    | true =>
      simp only [if_true]
      exact (bwd_skipWits n).mono (by rintro r b ⟨ws, h1, h2, h3, h4⟩; exact ⟨ws, fun _ => ⟨h1, h2, h3⟩, h4⟩)
    | false => exact (BwdU.pure true).mono (by rintro r b ⟨_, rfl⟩; exact ⟨[], by simp, rfl⟩)
  unfold TxView.readBody
  refine (bwd_getPosition.bind fun _ => (bwd_skipInputs n).bind fun _ => (bwd_readSize maxCount).U.bind fun k =>
    bwd_getPosition.bind fun _ => (bwd_skipOutputs k).bind fun _ => bwd_getPosition.bind fun _ => hwits.bind fun r =>
    (bwd_invalidateIf (!r)).bind fun _ => (bwd_doSkip (n := 4) (by decide)).U.bind fun _ => bwd_getPosition.bind fun _ =>
    (bwd_invalidateIf (decide (n = 0) || decide (k = 0))).bind fun _ => bwd_isGood.U.bind fun _ => BwdU.pure _).mono ?_
  rintro y b ⟨_, a0, b0, rfl, rfl, _, a1, b1, rfl, ⟨is, hl, his, rfl⟩, k, a2, b2, rfl, ⟨rfl, _, hk⟩, _, a3, b3, rfl, rfl, _, a4, b4, rfl,
    ⟨os, hol, hos, rfl⟩, _, a5, b5, rfl, rfl, r, a6, b6, rfl, ⟨ws, hws, rfl⟩, _, a7, b7, rfl, ⟨hr, rfl⟩, _, a8, b8, rfl, h4, _, a9, b9, rfl, rfl,
    _, a10, b10, rfl, ⟨hz, rfl⟩, _, a11, b11, rfl, ⟨_, rfl⟩, _, rfl⟩
  simp only [Bool.or_eq_false_iff, decide_eq_false_iff_not, Bool.not_eq_false'] at hz hr
  obtain ⟨lt, rfl⟩ := u32_of h4
  refine ⟨hz.1, is, os, ws, lt, hl, his, ?_, by omega, hos, ?_, by simp [hol]⟩
  · rintro rfl; exact hz.2 hol.symm
  · intro h
    obtain ⟨h1, h2, h3⟩ := hws h
    exact ⟨h1, h2, by rw [← h3, hr]⟩

theorem tame_detect' (n : Nat) : Tame (detect n) := by
  have t := tame_peekByte
  constructor
  all_goals intro s h
  all_goals unfold detect
  · split
    · exact t.ok s h
    · exact h
  · split
    · exact t.data s h
    · rfl
  · split
    · exact t.ub s h
    · rfl
  · split
    · exact t.sticky s h
    · exact h

theorem bwd_detect {α} {n : Nat} {f : Bool → Reader α} {R : Bool → α → Bytes → Prop} (hf : ∀ b, BwdU (f b) (R b)) :
    BwdU (detect n >>= f) (fun y b => ∃ flag, R flag y b ∧ (flag = true → n = 0 ∧ ∀ c t, b = c :: t → c = 1)) := by
  refine ⟨(tame_detect' n).bind fun x => (hf x).tame, ?_⟩
  intro s hs hu hg
  rw [bind_run] at hg ⊢
  by_cases hi : n = 0
  · subst hi
    by_cases hrem : s.rem = 0
    · exfalso
      have : (detect 0 s).2.good = false := by simp [detect, peekByte, hrem]
      rw [(hf _).tame.sticky _ this] at hg; cases hg
    · by_cases hok : s.good && decide (s.pos < s.data.length)
      · have hd : detect 0 s = (s.rest.headD 0 == 1, s) := by
          unfold detect peekByte
          simp only [if_true, hrem, if_false]
          rw [if_pos hok]
        rw [hd] at hg ⊢
        obtain ⟨g, b, hp, hr, hm⟩ := (hf _).back s hs hu hg
        refine ⟨g, b, hp, ⟨_, hr, fun hfl => ⟨rfl, ?_⟩⟩, hm⟩
        rintro c t rfl
        obtain ⟨u, hu⟩ := hp
        rw [← hu] at hfl
        simpa using hfl
      · exfalso
        have : (detect 0 s).2.good = false := by
          unfold detect peekByte
          simp only [if_true, hrem, if_false]
          rw [if_neg hok]
        rw [(hf _).tame.sticky _ this] at hg; cases hg
  · have hd : detect n s = (false, s) := by
      unfold detect; rw [if_neg hi]
    rw [hd] at hg ⊢
    obtain ⟨g, b, hp, hr, hm⟩ := (hf _).back s hs hu hg
    exact ⟨g, b, hp, ⟨_, hr, by simp⟩, hm⟩

/-- Inputs with the given witnesses. -/
def withWits (is : List Input) (ws : List Witness) : List Input := List.zipWith (fun i w => { i with witness := w }) is ws

theorem withWits_data : ∀ {is : List Input} {ws : List Witness}, ws.length = is.length →
    (withWits is ws).length = is.length ∧ (withWits is ws).flatMap Input.toData = is.flatMap Input.toData ∧
    ((withWits is ws).flatMap fun i => i.witness.toData true) = (ws.flatMap fun w => w.toData true) ∧
    ((withWits is ws).any fun i => i.witness.stack.any fun e => !e.isEmpty) = (ws.any fun w => w.stack.any fun e => !e.isEmpty) ∧
    (∀ j ∈ withWits is ws, j.witness ∈ ws ∧ ∃ i ∈ is, j.script = i.script) := by
  intro is
  induction is with
  | nil => intro ws h; have := List.length_eq_zero_iff.1 h; subst this; simp [withWits]
  | cons i is ih =>
    intro ws h
    match ws, h with
    | w :: ws, h =>
      obtain ⟨h1, h2, h3, h4, h5⟩ := ih (ws := ws) (by simpa using h)
      have e : withWits (i :: is) (w :: ws) = { i with witness := w } :: withWits is ws := rfl
      rw [e]
      refine ⟨by simp [h1], ?_, by simp [h3], by rw [List.any_cons, List.any_cons, h4], ?_⟩
      · rw [List.flatMap_cons, List.flatMap_cons, h2]; rfl
      · intro j hj
        rcases List.mem_cons.1 hj with rfl | hj
        · exact ⟨by simp, i, by simp, rfl⟩
        · obtain ⟨a, k, hk, hs⟩ := h5 j hj
          exact ⟨by simp [a], k, by simp [hk], hs⟩

theorem bwd_txView (H : Bytes → Hash) (data : Bytes) (c w : Bool) :
    BwdU (TxView.read H data c w) (fun _ b => ∃ t : Tx, Viewable t ∧ b = t.toData true) := by
  unfold TxView.read
  refine (bwd_getPosition.bind fun start => (bwd_doSkip (n := 4) (by decide)).U.bind fun _ => (bwd_readSize maxCount).U.bind fun n =>
    bwd_detect (R := fun flag y b => (flag = true → ∃ (c : UInt8) (m : Nat) (b' : Bytes), m ≤ maxCount ∧ b = c :: (writeVariable m ++ b') ∧ m ≠ 0 ∧
      ∃ (is : List Input) (os : List Output) (ws : List Witness)
      (lt : UInt32), is.length = m ∧ (∀ i ∈ is, Short i.script ∧ i.witness = Witness.empty) ∧ os ≠ [] ∧ os.length ≤ maxCount ∧
      (∀ o ∈ os, Short o.script) ∧ (ws.length = m ∧ (∀ x ∈ ws, x.Writable) ∧
        (ws.any fun x => x.stack.any fun e => !e.isEmpty) = true) ∧
      b' = is.flatMap Input.toData ++ (writeVariable os.length ++ (os.flatMap Output.toData ++
        (ws.flatMap (fun x => x.toData true) ++ writeU32 lt)))) ∧
      (flag = false → n ≠ 0 ∧ ∃ (is : List Input) (os : List Output)
      (lt : UInt32), is.length = n ∧ (∀ i ∈ is, Short i.script ∧ i.witness = Witness.empty) ∧ os ≠ [] ∧ os.length ≤ maxCount ∧
      (∀ o ∈ os, Short o.script) ∧
      b = is.flatMap Input.toData ++ (writeVariable os.length ++ (os.flatMap Output.toData ++ writeU32 lt)))) fun flag => ?_).mono ?_
  · cases flag with
    | true =>
      simp only [if_true]
      refine (bwd_doSkip_one.U.bind fun _ => (bwd_readSize maxCount).U.bind fun m => bwd_body H data c w start true m).mono ?_
      rintro y b ⟨_, a, b1, rfl, ⟨c0, rfl⟩, m, a1, b2, rfl, ⟨rfl, _, hm⟩, hm0, is, os, ws, lt, h1, h2, h3, h4, h5, h6, rfl⟩
      refine ⟨fun _ => ⟨c0, m, _, hm, rfl, hm0, is, os, ws, lt, h1, h2, h3, h4, h5, h6 rfl, by simp⟩, by simp⟩
    | false =>
      simp only [Bool.false_eq_true, if_false]
      refine (bwd_body H data c w start false n).mono ?_
      rintro y b ⟨hm0, is, os, ws, lt, h1, h2, h3, h4, h5, h6, rfl⟩
      exact ⟨by simp, fun _ => ⟨hm0, is, os, lt, h1, h2, h3, h4, h5, by simp⟩⟩
  · rintro y b ⟨_, a0, b0, rfl, rfl, _, a1, b1, rfl, hv, n, a2, b2, rfl, ⟨rfl, _, hn⟩, flag, ⟨ht, hf⟩, hflag⟩
    obtain ⟨v, rfl⟩ := u32_of hv
    have short : ∀ sc : Script, Short sc → sc.Writable ∧ (opsData sc.ops).length ≤ maxBytes :=
      fun sc h => ⟨h.1, by rw [← h.1.size]; exact h.2⟩
    cases flag with
    | true =>
      obtain ⟨hn0, hc⟩ := hflag rfl
      obtain ⟨c0, m, b', hm, rfl, hm0, is, os, ws, lt, h1, h2, h3, h4, h5, ⟨h6, h7, h8⟩, rfl⟩ := ht rfl
      have hc0 := hc _ _ rfl
      subst hc0 hn0
      obtain ⟨k1, k2, k3, k4, k5⟩ := withWits_data (is := is) (ws := ws) (by omega)
      have hsome : someElement (withWits is ws) = true := by
        unfold someElement; rw [k4]; exact h8
      refine ⟨{ version := v, inputs := withWits is ws, outputs := os, locktime := lt, segregated := true }, ⟨⟨?_, ?_, ?_, h4, ?_, ?_, ?_⟩, ?_, h3, ?_, ?_, fun _ => hsome⟩, ?_⟩
      · intro j hj
        obtain ⟨_, i, hi, hs⟩ := k5 j hj
        rw [hs]; exact (h2 i hi).1.1
      · exact fun o ho => (h5 o ho).1
      · show (withWits is ws).length ≤ maxCount
        omega
      · exact fun _ j hj => h7 _ (k5 j hj).1
      · exact (some_of_element hsome).symm
      · intro he
        have := congrArg List.length he
        simp only [List.length_nil] at this
        exact absurd (k1.symm.trans this) (by omega)
      · intro he
        have := congrArg List.length he
        simp only [List.length_nil] at this
        exact absurd (k1.symm.trans this) (by omega)
      · intro j hj
        obtain ⟨_, i, hi, hs⟩ := k5 j hj
        rw [hs]; exact (short _ (h2 i hi).1).2
      · exact fun o ho => (short _ (h5 o ho)).2
      · unfold Tx.toData
        simp only [Bool.true_and, if_true]
        rw [k1, k2, k3, h1, writeVariable_zero]
        simp
    | false =>
      obtain ⟨hn0, is, os, lt, h1, h2, h3, h4, h5, rfl⟩ := hf rfl
      refine ⟨{ version := v, inputs := is, outputs := os, locktime := lt, segregated := false }, ⟨⟨?_, ?_, ?_, h4, by simp, ?_, ?_⟩, ?_, h3, ?_, ?_, by simp⟩, ?_⟩
      · exact fun i hi => (h2 i hi).1.1
      · exact fun o ho => (h5 o ho).1
      · show is.length ≤ maxCount
        omega
      · symm
        show segregatedInputs is = false
        unfold segregatedInputs
        rw [List.any_eq_false]
        intro i hi
        rw [(h2 i hi).2]; simp [Witness.empty]
      · rintro rfl; exact absurd h1.symm hn0
      · rintro rfl; exact absurd h1.symm hn0
      · exact fun i hi => (short _ (h2 i hi).1).2
      · exact fun o ho => (short _ (h5 o ho)).2
      · unfold Tx.toData
        simp [h1]

end Verif.Views
