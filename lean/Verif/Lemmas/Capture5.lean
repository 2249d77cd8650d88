import Verif.Lemmas.Capture4
/-! Capture: whole programs with BIP342. -/
namespace Verif.Capture
open Verif Verif.Machine Verif.Spec.Script Verif.Spec.Batch

theorem initProgram_keeps (e : Env) (s : St (List Val)) : ∃ r, initProgram e s = some (r, s) := by
  unfold initProgram
  split
  · exact ⟨_, rfl⟩
  split
  · exact ⟨_, rfl⟩
  have hov : (do if e.flags.bip342 then isStackOverflow else return false : M (List Val) Bool) s =
      some (e.flags.bip342 && decide (s.primary.length + s.alternate.length > 1000), s) := by
    cases hc : e.flags.bip342 <;> rfl
  rw [mbind, hov, Option.bind_some]
  dsimp only
  split
  · exact ⟨_, rfl⟩
  split
  · exact ⟨_, rfl⟩
  split
  · exact ⟨_, rfl⟩
  split
  · exact ⟨_, rfl⟩
  · exact ⟨_, rfl⟩

/-- What a program that passes the first checks has. -/
theorem initProgram_none {e : Env} (hops : OpsOK e.ops) (s s' : St (List Val)) (h : initProgram e s = some (none, s')) :
    s' = s ∧ (∀ o ∈ e.ops, o.Consistent) ∧ ∀ o ∈ e.ops, isInvalid o.code = false := by
  obtain ⟨r, hr⟩ := initProgram_keeps e s
  rw [hr] at h
  cases h
  refine ⟨rfl, ?_⟩
  unfold initProgram at hr
  split at hr
  · cases hr
  split at hr
  · cases hr
  rename_i hu
  have hov : (do if e.flags.bip342 then isStackOverflow else return false : M (List Val) Bool) s =
      some (e.flags.bip342 && decide (s.primary.length + s.alternate.length > 1000), s) := by
    cases hc : e.flags.bip342 <;> rfl
  rw [mbind, hov, Option.bind_some] at hr
  dsimp only at hr
  split at hr
  · cases hr
  split at hr
  · cases hr
  split at hr
  · cases hr
  split at hr
  · cases hr
  rename_i h6
  constructor
  · rcases hops.cases with h | ⟨l, h1, h2, h3⟩
    · exact h
    · exfalso
      apply hu
      unfold isScriptUnderflow isPrefail
      simp only [Bool.and_eq_true, List.any_eq_true]
      refine ⟨⟨l, List.mem_of_getLast? h1, by rw [h3]; exact anyInvalid_invalid⟩, by simp [h1, h2]⟩
  · intro o ho
    unfold isPrefail at h6
    rw [Bool.not_eq_true] at h6
    simpa using List.any_eq_false.1 h6 o ho

/-- A whole program. -/
theorem run_sim (c : Ctx) (h3 : c.env.flags.bip342 = true) (he : c.env.OK) (hops : OpsOK c.env.ops)
    (s : St (List Val)) (t : State) (hr : Rel c.env s t) (hx : t.exec.all id = true) (cap : Cap) :
    ∃ r s' cap' new, run c (s, cap) = some (r, s', cap') ∧ cap'.log = cap.log ∧ cap'.rows = cap.rows ++ new ∧
      (new.all (goodRow c.env) = true → Machine.run c.env s = some (r, s')) ∧
      (new.all (goodRow c.env) = false → ∃ b, Bad b ∧ Stops b (Machine.run c.env s)) := by
  obtain ⟨r, hi⟩ := initProgram_keeps c.env s
  have e1 : run c (s, cap) = ((lift (initProgram c.env) >>= fun r => match r with
      | some err => Pure.pure (some err)
      | none => runLoop c 0 c.env.ops >>= fun r => match r with
        | some err => Pure.pure (some err)
        | none => lift isBalanced >>= fun b => if !b then Pure.pure (some .invalid_stack_scope) else Pure.pure none : MC Res)) (s, cap) := rfl
  have e2 : Machine.run c.env s = ((initProgram c.env >>= fun r => match r with
      | some err => Pure.pure (some err)
      | none => Machine.runLoop c.env 0 c.env.ops >>= fun r => match r with
        | some err => Pure.pure (some err)
        | none => isBalanced >>= fun b => if !b then Pure.pure (some .invalid_stack_scope) else Pure.pure none : M (List Val) Res)) s := rfl
  rw [e1, e2]
  rw [bind_eq, mbind, hi]
  have hl : lift (initProgram c.env) (s, cap) = some (r, s, cap) := by unfold lift; rw [hi]; rfl
  rw [hl]
  simp only [Option.bind_some]
  cases r with
  | some err => exact ⟨some err, s, cap, [], rfl, rfl, by simp, fun _ => rfl, fun h => by simp at h⟩
  | none =>
    obtain ⟨-, hc, hv⟩ := initProgram_none hops s s hi
    obtain ⟨r, s', cap', new, h1, h2, h4, h5, h6⟩ := runLoop_sim c h3 he hc c.env.ops 0 s t cap hc hv ⟨hr, .inl hx⟩
    simp only [bind_eq, mbind, h1, Option.bind_some]
    cases r with
    | some err =>
      refine ⟨some err, s', cap', new, rfl, h2, h4, ?_, ?_⟩
      · intro hg; rw [h5 hg]; rfl
      · intro hg
        obtain ⟨b, hb, s2, hs⟩ := h6 hg
        exact ⟨b, hb, s2, by rw [hs]; rfl⟩
    | none =>
      refine ⟨if (!s'.condition.isEmpty) = true then some .invalid_stack_scope else none, s', cap', new, ?_, h2, h4, ?_, ?_⟩
      · dsimp only
        rw [bind_eq]
        simp only [lift, isBalanced, Option.map_some, Option.bind_some]
        split <;> rfl
      · intro hg
        rw [h5 hg]
        simp only [Option.bind_some, mbind, isBalanced]
        split <;> rfl
      · intro hg
        obtain ⟨b, hb, s2, hs⟩ := h6 hg
        exact ⟨b, hb, s2, by rw [hs]; rfl⟩

end Verif.Capture
