import Verif.Lemmas.Machine7
import Verif.Lemmas.MachineHom
/-! A whole program implements the specification. -/
namespace Verif.Machine
open Verif Verif.Num Verif.Spec Verif.Spec.Script

theorem runLoop_refines {e : Env} (he : e.OK) (hops : ∀ o ∈ e.ops, o.Consistent) :
    ∀ (ops : List Op) (i : Nat) (s : St (List Val)) (t : State), (∀ o ∈ ops, o.Consistent) → (∀ o ∈ ops, isInvalid o.code = false) →
      RunRel e s t →
      ∃ r s', runLoop e i ops s = some (r, s') ∧ match r with
        | none => ∃ t', steps e i ops t = some t' ∧ RunRel e s' t' ∧ (Within s → Within s')
        | some err => steps e i ops t = none ∨ Excused e err
  | [], i, s, t, _, _, hr => ⟨none, s, rfl, t, rfl, hr, id⟩
  | op :: ops, i, s, t, hc, hi, hr => by
    obtain ⟨r, s1, h1, h2⟩ := runStep_refines he hops i op (hc op (by simp)) (hi op (by simp)) s t hr
    unfold runLoop steps
    simp only [mbind, h1, Option.bind_some]
    match r, h2 with
    | some err, h2 =>
      refine ⟨some err, s1, rfl, ?_⟩
      rcases h2 with h2 | h2
      · left; rw [h2]; rfl
      · exact .inr h2
    | none, ⟨t1, h3, h4, h5⟩ =>
      obtain ⟨r, s2, h6, h7⟩ := runLoop_refines he hops ops (i + 1) s1 t1 (fun o ho => hc o (by simp [ho])) (fun o ho => hi o (by simp [ho])) h4
      refine ⟨r, s2, h6, ?_⟩
      match r, h7 with
      | some err, h7 =>
        rcases h7 with h7 | h7
        · left; rw [h3]; exact h7
        · exact .inr h7
      | none, ⟨t2, h8, h9, h10⟩ => exact ⟨t2, by rw [h3]; exact h8, h9, fun w => h10 (h5 w)⟩

/-- A script that contains an invalid or incomplete operation fails in the specification. -/
theorem steps_invalid {e : Env} : ∀ (ops : List Op) (i : Nat) (t : State) (o : Op), o ∈ ops →
    (o.underflow = true ∨ isInvalid o.code = true) → steps e i ops t = none
  | [], _, _, _, h, _ => by cases h
  | op :: ops, i, t, o, h, hu => by
    unfold steps
    rcases List.mem_cons.1 h with rfl | h
    · have : step e i o t = none := by
        unfold step
        rcases hu with hu | hu
        · simp [hu]
        · split
          · rfl
          · split
            · rfl
            · extract_lets t'
              split
              · rfl
              · split
                · rfl
                · rename_i h4
                  rw [isInvalid_iff] at hu
                  have hc : o.code.toNat = 101 ∨ o.code.toNat = 102 := by
                    simp only [Bool.or_eq_true, beq_iff_eq] at hu
                    rcases hu with (hu | hu) | hu
                    · exact absurd hu h4
                    · exact .inl hu
                    · exact .inr hu
                  have hx : execute e i o t' = none := by
                    unfold execute
                    rcases hc with hc | hc <;> simp [hc, onStack, stackOp]
                  rw [hx]
                  rcases hc with hc | hc <;> simp [hc]
      rw [this]; rfl
    · cases hs : step e i op t with
      | none => rfl
      | some t1 => exact steps_invalid ops (i + 1) t1 o h hu

theorem _root_.Verif.OpsOK.cases {ops : List Op} (h : OpsOK ops) :
    (∀ o ∈ ops, o.Consistent) ∨ ∃ l, ops.getLast? = some l ∧ l.underflow = true ∧ l.code = anyInvalid := by
  induction h with
  | nil => left; simp
  | under d hne h => right; exact ⟨_, rfl, rfl, rfl⟩
  | cons o os ho t ih =>
    rcases ih with ih | ⟨l, h1, h2, h3⟩
    · left; intro x hx
      rcases List.mem_cons.1 hx with rfl | hx
      · exact ho
      · exact ih x hx
    · right
      refine ⟨l, ?_, h2, h3⟩
      cases os with
      | nil => simp at h1
      | cons a as => rw [List.getLast?_cons_cons]; exact h1

theorem _root_.Verif.OpsOK.under_code {ops : List Op} (h : OpsOK ops) : ∀ o ∈ ops, o.underflow = true → o.code = anyInvalid := by
  induction h with
  | nil => simp
  | under d hne h => simp
  | cons o os ho t ih =>
    intro x hx hu
    rcases List.mem_cons.1 hx with rfl | hx
    · rw [ho.notUnder] at hu; cases hu
    · exact ih x hx hu

theorem anyInvalid_not_success : isSuccessCode anyInvalid = false := by decide
theorem anyInvalid_invalid : isInvalid anyInvalid = true := by decide

theorem prevalid_iff {ops : List Op} (h : OpsOK ops) :
    isPrevalid ops = ops.any (fun o => !o.underflow && successCode o.code.toNat) := by
  unfold isPrevalid
  rw [Bool.eq_iff_iff]
  simp only [List.any_eq_true, Bool.and_eq_true, Bool.not_eq_true']
  constructor
  · rintro ⟨o, ho, hs⟩
    refine ⟨o, ho, ?_, by rw [← isSuccessCode_iff]; exact hs⟩
    cases hu : o.underflow
    · rfl
    · rw [h.under_code o ho hu, anyInvalid_not_success] at hs; cases hs
  · rintro ⟨o, ho, _, hs⟩
    exact ⟨o, ho, by rw [isSuccessCode_iff]; exact hs⟩

/-- Outcome of `run` against the specification verdict. -/
theorem run_refines {e : Env} (he : e.OK) (hops : OpsOK e.ops) (hsz : (opsData e.ops).length < 2 ^ 64)
    (s : St (List Val)) (t : State) (hr : Rel e s t) (hx : t.exec.all id = true) (hal : t.alt = []) :
    ∃ r s', run e s = some (r, s') ∧ match r with
      | none => ∃ t', eval e t = .done t' ∧ Rel e s' t' ∧ t'.exec = [] ∧ (Within s → Within s')
      | some .prevalid_script => eval e t = .reserved
      | some err => eval e t = .fail ∨ Excused e err := by
  have hl := hr.lengths
  unfold run initProgram eval
  rw [← prevalid_iff hops]
  cases hp : e.flags.bip342 && isPrevalid e.ops
  swap
  · exact ⟨some .prevalid_script, s, rfl, rfl⟩
  simp only [Bool.false_eq_true, if_false]
  -- incomplete script
  by_cases hu : isScriptUnderflow e.ops = true
  · rw [if_pos hu]
    refine ⟨some .invalid_script, s, rfl, .inl ?_⟩
    have : steps e 0 e.ops t = none := by
      unfold isScriptUnderflow isPrefail at hu
      simp only [Bool.and_eq_true, List.any_eq_true] at hu
      obtain ⟨⟨o, ho, hi⟩, _⟩ := hu
      exact steps_invalid _ _ _ o ho (.inr hi)
    rw [this]
    split_ifs <;> rfl
  rw [if_neg hu]
  have hcons : ∀ o ∈ e.ops, o.Consistent := by
    rcases hops.cases with h | ⟨l, h1, h2, h3⟩
    · exact h
    · exfalso
      apply hu
      unfold isScriptUnderflow isPrefail
      simp only [Bool.and_eq_true, List.any_eq_true]
      refine ⟨⟨l, List.mem_of_getLast? h1, by rw [h3]; exact anyInvalid_invalid⟩, by simp [h1, h2]⟩
  have hov : (do if e.flags.bip342 then isStackOverflow else return false : M (List Val) Bool) s =
      some (e.flags.bip342 && decide (s.primary.length + s.alternate.length > 1000), s) := by
    cases hc : e.flags.bip342 <;> rfl
  simp only [mbind, hov, Option.bind_some]
  have hal' : s.alternate.length = 0 := by rw [hl.2, hal]; rfl
  rw [hl.1, hal', Nat.add_zero]
  cases h3 : e.flags.bip342 && decide (t.stack.length > 1000)
  swap
  · exact ⟨some .invalid_stack_size, s, rfl, .inl rfl⟩
  simp only [Bool.false_eq_true, if_false]
  have hwit : witnessOversized e.witness = (e.witness.getD []).any (fun x => decide (x.length > 520)) := by
    cases e.witness <;> rfl
  rw [hwit]
  cases h4 : (e.flags.bip342 || e.flags.bip141) && (e.witness.getD []).any (fun x => decide (x.length > 520))
  swap
  · exact ⟨some .invalid_witness_stack, s, rfl, .inl rfl⟩
  simp only [Bool.false_eq_true, if_false]
  rw [opsSize_eq _ hsz]
  cases h5 : !e.flags.bip342 && decide ((opsData e.ops).length > 10000)
  swap
  · exact ⟨some .invalid_script_size, s, rfl, .inl rfl⟩
  simp only [Bool.false_eq_true, if_false]
  cases h6 : isPrefail e.ops
  swap
  · refine ⟨some .prefail_script, s, rfl, .inl ?_⟩
    unfold isPrefail at h6
    obtain ⟨o, ho, hi⟩ := List.any_eq_true.1 h6
    rw [steps_invalid _ _ _ o ho (.inr hi)]
  simp only [Bool.false_eq_true, if_false]
  have hi : ∀ o ∈ e.ops, isInvalid o.code = false := by
    intro o ho
    unfold isPrefail at h6
    simpa using List.any_eq_false.1 h6 o ho
  obtain ⟨r, s1, h7, h8⟩ := runLoop_refines he hcons e.ops 0 s t hcons hi ⟨hr, .inl hx⟩
  simp only [mpure, Option.bind_some, mbind, h7]
  match r, h8 with
  | some err, h8 =>
    refine ⟨some err, s1, rfl, ?_⟩
    have hpre : err ≠ .prevalid_script := fun h => runLoop_noPre e 0 e.ops s s1 (by rw [h7, h])
    have : (match steps e 0 e.ops t with
        | none => Verdict.fail
        | some t => if t.exec = [] then .done t else .fail) = .fail ∨ Excused e err := by
      rcases h8 with h8 | h8
      · left; rw [h8]
      · exact .inr h8
    cases err <;> first | exact this | exact absurd rfl hpre
  | none, ⟨t1, h9, h10, h11⟩ =>
    rw [h9]
    have hb : s1.condition.isEmpty = t1.exec.isEmpty := by
      have := h10.cond
      cases hc : s1.condition <;> cases hx : t1.exec <;> rw [hc, hx] at this <;> first | rfl | exact this.elim
    cases hc : s1.condition.isEmpty
    · refine ⟨some .invalid_stack_scope, s1, ?_, .inl ?_⟩
      · show (if (!s1.condition.isEmpty) = true then (pure (some Err.invalid_stack_scope) : M (List Val) Res) else pure none) s1 = _
        rw [hc]; rfl
      · rw [hc] at hb
        show (if t1.exec = [] then _ else _) = _
        rw [if_neg]
        intro h; rw [h] at hb; cases hb
    · rw [hc] at hb
      have : t1.exec = [] := List.isEmpty_iff.1 hb.symm
      refine ⟨none, s1, ?_, t1, by simp [this], h10.toRel, this, h11⟩
      show (if (!s1.condition.isEmpty) = true then (pure (some Err.invalid_stack_scope) : M (List Val) Res) else pure none) s1 = _
      rw [hc]; rfl
end Verif.Machine
