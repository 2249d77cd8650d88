import Verif.Lemmas.Machine8
/-! Facts about the specification interpreter: limits and nesting. -/
namespace Verif.Spec.Script
open Verif Verif.Machine

theorem checkTap_frame {e : Env} {sig key : Bytes} {t t' : State} {b : Bool} (h : checkTap e sig key t = some (b, t')) :
    t'.exec = t.exec ∧ t'.nops = t.nops := by
  unfold checkTap at h
  split_ifs at h <;> simp at h <;> (obtain ⟨_, rfl⟩ := h; exact ⟨rfl, rfl⟩)

theorem checkSig_frame {e : Env} {t t' : State} {b : Bool} (h : checkSig e t = some (b, t')) :
    t'.exec = t.exec ∧ t'.nops = t.nops := by
  unfold checkSig at h
  split at h
  · dsimp only at h
    split_ifs at h
    · have := checkTap_frame h; exact this
    · simp only [Option.bind_eq_bind, Option.bind_eq_some_iff] at h
      obtain ⟨_, _, h⟩ := h
      simp at h
      obtain ⟨_, rfl⟩ := h
      exact ⟨rfl, rfl⟩
  · cases h

theorem checkMultisig_frame {e : Env} {t t' : State} {b : Bool} (h : checkMultisig e t = some (b, t')) :
    t'.exec = t.exec ∧ t'.nops ≤ 201 := by
  unfold checkMultisig at h
  simp only [Option.bind_eq_bind, Option.bind_eq_some_iff] at h
  obtain ⟨⟨keys, s⟩, _, h⟩ := h
  dsimp only at h
  split_ifs at h with hn
  simp only [Option.bind_eq_some_iff] at h
  obtain ⟨⟨sigs, s2⟩, _, h⟩ := h
  dsimp only at h
  split at h
  · cases h
  · split_ifs at h
    simp only [Option.bind_eq_some_iff] at h
    obtain ⟨_, _, h⟩ := h
    simp at h
    obtain ⟨_, rfl⟩ := h
    exact ⟨rfl, by show t.nops + keys.length ≤ 201; omega⟩

theorem openIf_frame {e : Env} {n : Bool} {t t' : State} (h : openIf e n t = some t') :
    t'.exec.length = t.exec.length + 1 ∧ t'.nops = t.nops := by
  unfold openIf at h
  split at h
  · split at h
    · cases h
    · simp only [Option.bind_eq_bind, Option.bind_eq_some_iff] at h
      obtain ⟨_, _, h⟩ := h
      simp at h
      subst h
      exact ⟨by simp, rfl⟩
  · simp at h
    subst h
    exact ⟨by simp, rfl⟩

theorem execute_frame {e : Env} {i : Nat} {op : Op} {t t' : State} (h : execute e i op t = some t') :
    t'.exec.length = (match op.code.toNat with
      | 99 | 100 => t.exec.length + 1
      | 104 => t.exec.length - 1
      | _ => t.exec.length) ∧
    ((op.code.toNat = 103 ∨ op.code.toNat = 104) → t.exec.length ≠ 0) ∧
    (t.nops ≤ 201 → t'.nops ≤ 201) := by
  unfold execute at h
  dsimp only at h
  split at h
  · rename_i h0; simp at h; subst h; rw [h0]; simp
  split at h
  · simp at h; subst h
    refine ⟨?_, by omega, id⟩
    split <;> first | omega | rfl
  split at h
  · rename_i h2; simp at h; subst h; rw [h2]; simp
  split at h
  · simp at h; subst h
    refine ⟨?_, by omega, id⟩
    split <;> first | omega | rfl
  split at h
  case h_15 =>
    have : t'.exec = t.exec ∧ t'.nops = t.nops := by
      unfold onStack at h
      simp only [Option.map_eq_some_iff] at h
      obtain ⟨_, _, rfl⟩ := h
      exact ⟨rfl, rfl⟩
    rw [this.1, this.2]
    refine ⟨?_, ?_, id⟩
    · split <;> first | contradiction | rfl
    · rintro (hh | hh) <;> contradiction
  all_goals (rename_i hc; simp only [hc])
  · have := openIf_frame h; exact ⟨this.1, by omega, by omega⟩
  · have := openIf_frame h; exact ⟨this.1, by omega, by omega⟩
  · split at h
    · cases h
    · rename_i he; simp at h; subst h; simp [he]
  · split at h
    · cases h
    · rename_i he; simp at h; subst h; simp [he]
  · split at h
    · cases h
    · simp at h; subst h; simp
  · split at h
    · cases h
    · simp at h; subst h; simp
  · simp at h; subst h; simp
  · simp only [Option.bind_eq_bind, Option.bind_eq_some_iff] at h
    obtain ⟨⟨b, t1⟩, h1, h⟩ := h
    have := checkSig_frame h1
    simp at h; subst h
    simp [this]
  · simp only [Option.bind_eq_bind, Option.bind_eq_some_iff] at h
    obtain ⟨⟨b, t1⟩, h1, h⟩ := h
    have := checkSig_frame h1
    dsimp only at h
    split_ifs at h
    simp at h; subst h
    simp [this]
  · split_ifs at h
    simp only [Option.bind_eq_bind, Option.bind_eq_some_iff] at h
    obtain ⟨⟨b, t1⟩, h1, h⟩ := h
    have := checkMultisig_frame h1
    simp at h; subst h
    simp [this]
  · split_ifs at h
    simp only [Option.bind_eq_bind, Option.bind_eq_some_iff] at h
    obtain ⟨⟨b, t1⟩, h1, h⟩ := h
    have := checkMultisig_frame h1
    dsimp only at h
    split_ifs at h
    simp at h; subst h
    simp [this]
  · split_ifs at h
    simp at h; subst h; simp
  · split_ifs at h
    simp at h; subst h; simp
  · split_ifs at h
    split at h
    · simp only [Option.bind_eq_bind, Option.bind_eq_some_iff] at h
      obtain ⟨_, _, ⟨b, t1⟩, h1, h⟩ := h
      have := checkTap_frame h1
      simp at h; subst h
      simp [this]
    · cases h

theorem step_frame {e : Env} {i : Nat} {op : Op} {t t' : State} (h : step e i op t = some t') :
    t'.exec.length = (match op.code.toNat with
      | 99 | 100 => t.exec.length + 1
      | 104 => t.exec.length - 1
      | _ => t.exec.length) ∧
    ((op.code.toNat = 103 ∨ op.code.toNat = 104) → t.exec.length ≠ 0) ∧
    (e.flags.bip342 = false → t'.nops ≤ 201) ∧ t'.stack.length + t'.alt.length ≤ 1000 := by
  unfold step at h
  split at h
  · cases h
  split at h
  · cases h
  dsimp only at h
  split at h
  · cases h
  rename_i hn
  split at h
  · cases h
  have hx : (counted e op t).exec = t.exec := by unfold counted; split <;> rfl
  have hn' : e.flags.bip342 = false → (counted e op t).nops ≤ 201 := by
    intro hb; simpa [hb] using hn
  split at h <;> simp only [Option.bind_eq_bind, Option.bind_eq_some_iff] at h <;> obtain ⟨t1, h1, h2⟩ := h <;> split at h2 <;>
    [cases h2; skip; cases h2; skip] <;> simp only [Option.some.injEq] at h2 <;> subst h2
  · have := execute_frame h1
    rw [hx] at this
    exact ⟨this.1, this.2.1, fun hb => this.2.2 (hn' hb), by omega⟩
  · rename_i hc _
    simp at h1
    subst h1
    simp at hc
    rw [hx]
    refine ⟨?_, by omega, hn', by omega⟩
    split <;> first | omega | rfl

theorem steps_frame {e : Env} : ∀ (ops : List Op) (i : Nat) (t t' : State), steps e i ops t = some t' →
    depth ops t.exec.length = some t'.exec.length ∧
    (ops ≠ [] → (e.flags.bip342 = false → t'.nops ≤ 201) ∧ t'.stack.length + t'.alt.length ≤ 1000)
  | [], _, _, _, h => by cases h; exact ⟨rfl, fun h => absurd rfl h⟩
  | op :: ops, i, t, t', h => by
    unfold steps at h
    simp only [Option.bind_eq_bind, Option.bind_eq_some_iff] at h
    obtain ⟨t1, h1, h2⟩ := h
    have f := step_frame h1
    have ih := steps_frame ops (i + 1) t1 t' h2
    constructor
    · rw [← ih.1, f.1]
      have f2 := f.2.1
      rw [depth]
      split <;> rename_i hc
      · simp only [hc]
      · simp only [hc]
      · rw [if_neg (f2 (.inl hc))]; simp only [hc]
      · rw [if_neg (f2 (.inr hc))]; simp only [hc]
      · congr 1
        split <;> first | contradiction | rfl
    · intro _
      by_cases ho : ops = []
      · subst ho; cases h2; exact f.2.2
      · exact ih.2 ho

end Verif.Spec.Script
