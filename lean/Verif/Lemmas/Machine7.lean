import Verif.Lemmas.Machine6
import Verif.Lemmas.Codec2
/-! The run loop implements the specification. -/
namespace Verif.Machine
open Verif Verif.Num Verif.Spec Verif.Spec.Script

/-- The only tolerated difference. -/
def Excused (e : Env) (err : Err) : Prop :=
  err = .op_check_multisig_decode_signature ∧ e.flags.bip66 = true ∧ e.flags.bip342 = false

structure RunRel (e : Env) (s : St (List Val)) (t : State) : Prop extends Rel e s t where
  small : t.exec.all id = true ∨ t.stack.length + t.alt.length ≤ 1000

theorem Rel.lengths {e s t} (h : Rel e s t) :
    s.primary.length = t.stack.length ∧ s.alternate.length = t.alt.length := by
  rw [← h.stack, ← h.alt]; simp [chunks]

theorem isInvalid_iff (c : UInt8) : isInvalid c = (disabled c.toNat || c.toNat == 101 || c.toNat == 102) := by
  rw [Bool.eq_iff_iff]
  unfold isInvalid disabled
  simp only [← UInt8.toNat_inj, decide_eq_true_eq, Bool.or_eq_true, beq_iff_eq, List.mem_cons, List.not_mem_nil, or_false]
  simp only [UInt8.reduceToNat]
  tauto

theorem isConditional_iff (c : UInt8) (h : isInvalid c = false) :
    isConditional c = (99 ≤ c.toNat && c.toNat ≤ 104) := by
  rw [isInvalid_iff] at h
  simp only [Bool.or_eq_false_iff, beq_eq_false_iff_ne] at h
  rw [Bool.eq_iff_iff]
  unfold isConditional
  simp only [← UInt8.toNat_inj, decide_eq_true_eq, Bool.and_eq_true, List.mem_cons, List.not_mem_nil, or_false]
  simp only [UInt8.reduceToNat]
  omega

theorem isSuccessCode_iff (c : UInt8) : isSuccessCode c = successCode c.toNat := by
  rw [Bool.eq_iff_iff]
  unfold isSuccessCode successCode
  simp only [← UInt8.toNat_inj, decide_eq_true_eq, Bool.and_eq_true, Bool.or_eq_true, List.mem_cons, List.not_mem_nil, or_false, GE.ge, UInt8.le_iff_toNat_le]
  simp only [UInt8.reduceToNat]
  omega

theorem isCounted_iff (c : UInt8) : isCounted c = decide (c.toNat > 96) := by
  rw [Bool.eq_iff_iff]
  unfold isCounted
  simp only [decide_eq_true_eq, GE.ge, UInt8.le_iff_toNat_le, UInt8.reduceToNat]
  omega

theorem opsIncrement_ref {e : Env} {op : Op} {s t} (h : Rel e s t) :
    ∃ s', opsIncrementOp e op s = some (!(!e.flags.bip342 && decide ((counted e op t).nops > 201)), s') ∧ Rel e s' (counted e op t) ∧
      s'.primary = s.primary ∧ s'.alternate = s.alternate ∧ (counted e op t).exec = t.exec ∧
      (counted e op t).stack = t.stack ∧ (counted e op t).alt = t.alt := by
  unfold opsIncrementOp counted
  rw [isCounted_iff]
  cases hb : e.flags.bip342
  · cases hc : decide (op.code.toNat > 96)
    · refine ⟨s, ?_, by simpa using h, rfl, rfl, by simp, by simp, by simp⟩
      have : decide (s.operations ≤ 201) = !decide (t.nops > 201) := by
        rw [h.nops, Bool.eq_iff_iff]; simp
      simpa using this
    · refine ⟨{ s with operations := s.operations + 1 }, ?_, ?_, rfl, rfl, by simp, by simp, by simp⟩
      · have : decide (s.operations + 1 ≤ 201) = !decide (t.nops + 1 > 201) := by
          rw [h.nops, Bool.eq_iff_iff]; simp
        simpa using this
      · exact ⟨h.stack, h.alt, h.cond, h.neg, by simp [h.nops], h.sep, h.budget, h.cache⟩
  · refine ⟨s, ?_, by simpa using h, rfl, rfl, by simp, by simp, by simp⟩
    simp

theorem runStep_refines {e : Env} (he : e.OK) (hops : ∀ o ∈ e.ops, o.Consistent) (i : Nat) (op : Op) (hop : op.Consistent)
    (hinv : isInvalid op.code = false) (s : St (List Val)) (t : State) (hr : RunRel e s t) :
    ∃ r s', runStep e i op s = some (r, s') ∧ match r with
      | none => ∃ t', step e i op t = some t' ∧ RunRel e s' t' ∧ (Within s → Within s')
      | some err => step e i op t = none ∨ Excused e err := by
  have hd : disabled op.code.toNat = false := by
    rw [isInvalid_iff] at hinv
    simp only [Bool.or_eq_false_iff] at hinv
    exact hinv.1.1
  unfold runStep step
  simp only [hop.notUnder, Bool.false_eq_true, if_false]
  rw [hd, ← isConditional_iff _ hinv]
  by_cases hlen : op.data.length > 520
  · rw [if_pos hlen, if_pos hlen]
    exact ⟨_, s, rfl, .inl rfl⟩
  rw [if_neg hlen, if_neg hlen]
  obtain ⟨s1, h1, h2, h3, h4, h5, h6, h7⟩ := opsIncrement_ref (op := op) hr.toRel
  simp only [mbind, h1, Option.bind_some]
  cases hn : (!e.flags.bip342 && decide ((counted e op t).nops > 201))
  swap
  · exact ⟨some .invalid_operation_count, s1, rfl, .inl rfl⟩
  simp only [Bool.not_true, Bool.not_false, Bool.false_eq_true, if_false]
  have hneg := neg_iff h2
  have hall : (counted e op t).exec.all id = t.exec.all id := by rw [h5]
  have hexec : (do if isConditional op.code then return true else isSuccess : M (List Val) Bool) s1 =
      some (((counted e op t).exec.all id || isConditional op.code), s1) := by
    cases hc : isConditional op.code
    · simp only [Bool.false_eq_true, if_false, Bool.or_false, ← hneg]; rfl
    · simp [hc]; rfl
  simp only [mbind, hexec, Option.bind_some]
  cases hx : (counted e op t).exec.all id || isConditional op.code
  · simp only [Bool.false_eq_true, if_false]
    refine ⟨none, s1, rfl, counted e op t, ?_, ⟨h2, .inr ?_⟩, ?_⟩
    · have hs := hr.small
      simp only [Bool.or_eq_false_iff] at hx
      rw [← hall, hx.1] at hs
      simp only [Option.bind_eq_bind, Option.bind_some]
      rw [if_neg]
      rw [h6, h7]
      rcases hs with hs | hs
      · cases hs
      · omega
    · simp only [Bool.or_eq_false_iff] at hx
      rw [h6, h7]
      rcases hr.small with hs | hs
      · rw [← hall, hx.1] at hs; cases hs
      · exact hs
    · intro w; unfold Within at *; rw [h3, h4]; exact w
  · simp only [if_true]
    obtain ⟨r, s2, hr2, hr3⟩ := runOp_refines e i op hops he.sizes he.total hop (by omega) s1 (counted e op t) h2
    simp only [mbind, hr2, Option.bind_some]
    match r, hr3 with
    | some err, hr3 =>
      refine ⟨some err, s2, rfl, ?_⟩
      rcases hr3 with hr3 | hr3
      · left; rw [hr3]; rfl
      · exact .inr hr3
    | none, ⟨t', hf, hrel, hw⟩ =>
      have hl := hrel.lengths
      by_cases hov : t'.stack.length + t'.alt.length > 1000
      · refine ⟨some .invalid_stack_size, s2, ?_, .inl ?_⟩
        · simp only [mbind, isStackOverflow, Option.bind_some, StackImpl.size]
          rw [show decide (s2.primary.length + s2.alternate.length > 1000) = true by simp; omega]
          rfl
        · rw [hf]; simp [hov]
      · refine ⟨none, s2, ?_, t', ?_, ⟨hrel, .inr (by omega)⟩, ?_⟩
        · simp only [mbind, isStackOverflow, Option.bind_some, StackImpl.size]
          rw [show decide (s2.primary.length + s2.alternate.length > 1000) = false by simp; omega]
          rfl
        · rw [hf]; simp [hov]
        · intro w
          refine ⟨hw ?_, by omega⟩
          unfold Within at *; rw [h3, h4]; exact w
end Verif.Machine
