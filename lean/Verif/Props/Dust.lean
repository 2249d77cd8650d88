import Verif.Model.Dust
import Verif.Props.Patterns
import Verif.Props.Verify
/-!
# C102: outputs that cannot be spent, and dust
-/
namespace Verif.Dust
open Verif Verif.Machine Verif.Spec.Form

/-- The operation codes that fail a script when met first. -/
def Dead (c : UInt8) : Prop :=
  c = 80 ∨ c = 98 ∨ c = 101 ∨ c = 102 ∨ c = 106 ∨ (126 ≤ c ∧ c ≤ 129) ∨ (131 ≤ c ∧ c ≤ 134) ∨ c = 137 ∨ c = 138 ∨ c = 141 ∨ c = 142 ∨
    (149 ≤ c ∧ c ≤ 153) ∨ 186 ≤ c
instance (c : UInt8) : Decidable (Dead c) := by unfold Dead; infer_instance

theorem dead_iff : ∀ c : UInt8, (isReserved c || isInvalid c) = true ↔ Dead c := Der.byte_forall (by decide +kernel)

theorem dead_list : ∀ c : UInt8, Dead c → c ∈ ([80, 98, 101, 102, 106, 126, 127, 128, 129, 131, 132, 133, 134, 137, 138, 141, 142, 149, 150, 151, 152, 153, 186] : List UInt8) ∨ 187 ≤ c.toNat :=
  Der.byte_forall (by decide +kernel)
theorem dead_unconditional : ∀ c : UInt8, Dead c → isConditional c = false := Der.byte_forall (by decide +kernel)

theorem runOp_dead {S : Type} [StackImpl S] (e : Env) (hb : e.flags.bip342 = false) (i : Nat) (op : Op) (h : Dead op.code) :
    ∃ err, (runOp e i op : M S Res) = pure (some err) := by
  rcases dead_list _ h with h | h
  · simp only [List.mem_cons, List.not_mem_nil, or_false] at h
    rcases h with h | h | h | h | h | h | h | h | h | h | h | h | h | h | h | h | h | h | h | h | h | h | h
    all_goals
      unfold runOp
      rw [h]
      first
      | exact ⟨_, rfl⟩
      | (show ∃ err, opNops e _ = _; unfold opNops unevaluated; split <;> exact ⟨_, rfl⟩)
      | (show ∃ err, opCats e _ = _; unfold opCats unevaluated; split <;> exact ⟨_, rfl⟩)
      | (show ∃ err, opCheckSigAdd e = _; unfold opCheckSigAdd; rw [hb]; exact ⟨_, rfl⟩)
  · unfold runOp
    split <;> first | omega | skip
    rw [if_neg (by omega), if_neg (by omega), if_neg (by omega)]
    exact ⟨_, rfl⟩

theorem init_pure {S : Type} [StackImpl S] (e : Env) (hb : e.flags.bip342 = false) (s : St S) : ∃ r, initProgram e s = some (r, s) := by
  unfold initProgram
  rw [hb]
  simp only [Bool.false_and, Bool.false_eq_true, if_false, Bool.not_false, Bool.true_and, Bool.false_or]
  by_cases h1 : isScriptUnderflow e.ops = true
  · exact ⟨_, by rw [if_pos h1]; rfl⟩
  rw [if_neg h1]
  show ∃ r, (if (e.flags.bip141 && witnessOversized e.witness) = true then _ else _ : M S Res) s = _
  by_cases h2 : (e.flags.bip141 && witnessOversized e.witness) = true
  · exact ⟨_, by rw [if_pos h2]; rfl⟩
  rw [if_neg h2]
  by_cases h3 : decide (opsSize e.ops > 10000) = true
  · exact ⟨_, by rw [if_pos h3]; rfl⟩
  rw [if_neg h3]
  by_cases h4 : isPrefail e.ops = true
  · exact ⟨_, by rw [if_pos h4]; rfl⟩
  exact ⟨_, by rw [if_neg h4]; rfl⟩

theorem step_dead {S : Type} [StackImpl S] (e : Env) (hb : e.flags.bip342 = false) (i : Nat) (op : Op) (h : Dead op.code) (s : St S)
    (hs : s.negative = 0) : ∃ err t, runStep e i op s = some (some err, t) := by
  unfold runStep
  by_cases h1 : op.data.length > 520
  · exact ⟨_, _, by rw [if_pos h1]; rfl⟩
  rw [if_neg h1]
  show ∃ err t, (opsIncrementOp e op s).bind _ = _
  unfold opsIncrementOp
  rw [hb]
  simp only [Bool.false_eq_true, if_false, Option.bind_some]
  generalize (if isCounted op.code = true then s.operations + 1 else s.operations) = n
  by_cases h2 : decide (n ≤ 201) = true
  · rw [h2]
    simp only [Bool.not_true, Bool.false_eq_true, if_false, dead_unconditional _ h]
    obtain ⟨err, he⟩ := runOp_dead (S := S) e hb i op h
    refine ⟨err, { s with operations := n }, ?_⟩
    simp [bind, StateT.bind, isSuccess, he, hs, pure, StateT.pure]
  · have : decide (n ≤ 201) = false := by simpa using h2
    rw [this]
    exact ⟨_, _, rfl⟩

theorem run_dead (e : Env) (hb : e.flags.bip342 = false) (op : Op) (ops : List Op) (ho : e.ops = op :: ops) (h : Dead op.code)
    (st : List Val) (budget : Nat) : ∃ err t, Machine.run e { primary := st, budget := budget } = some (some err, t) := by
  unfold Machine.run
  obtain ⟨r, hr⟩ := init_pure (S := List Val) e hb { primary := st, budget := budget }
  show ∃ err t, (initProgram e { primary := st, budget := budget }).bind _ = _
  rw [hr]
  cases r with
  | some err => exact ⟨err, _, rfl⟩
  | none =>
    obtain ⟨err, t, hs⟩ := step_dead (S := List Val) e hb 0 op h { primary := st, budget := budget } rfl
    refine ⟨err, t, ?_⟩
    have : runLoop e 0 e.ops { primary := st, budget := budget } = some (some err, t) := by
      rw [ho]
      unfold runLoop
      show (runStep e 0 op { primary := st, budget := budget }).bind _ = _
      rw [hs]; rfl
    show (runLoop e 0 e.ops { primary := st, budget := budget }).bind _ = _
    rw [this]; rfl

/-- **C102** An output that is found unspendable cannot be spent: no input script, no witness, no transaction and no set of active forks
makes the input valid. -/
theorem C102_unspendable (s : Spend) (h : isUnspendable s.prevout = true) : connect s ≠ some none := by
  obtain ⟨o, r, ho⟩ : ∃ o r, s.prevout = o :: r := by
    cases hp : s.prevout with
    | nil => rw [hp] at h; cases h
    | cons o r => exact ⟨o, r, rfl⟩
  rw [ho] at h
  have hd := (dead_iff _).1 h
  unfold connect
  unfold runThen
  split
  · simp
  · simp
  · rename_i i _
    obtain ⟨err, t, ht⟩ := run_dead (s.legacyEnv s.prevout) rfl o r ho hd i.primary 0
    dsimp only
    rw [ht]
    simp

/-- and it ends in an error, never in undefined behaviour. -/
theorem C102_unspendable_fails (s : Spend) (hs : s.OK) (h : isUnspendable s.prevout = true) : ∃ err, connect s = some (some err) := by
  obtain ⟨r, hr⟩ := C52_no_undefined_access s hs
  cases r with
  | none => exact absurd hr (C102_unspendable s h)
  | some e => exact ⟨e, hr⟩

/-- (by bytes) A script is found unspendable exactly if its first byte is a code that fails, or it starts with a push that is cut short. -/
theorem C102_unspendable_iff (b : Bytes) (hl : b.length < 2 ^ 63) :
    isUnspendable (parseOps b) = true ↔ (∃ c r, b = c :: r ∧ Dead c) ∨ (b ≠ [] ∧ Pattern.Cut b) := by
  have hok := parseOps_ok hl
  have hd := parseOps_data hl
  have first : ∀ o r, parseOps b = o :: r → o.Consistent → ∃ t, b = o.code :: t := by
    intro o r h hc
    rw [h, Pattern.opsData_cons] at hd
    unfold Op.toData at hd
    rw [hc.notUnder] at hd
    exact ⟨_, by rw [← hd]; rfl⟩
  constructor
  · intro h
    cases hp : parseOps b with
    | nil => rw [hp] at h; cases h
    | cons o r =>
      rw [hp] at h
      have hdead := (dead_iff _).1 h
      rcases Pattern.opsOK_split hok with hc | ⟨p, d, e, p1, p2, p3⟩
      · obtain ⟨t, ht⟩ := first o r hp (hc o (by rw [hp]; simp))
        exact .inl ⟨_, _, ht, hdead⟩
      · cases p with
        | nil =>
          rw [e] at hd
          have : b = d := by rw [← hd]; simp [opsData, Op.toData]
          rw [this]; exact .inr ⟨p2, p3⟩
        | cons x p =>
          rw [hp] at e
          injection e with e1 e2
          obtain ⟨t, ht⟩ := first o r hp (by rw [e1]; exact p1 x (by simp))
          exact .inl ⟨_, _, ht, hdead⟩
  · intro h
    have under : b ≠ [] → Pattern.Cut b → isUnspendable (parseOps b) = true := by
      intro h1 h2
      have := opsOK_injective hok (Pattern.opsOK_join (p := []) (by simp) h1 h2) (by rw [hd]; exact hl)
        (by rw [hd]; simp [opsData, Op.toData])
      rw [this]; rfl
    rcases h with ⟨c, r, hb, hc⟩ | ⟨h1, h2⟩
    · cases hp : parseOps b with
      | nil => rw [hp, hb] at hd; exact absurd hd (by simp [opsData])
      | cons o q =>
        rcases Pattern.opsOK_split hok with hcon | ⟨p, d, e, p1, p2, p3⟩
        · obtain ⟨t, ht⟩ := first o q hp (hcon o (by rw [hp]; simp))
          rw [hb] at ht
          have ht := (List.cons.inj ht).1
          exact (dead_iff _).2 (ht ▸ hc)
        · cases p with
          | nil =>
            rw [hp] at e
            injection e with e1 e2
            rw [e1]; rfl
          | cons x p =>
            rw [hp] at e
            injection e with e1 e2
            obtain ⟨t, ht⟩ := first o q hp (by rw [e1]; exact p1 x (by simp))
            rw [hb] at ht
            have ht := (List.cons.inj ht).1
            exact (dead_iff _).2 (ht ▸ hc)
    · exact under h1 h2

/-- (data outputs) Every standard data output is unspendable. -/
theorem C102_null_data (b : Bytes) (hl : b.length < 2 ^ 63) (h : PayNullData b) : isUnspendable (parseOps b) = true := by
  obtain ⟨d, -, -, h3⟩ := h
  exact (C102_unspendable_iff b hl).2 (.inl ⟨_, _, h3, by decide⟩)

/-- (dust) A transaction is dusty exactly if one of its outputs pays less than the limit to a script that is not found unspendable: then
that output can be spent, as far as its first operation goes, and costs more to keep than it is worth. -/
theorem C102_dusty (t : Tx) (minimum : UInt64) : isDusty t minimum = true ↔
    ∃ o ∈ t.outputs, o.value.toNat < minimum.toNat ∧ ∀ x r, o.script.ops = x :: r → ¬ Dead x.code := by
  unfold isDusty
  rw [List.any_eq_true]
  refine exists_congr fun o => and_congr_right fun _ => ?_
  unfold isDust
  rw [Bool.and_eq_true, decide_eq_true_iff, UInt64.lt_iff_toNat_lt]
  refine and_congr_right fun _ => ?_
  cases h : o.script.ops with
  | nil => simp [isUnspendable]
  | cons x r =>
    have := dead_iff x.code
    simp only [isUnspendable, Bool.not_eq_true', List.cons.injEq, and_imp]
    rw [Bool.eq_false_iff, ne_eq, this]
    exact ⟨fun h1 x' r' e _ => e ▸ h1, fun h1 => h1 x r rfl rfl⟩

/-- Raising the limit never clears a transaction, and nothing is below a limit of zero. -/
theorem C102_dusty_mono (t : Tx) (a c : UInt64) (h : a ≤ c) : (isDusty t a = true → isDusty t c = true) ∧ isDusty t 0 = false := by
  refine ⟨fun ha => ?_, ?_⟩
  · obtain ⟨o, h1, h2, h3⟩ := (C102_dusty t a).1 ha
    exact (C102_dusty t c).2 ⟨o, h1, by have := UInt64.le_iff_toNat_le.1 h; omega, h3⟩
  · cases h0 : isDusty t 0 with
    | false => rfl
    | true =>
      obtain ⟨o, -, h2, -⟩ := (C102_dusty t 0).1 h0
      exact absurd h2 (by simp)

/-! ## Concrete cases -/

example : isUnspendable (parseOps [0x6a, 0x02, 0x01, 0x02]) = true := by decide +kernel
example : isUnspendable (parseOps [0x4c, 0x05, 0x01]) = true := by decide +kernel
example : isUnspendable (parseOps ([0x76, 0xa9, 0x14] ++ List.replicate 20 7 ++ [0x88, 0xac])) = false := by decide +kernel
/-- The search is not complete, nor claimed to be. -/
example : isUnspendable (parseOps [0x51, 0x6a]) = false := by decide +kernel
example : isDusty { version := 1, inputs := [], outputs := [{ value := 5, script := { ops := parseOps [0x51], valid := true, size := 1 } }, { value := 0, script := { ops := parseOps [0x6a], valid := true, size := 1 } }], locktime := 0, segregated := false } 6 = true := by
  decide +kernel

end Verif.Dust
