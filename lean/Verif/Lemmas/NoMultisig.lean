import Verif.Lemmas.Machine8
import Verif.Spec.Connect
/-!
# When a script can end with the multisig decoding error although the reference interpreter goes on
-/
namespace Verif
open Verif.Machine

/-- The computation never ends with the multisig decoding error. -/
def Never {S : Type} (m : M S Res) : Prop := ∀ s s', m s ≠ some (some .op_check_multisig_decode_signature, s')

variable {S : Type} [StackImpl S]

omit [StackImpl S] in
theorem Never.pure {r : Res} (h : r ≠ some .op_check_multisig_decode_signature) : Never (pure r : M S Res) := by
  intro s s' e
  have : (some (r, s) : Option (Res × St S)) = some (some .op_check_multisig_decode_signature, s') := e
  cases this
  exact h rfl
omit [StackImpl S] in
theorem Never.bind {α : Type} {a : M S α} {f : α → M S Res} (h : ∀ x, Never (f x)) : Never (a >>= f) := by
  intro s s' e
  have e : (match a s with | none => none | some (x, s1) => f x s1) = some (some .op_check_multisig_decode_signature, s') := by
    rw [← e]
    show _ = (a s).bind (fun p => f p.1 p.2)
    cases a s <;> rfl
  cases ha : a s with
  | none => rw [ha] at e; cases e
  | some p => rw [ha] at e; exact h _ _ _ e
omit [StackImpl S] in
theorem Never.ite {c : Prop} [Decidable c] {a b : M S Res} (ha : Never a) (hb : Never b) : Never (if c then a else b) := by
  split <;> assumption

/-- As `Never.bind`, with what is known about the first result. -/
theorem Never.bindRes {a : M S Res} {f : Res → M S Res} (ha : Never a)
    (h : ∀ x, x ≠ some .op_check_multisig_decode_signature → Never (f x)) : Never (a >>= f) := by
  intro s s' e
  have e : (match a s with | none => none | some (x, s1) => f x s1) = some (some .op_check_multisig_decode_signature, s') := by
    rw [← e]
    show _ = (a s).bind (fun p => f p.1 p.2)
    cases a s <;> rfl
  cases hx : a s with
  | none => rw [hx] at e; cases e
  | some p =>
    rw [hx] at e
    obtain ⟨x, s1⟩ := p
    exact h x (fun hh => ha s s1 (by rw [hx, hh])) _ _ e

macro "never" : tactic => `(tactic| repeat (first
  | apply Never.ite
  | (apply Never.pure; decide)
  | (apply Never.bind; intro _)
  | split))

theorem never_pushSize (err : Err) (herr : err ≠ .op_check_multisig_decode_signature) (op : Op) : Never (opPushSize err op : M S Res) := by
  unfold opPushSize
  apply Never.ite
  · apply Never.pure; simpa using herr
  · never
theorem never_unevaluated (c : UInt8) : unevaluated c ≠ some .op_check_multisig_decode_signature := by
  unfold unevaluated
  split <;> decide
theorem never_nops (e : Env) (c : UInt8) : Never (opNops e c : M S Res) := by
  unfold opNops
  apply Never.pure
  split
  · exact never_unevaluated c
  · decide
theorem never_cats (e : Env) (c : UInt8) : Never (opCats e c : M S Res) := by
  unfold opCats
  apply Never.pure
  split
  · exact never_unevaluated c
  · decide
theorem never_unary (err : Err) (f : Int → Val) (herr : err ≠ .op_check_multisig_decode_signature) : Never (opUnary err f : M S Res) := by
  unfold opUnary
  apply Never.bind; intro x
  split
  · apply Never.pure; simpa using herr
  · never
theorem never_binary (err : Err) (f : Int → Int → Val) (herr : err ≠ .op_check_multisig_decode_signature) : Never (opBinary err f : M S Res) := by
  unfold opBinary
  apply Never.bind; intro x
  split
  · apply Never.pure; simpa using herr
  · never
theorem never_hash (err : Err) (f : Bytes → Bytes) (herr : err ≠ .op_check_multisig_decode_signature) : Never (opHash err f : M S Res) := by
  unfold opHash
  apply Never.bind; intro x
  apply Never.ite
  · apply Never.pure; simpa using herr
  · never
theorem never_schnorr (e : Env) (k g : Bytes) : Never (checkSigSchnorr e k g : M S Res) := by
  unfold checkSigSchnorr
  never
theorem never_addSchnorr (e : Env) (k g : Bytes) : Never (checkSigAddSchnorr e k g : M S Res) := by
  unfold checkSigAddSchnorr
  never
theorem never_checkSigVerify (e : Env) : Never (opCheckSigVerify e : M S Res) := by
  unfold opCheckSigVerify
  apply Never.bind; intro _
  apply Never.ite
  · never
  · apply Never.bind; intro _
    apply Never.bind; intro _
    apply Never.ite
    · apply Never.ite
      · never
      apply Never.ite
      · never
      apply Never.bindRes (never_schnorr _ _ _)
      intro x hx
      split
      · exact Never.pure hx
      · never
    · never
theorem never_checkSig (e : Env) : Never (opCheckSig e : M S Res) := by
  unfold opCheckSig
  apply Never.bindRes (never_checkSigVerify e)
  intro x hx
  repeat (first | apply Never.ite | exact Never.pure hx | (apply Never.pure; decide) | (apply Never.bind; intro _))
theorem never_checkSigAdd (e : Env) : Never (opCheckSigAdd e : M S Res) := by
  unfold opCheckSigAdd
  apply Never.ite
  · exact Never.pure (never_unevaluated _)
  apply Never.bind; intro _
  apply Never.ite
  · never
  apply Never.bind; intro _
  apply Never.ite
  · never
  apply Never.bind; intro _
  split
  · never
  apply Never.bind; intro _
  apply Never.ite
  · never
  apply Never.bindRes (never_addSchnorr _ _ _)
  intro x hx
  split
  · exact Never.pure hx
  · never

theorem never_runOp (e : Env) (i : Nat) (op : Op) (h1 : op.code.toNat ≠ 174) (h2 : op.code.toNat ≠ 175) : Never (runOp e i op : M S Res) := by
  unfold runOp
  split
  all_goals first
    | with_reducible exact never_pushSize _ (by decide) _
    | with_reducible exact never_unary _ _ (by decide)
    | with_reducible exact never_binary _ _ (by decide)
    | with_reducible exact never_hash _ _ (by decide)
    | with_reducible exact never_nops _ _
    | with_reducible exact never_cats _ _
    | with_reducible exact Never.pure (never_unevaluated _)
    | with_reducible exact never_checkSig _
    | with_reducible exact never_checkSigVerify _
    | with_reducible exact never_checkSigAdd _
    | with_reducible exact absurd (by assumption) h1
    | with_reducible exact absurd (by assumption) h2
    | skip
  all_goals first
    | (apply Never.ite
       · exact never_pushSize _ (by decide) _
       · repeat (first | apply Never.ite | exact Never.pure (never_unevaluated _) | (apply Never.pure; decide) | (unfold opPushNumber; never) | (unfold opNop; never)))
    | (first | unfold opPushNumber | unfold opNop | unfold opIf | unfold opNotif | unfold opElse | unfold opEndif | unfold opVerify | unfold opToAltStack | unfold opFromAltStack | unfold opDrop2 | unfold opDup2 | unfold opDup3 | unfold opOver2 | unfold opRot2 | unfold opSwap2 | unfold opIfDup | unfold opDepth | unfold opDrop | unfold opDup | unfold opNip | unfold opOver | unfold opPick | unfold opRoll | unfold opRot | unfold opSwap | unfold opTuck | unfold opSize | unfold opEqual | unfold opEqualVerify | unfold opNumEqualVerify | unfold opWithin | unfold opCodeseparator | unfold opCheckLocktimeVerify | unfold opCheckSequenceVerify) <;> never

open Verif.Spec (LastMultisig NoMultisig)
open Verif.Spec.Script (State execute step steps eval checkMultisig encodeBool counted)

theorem runOp_174 (e : Env) (i : Nat) {op : Op} (h : op.code.toNat = 174) : (runOp e i op : M S Res) = opCheckMultisig e := by
  unfold runOp; rw [h]; rfl
theorem runOp_175 (e : Env) (i : Nat) {op : Op} (h : op.code.toNat = 175) : (runOp e i op : M S Res) = opCheckMultisigVerify e := by
  unfold runOp; rw [h]; rfl

/-- The decoding error comes from a multisig check that the reference interpreter finds false, or fails. -/
theorem runOp_decode {e : Env} (he : e.OK) (hops : ∀ o ∈ e.ops, o.Consistent) (i : Nat) (op : Op) (s s' : St (List Val)) (t : State)
    (hr : Rel e s t) (h : runOp e i op s = some (some .op_check_multisig_decode_signature, s')) :
    execute e i op t = none ∨ (op.code = 174 ∧ ∃ t', execute e i op t = some t' ∧ t'.stack.head? = some []) := by
  by_cases h1 : op.code.toNat = 174
  · rw [runOp_174 e i h1] at h
    have hx : execute e i op t = if e.flags.bip342 then none else do let (ok, t) ← checkMultisig e t; return { t with stack := encodeBool ok :: t.stack } := by
      unfold execute; simp [h1]
    cases h342 : e.flags.bip342
    swap
    · left; rw [hx, h342]; rfl
    obtain ⟨r, s1, k1, _, k3⟩ := checkMultisig_ref e hops h342 (he.total h342) s t hr
    have hnt : ∀ t', checkMultisig e t ≠ some (true, t') := by
      intro t' hc
      unfold opCheckMultisig at h
      rw [h342] at h
      simp only [Bool.false_eq_true, if_false, mbind, k1, Option.bind_some] at h
      split at k3
      · rw [show multisigFatal none = false from rfl] at h
        simp only [Bool.false_eq_true, if_false] at h
        rw [if_neg (by simp)] at h
        cases h
      · obtain ⟨t2, k4, _⟩ := k3
        rw [hc] at k4; cases k4
      · rcases k3 with ⟨_, k3⟩ | ⟨t2, k4, _⟩
        · exact k3 t' hc
        · rw [hc] at k4; cases k4
      · rw [hc] at k3; cases k3.1
    cases hm : checkMultisig e t with
    | none => left; rw [hx, h342]; simp [hm]
    | some p =>
      obtain ⟨ok, t1⟩ := p
      cases ok
      · right
        refine ⟨UInt8.toNat_inj.1 h1, { t1 with stack := encodeBool false :: t1.stack }, ?_, rfl⟩
        rw [hx, h342]; simp [hm]
      · exact absurd hm (hnt t1)
  · by_cases h2 : op.code.toNat = 175
    · left
      rw [runOp_175 e i h2] at h
      have hx : execute e i op t = (if e.flags.bip342 then none else do let (ok, t) ← checkMultisig e t; if ok then return t else none) := by
        unfold execute; simp [h2]
      cases h342 : e.flags.bip342
      swap
      · rw [hx, h342]; rfl
      obtain ⟨r, s1, k1, _, k3⟩ := checkMultisig_ref e hops h342 (he.total h342) s t hr
      rw [k1] at h
      cases h
      rw [hx, h342]
      rcases k3 with ⟨_, k3⟩ | ⟨t2, k4, _⟩
      · cases hm : checkMultisig e t with
        | none => simp
        | some p =>
          obtain ⟨ok, t1⟩ := p
          cases ok
          · simp
          · exact absurd hm (k3 t1)
      · simp [k4]
    · exact absurd h (never_runOp e i op h1 h2 s s')

theorem runStep_decode {e : Env} (he : e.OK) (hops : ∀ o ∈ e.ops, o.Consistent) (i : Nat) (op : Op) (s s' : St (List Val)) (t : State)
    (hu : op.underflow = false) (hinv : isInvalid op.code = false)
    (hr : Rel e s t) (h : runStep e i op s = some (some .op_check_multisig_decode_signature, s')) :
    step e i op t = none ∨ (op.code = 174 ∧ ∀ t', step e i op t = some t' → t'.stack.head? = some []) := by
  obtain ⟨s1, h1, h2, h3, h4, h5, h6, h7⟩ := opsIncrement_ref (op := op) hr
  have hneg := neg_iff h2
  have hexec : (do if isConditional op.code then return true else isSuccess : M (List Val) Bool) s1 =
      some (((counted e op t).exec.all id || isConditional op.code), s1) := by
    cases hc : isConditional op.code
    · simp only [Bool.false_eq_true, if_false, Bool.or_false, ← hneg]; rfl
    · simp [hc]; rfl
  unfold runStep at h
  by_cases hlen : op.data.length > 520
  · rw [if_pos hlen] at h; cases h
  rw [if_neg hlen] at h
  simp only [mbind, h1, Option.bind_some] at h
  cases hn : (!e.flags.bip342 && decide ((counted e op t).nops > 201))
  swap
  · rw [hn] at h; cases h
  rw [hn] at h
  simp only [Bool.not_true, Bool.not_false, Bool.false_eq_true, if_false, mbind, hexec, Option.bind_some] at h
  cases hx : (counted e op t).exec.all id || isConditional op.code
  · rw [hx] at h; cases h
  rw [hx] at h
  simp only [if_true, mbind] at h
  have hx' : ((counted e op t).exec.all id || (99 ≤ op.code.toNat && op.code.toNat ≤ 104)) = true := by
    rw [← isConditional_iff _ hinv]; exact hx
  have hstep : step e i op t = if Spec.Script.disabled op.code.toNat = true then none else
      (execute e i op (counted e op t)).bind fun t' => if t'.stack.length + t'.alt.length > 1000 then none else some t' := by
    unfold step
    rw [hu]
    simp only [Bool.false_eq_true, if_false]
    rw [if_neg hlen, hn]
    simp only [Bool.false_eq_true, if_false]
    rw [hx']
    rfl
  cases hro : runOp e i op s1 with
  | none => rw [hro] at h; cases h
  | some p =>
    obtain ⟨r, s2⟩ := p
    rw [hro] at h
    simp only [Option.bind_some] at h
    match r with
    | none =>
      simp only [mbind, isStackOverflow, Option.bind_some] at h
      split at h <;> cases h
    | some err =>
      cases h
      rcases runOp_decode he hops i op s1 s' (counted e op t) h2 hro with k | ⟨k1, t2, k2, k3⟩
      · left; rw [hstep, k]; simp
      · right
        refine ⟨k1, fun t' ht => ?_⟩
        rw [hstep, k2] at ht
        simp only [Option.bind_some] at ht
        split_ifs at ht
        cases ht
        exact k3

theorem runLoop_decode {e : Env} (he : e.OK) (hops : ∀ o ∈ e.ops, o.Consistent) :
    ∀ (ops : List Op) (i : Nat) (s s' : St (List Val)) (t t' : State), (∀ o ∈ ops, o.Consistent) → (∀ o ∈ ops, isInvalid o.code = false) →
      LastMultisig ops → RunRel e s t → runLoop e i ops s = some (some .op_check_multisig_decode_signature, s') →
      steps e i ops t = some t' → ¬ NoMultisig ops ∧ t'.stack.head? = some []
  | [], i, s, s', t, t', _, _, _, hr, h, _ => by cases h
  | op :: ops, i, s, s', t, t', hc, hi, hl, hr, h, ht => by
    obtain ⟨r, s1, h1, h2⟩ := runStep_refines he hops i op (hc op (by simp)) (hi op (by simp)) s t hr
    unfold runLoop at h
    simp only [mbind, h1, Option.bind_some] at h
    unfold steps at ht
    match r, h2 with
    | none, ⟨t1, h3, h4, _⟩ =>
      simp only [h3, Option.bind_eq_bind, Option.bind_some] at ht
      have hl' : LastMultisig ops := by
        cases ops with
        | nil => intro o ho; cases ho
        | cons a as => exact fun o ho => hl o (by rw [List.dropLast_cons_of_ne_nil (by simp)]; exact .tail _ ho)
      obtain ⟨k1, k2⟩ := runLoop_decode he hops ops (i + 1) s1 s' t1 t' (fun o ho => hc o (by simp [ho])) (fun o ho => hi o (by simp [ho])) hl' h4 h ht
      exact ⟨fun hn => k1 fun o ho => hn o (.tail _ ho), k2⟩
    | some err, _ =>
      cases h
      rcases runStep_decode he hops i op s s' t (hc op (by simp)).notUnder (hi op (by simp)) hr.toRel h1 with k | ⟨k1, k2⟩
      · rw [k] at ht; cases ht
      · cases ops with
        | cons a as =>
          exact absurd k1 (hl op (by rw [List.dropLast_cons_of_ne_nil (by simp)]; exact .head _))
        | nil =>
          refine ⟨fun hn => hn op (.head _) k1, ?_⟩
          cases hs : step e i op t with
          | none => rw [hs] at ht; cases ht
          | some t2 =>
            rw [hs] at ht
            cases ht
            exact k2 _ hs

/-- If CHECKMULTISIG occurs at most at the end of a script, the decoding error means that the reference interpreter fails or
leaves false. -/
theorem run_decode {e : Env} (he : e.OK) (hops : OpsOK e.ops) (s s' : St (List Val)) (t t' : State)
    (hr : Rel e s t) (hx : t.exec.all id = true) (hl : LastMultisig e.ops)
    (h : run e s = some (some .op_check_multisig_decode_signature, s')) (ht : eval e t = .done t') :
    ¬ NoMultisig e.ops ∧ t'.stack.head? = some [] := by
  have hst : steps e 0 e.ops t = some t' := by
    unfold eval at ht
    split_ifs at ht
    all_goals (
      split at ht
      · cases ht
      · split_ifs at ht
        cases ht
        assumption)
  have hinv : ∀ o ∈ e.ops, isInvalid o.code = false := by
    intro o ho
    by_contra hc
    rw [steps_invalid _ _ _ o ho (.inr (by simpa using hc))] at hst
    cases hst
  have hcons : ∀ o ∈ e.ops, o.Consistent := by
    rcases hops.cases with h | ⟨l, h1, h2, h3⟩
    · exact h
    · rw [steps_invalid _ _ _ l (List.mem_of_getLast? h1) (.inl h2)] at hst
      cases hst
  have hinit : Never (initProgram e : M (List Val) Res) := by unfold initProgram; never
  unfold run at h
  simp only [mbind] at h
  cases hi : initProgram e s with
  | none => rw [hi] at h; cases h
  | some p =>
    obtain ⟨r, s1⟩ := p
    rw [hi] at h
    simp only [Option.bind_some] at h
    match r, hi with
    | some err, hi => cases h; exact absurd hi (hinit _ _)
    | none, hi =>
      have hs1 : s1 = s := by
        have hst : ∀ b s2, (do if e.flags.bip342 then isStackOverflow else return false : M (List Val) Bool) s = some (b, s2) → s2 = s := by
          intro b s2 hb
          cases hc : e.flags.bip342
          · rw [hc] at hb; cases hb; rfl
          · rw [hc] at hb; cases hb; rfl
        unfold initProgram at hi
        split at hi
        · cases hi
        split at hi
        · cases hi
        simp only [mbind] at hi
        cases hq : (do if e.flags.bip342 then isStackOverflow else return false : M (List Val) Bool) s with
        | none => rw [hq] at hi; cases hi
        | some q =>
          rw [hq] at hi
          have := hst q.1 q.2 hq
          simp only [Option.bind_some] at hi
          split_ifs at hi <;> cases hi <;> first | rfl | exact this
      subst hs1
      simp only [mbind] at h
      cases hlp : runLoop e 0 e.ops s1 with
      | none => rw [hlp] at h; cases h
      | some q =>
        obtain ⟨r2, s2⟩ := q
        rw [hlp] at h
        simp only [Option.bind_some] at h
        match r2, hlp with
        | some err, hlp =>
          cases h
          exact runLoop_decode he hcons e.ops 0 s1 s' t t' hcons hinv hl ⟨hr, .inl hx⟩ hlp hst
        | none, hlp =>
          simp only [mbind, isBalanced, Option.bind_some] at h
          split at h <;> cases h

end Verif
