import Verif.Lemmas.Machine9
/-!
# Script evaluation: C22, C23, C24, C50

`run e s` is the model of `interpreter::run`; the outer `none` is undefined behaviour, the inner `none` success.
`Verif.Spec.Script.eval` is the reference interpreter (Spec/Script.lean). All theorems quantify over every parseable
script (`OpsOK`, which C04 shows every byte string parses to), every flag set, every starting stack, and every
signature/hash oracle with the standard hash sizes (`Env.OK`).
-/
namespace Verif.Machine
open Verif Verif.Num Verif.Spec Verif.Spec.Script

/-- Starting states correspond. The code's budget is one more than the BIP342 budget. -/
theorem start_rel (e : Env) (st : List Val) (b : Nat) :
    Rel e (start st (b + 1)) (Spec.Script.start (st.map Val.toChunk) b) where
  stack := rfl
  alt := rfl
  cond := trivial
  neg := rfl
  nops := rfl
  sep := rfl
  budget := fun _ => by simp [start, Spec.Script.start]
  cache := fun _ h => by simp [start] at h

/-! ## An example environment -/

/-- Toy cryptography: DER is "not starting with 0xbb", a signature is valid for a key if they are equal. -/
def toyEnv (flags : Flags) (ops : List Op) : Env where
  flags := flags
  ops := ops
  witness := none
  segwit := false
  sequence := 0
  locktime := 0
  version := 2
  rmd160 := fun _ => List.replicate 20 0
  sha1 := fun _ => List.replicate 20 0
  sha256 := fun _ => List.replicate 32 0
  hash160 := fun _ => List.replicate 20 0
  hash256 := fun _ => List.replicate 32 0
  decodeSig := fun d _ => if d.head? = some 0xbb then none else some d
  sighash := fun _ _ => some []
  sighashTap := fun _ _ => some []
  verifyEcdsa := fun k _ s => decide (k = s)
  verifySchnorr := fun k _ s => decide (k = s)

theorem toyEnv_ok (f : Flags) (ops : List Op) : (toyEnv f ops).OK :=
  ⟨⟨fun _ => rfl, fun _ => rfl, fun _ => rfl, fun _ => rfl, fun _ => rfl⟩, fun _ _ _ => rfl⟩

def opc (c : UInt8) : Op := { code := c, data := [], underflow := false }
def pushOp (d : Bytes) : Op := { code := UInt8.ofNat d.length, data := d, underflow := false }

theorem opc_consistent (c : UInt8) (h : 79 ≤ c) : (opc c).Consistent :=
  ⟨rfl, by
    unfold SizeFits opc
    have : 79 ≤ c.toNat := UInt8.le_iff_toNat_le.1 h
    rw [if_neg (by rintro rfl; simp at this), if_neg (by rintro rfl; simp at this), if_neg (by rintro rfl; simp at this),
      if_neg (by rw [UInt8.le_iff_toNat_le]; simp; omega)]
    rfl, by simp [opc]⟩
theorem opsOK_of (ops : List Op) (h : ∀ o ∈ ops, o.Consistent) : OpsOK ops := by
  induction ops with
  | nil => exact .nil
  | cons o os ih => exact .cons o os (h o (by simp)) (ih fun x hx => h x (by simp [hx]))

/-- `1 2 IF ADD... `: 1 IF 2 3 ADD ELSE RETURN ENDIF -/
def exampleOps : List Op := [opc 81, opc 99, opc 82, opc 83, opc 147, opc 103, opc 106, opc 104]
theorem exampleOps_ok : OpsOK exampleOps := opsOK_of _ (by
  intro o ho
  simp only [exampleOps, List.mem_cons, List.not_mem_nil, or_false] at ho
  rcases ho with rfl | rfl | rfl | rfl | rfl | rfl | rfl | rfl <;> exact opc_consistent _ (by decide))

/-! ## C50 -/

/-- Soundness: when evaluation succeeds, the reference interpreter succeeds with the same stacks. -/
theorem C50_success_is_reference_success (e : Env) (he : e.OK) (hops : OpsOK e.ops) (hsz : (opsData e.ops).length < 2 ^ 64)
    (st : List Val) (b : Nat) (s' : St (List Val)) (h : run e (start st (b + 1)) = some (none, s')) :
    ∃ t', eval e (Spec.Script.start (st.map Val.toChunk) b) = .done t' ∧
      s'.primary.map Val.toChunk = t'.stack ∧ s'.alternate.map Val.toChunk = t'.alt := by
  obtain ⟨r, s1, h1, h2⟩ := run_refines he hops hsz _ _ (start_rel e st b) rfl rfl
  rw [h1] at h
  cases h
  obtain ⟨t', h3, h4, _⟩ := h2
  exact ⟨t', h3, h4.stack, h4.alt⟩

/-- Evaluation stops with "valid without execution" exactly when BIP342 says so. -/
theorem C50_prevalid_iff_reserved (e : Env) (he : e.OK) (hops : OpsOK e.ops) (hsz : (opsData e.ops).length < 2 ^ 64)
    (st : List Val) (b : Nat) :
    (∃ s', run e (start st (b + 1)) = some (some .prevalid_script, s')) ↔
      eval e (Spec.Script.start (st.map Val.toChunk) b) = .reserved := by
  obtain ⟨r, s1, h1, h2⟩ := run_refines he hops hsz _ _ (start_rel e st b) rfl rfl
  rw [h1]
  constructor
  · rintro ⟨s', h⟩; cases h; exact h2
  · intro h
    have hp : e.flags.bip342 = true ∧ isPrevalid e.ops = true := by
      unfold eval at h
      rw [← prevalid_iff hops] at h
      cases hp : e.flags.bip342 && isPrevalid e.ops
      · exfalso
        rw [hp] at h
        simp only [Bool.false_eq_true, if_false] at h
        split_ifs at h
        split at h
        · cases h
        · split_ifs at h
      · simpa using hp
    have : run e (start st (b + 1)) = some (some .prevalid_script, start st (b + 1)) := by
      unfold run initProgram
      simp only [hp.1, hp.2, Bool.and_self, if_true]
      rfl
    rw [h1] at this
    exact ⟨_, this⟩

/-- Completeness up to one difference: if the reference interpreter succeeds, so does the evaluation, unless it stops at a
multisig signature that does not decode under BIP66 (in a script that is not a tapscript). The full claim, without
the exception, is `C50_exact` for tapscripts and for scripts without BIP66, and false otherwise
(`C50_multisig_counterexample`). -/
theorem C50_reference_success_partial (e : Env) (he : e.OK) (hops : OpsOK e.ops) (hsz : (opsData e.ops).length < 2 ^ 64)
    (st : List Val) (b : Nat) (t' : State) (h : eval e (Spec.Script.start (st.map Val.toChunk) b) = .done t') :
    (∃ s', run e (start st (b + 1)) = some (none, s') ∧
      s'.primary.map Val.toChunk = t'.stack ∧ s'.alternate.map Val.toChunk = t'.alt) ∨
    (∃ s', run e (start st (b + 1)) = some (some .op_check_multisig_decode_signature, s') ∧
      e.flags.bip66 = true ∧ e.flags.bip342 = false) := by
  obtain ⟨r, s1, h1, h2⟩ := run_refines he hops hsz _ _ (start_rel e st b) rfl rfl
  rw [h1]
  match r, h2 with
  | none, ⟨t1, h3, h4, _⟩ =>
    rw [h] at h3; cases h3
    exact .inl ⟨s1, rfl, h4.stack, h4.alt⟩
  | some err, h2 =>
    right
    have : eval e (Spec.Script.start (st.map Val.toChunk) b) = .reserved ∨
        eval e (Spec.Script.start (st.map Val.toChunk) b) = .fail ∨ Excused e err := by
      cases err <;> first | exact .inl h2 | exact .inr h2
    rcases this with h3 | h3 | h3
    · rw [h] at h3; cases h3
    · rw [h] at h3; cases h3
    · obtain ⟨rfl, h4, h5⟩ := h3
      exact ⟨s1, rfl, h4, h5⟩

/-- The evaluation and the reference interpreter have the same outcome. -/
theorem C50_exact (e : Env) (he : e.OK) (hops : OpsOK e.ops) (hsz : (opsData e.ops).length < 2 ^ 64)
    (hf : e.flags.bip342 = true ∨ e.flags.bip66 = false) (st : List Val) (b : Nat) :
    match run e (start st (b + 1)) with
    | none => False
    | some (none, s') => ∃ t', eval e (Spec.Script.start (st.map Val.toChunk) b) = .done t' ∧
        s'.primary.map Val.toChunk = t'.stack ∧ s'.alternate.map Val.toChunk = t'.alt
    | some (some .prevalid_script, _) => eval e (Spec.Script.start (st.map Val.toChunk) b) = .reserved
    | some (some _, _) => eval e (Spec.Script.start (st.map Val.toChunk) b) = .fail := by
  obtain ⟨r, s1, h1, h2⟩ := run_refines he hops hsz _ _ (start_rel e st b) rfl rfl
  rw [h1]
  match r, h2 with
  | none, ⟨t1, h3, h4, _⟩ => exact ⟨t1, h3, h4.stack, h4.alt⟩
  | some err, h2 =>
    have hx : ¬ Excused e err := by
      rintro ⟨_, h4, h5⟩
      rcases hf with hf | hf
      · rw [hf] at h5; cases h5
      · rw [hf] at h4; cases h4
    cases err <;> first | exact h2 | (rcases h2 with h2 | h2; exact h2; exact absurd h2 hx)

/-- Non-vacuity, and the two interpreters agree on an example with a boolean, an integer and a branch. -/
example : (run (toyEnv {} exampleOps) (start ([] : List Val) 1)).map (fun p => (p.1, p.2.primary)) = some (none, [.int 5]) ∧
    eval (toyEnv {} exampleOps) (Spec.Script.start [] 0) = .done { stack := [[5]], nops := 5 } := by
  constructor <;> decide +kernel

/-- 0 <x> <bad> <a> 3 <c> <b> <a'> 3 CHECKMULTISIG NOT, where the signature on top does not match the key on top, so that
no assignment can succeed, but matches the next, which makes the code look at <bad>. -/
def multisigOps : List Op :=
  [opc 0, pushOp [7, 1], pushOp [0xbb, 1], pushOp [2, 1], opc 83, pushOp [3], pushOp [2], pushOp [1], opc 83, opc 174, opc 145]

theorem multisigOps_ok : OpsOK multisigOps := opsOK_of _ (by
  intro o ho
  have : o.underflow = false ∧ o.data.length ≤ maxBytes ∧ SizeFits o.code o.data.length := by
    simp only [multisigOps, List.mem_cons, List.not_mem_nil, or_false] at ho
    rcases ho with rfl | rfl | rfl | rfl | rfl | rfl | rfl | rfl | rfl | rfl | rfl <;> simp [opc, pushOp, SizeFits, maxBytes, maxBlockWeight, maxBlockSize]
  exact ⟨this.1, this.2.2, this.2.1⟩)

/-- The completeness claim is false with BIP66: the reference interpreter stops matching when there are more signatures
than keys left, so the multisig above is false and its negation true; the code goes on to a signature that is not DER and
fails the script (interpreter.ipp:1168-1195). -/
theorem C50_multisig_counterexample :
    let e := toyEnv { bip66 := true } multisigOps
    e.OK ∧ OpsOK e.ops ∧
    eval e (Spec.Script.start [] 0) = .done { stack := [[1]], nops := 5 } ∧
    (run e (start ([] : List Val) 1)).map (·.1) = some (some .op_check_multisig_decode_signature) := by
  refine ⟨toyEnv_ok _ _, multisigOps_ok, ?_, ?_⟩
  · decide +kernel
  · decide +kernel

/-! ## C22 -/

/-- No script makes the interpreter touch a missing stack element, alternate element, condition or cached hash, in any
lawful stack container (both containers of the library are: C24). -/
theorem C22_no_undefined_access {S : Type} [StackImpl S] (φ : S → List Val) (hφ : Lawful φ) (e : Env) (he : e.OK)
    (hops : OpsOK e.ops) (hsz : (opsData e.ops).length < 2 ^ 64) (st : S) (b : Nat) :
    ∃ r s', run e (start st (b + 1)) = some (r, s') := by
  obtain ⟨r, s1, h1, _⟩ := run_refines he hops hsz _ _ (start_rel e (φ st) b) rfl rfl
  have := run_hom hφ e (start st (b + 1))
  rw [show (start st (b + 1)).map φ = start (φ st) (b + 1) from rfl, h1] at this
  cases hr : run e (start st (b + 1)) with
  | none => rw [hr] at this; cases this
  | some p => exact ⟨p.1, p.2, rfl⟩

/-- After every successfully evaluated prefix of the script: at most 1000 elements on the two stacks, at most 201 counted
operations outside tapscript, every element at most 520 bytes and every integer element well within int64_t. -/
theorem C22_limits (e : Env) (he : e.OK) (hcons : ∀ o ∈ e.ops, o.Consistent) (hinv : ∀ o ∈ e.ops, isInvalid o.code = false)
    (st : List Val) (hst : ∀ v ∈ st, Small v) (hlen : st.length ≤ 2 ^ 62) (b : Nat)
    (p : List Op) (hp : p <+: e.ops) (hne : p ≠ []) (s' : St (List Val)) (h : runLoop e 0 p (start st (b + 1)) = some (none, s')) :
    s'.primary.length + s'.alternate.length ≤ 1000 ∧
    (e.flags.bip342 = false → s'.operations ≤ 201) ∧
    (∀ v ∈ s'.primary ++ s'.alternate, v.toChunk.length ≤ 520 ∧ ∀ i, v = .int i → -2 ^ 62 ≤ i ∧ i ≤ 2 ^ 62) ∧
    s'.negative = s'.condition.count false := by
  obtain ⟨r, s1, h1, h2⟩ := runLoop_refines he hcons p 0 _ _ (fun o ho => hcons o (hp.subset ho)) (fun o ho => hinv o (hp.subset ho))
    ⟨start_rel e st b, .inl rfl⟩
  rw [h1] at h
  cases h
  obtain ⟨t', h3, h4, h5⟩ := h2
  obtain ⟨_, h6⟩ := steps_frame p 0 _ _ h3
  obtain ⟨h7, h8⟩ := h6 hne
  have hl := h4.toRel.lengths
  have hw := h5 ⟨by simpa [start] using hst, hlen⟩
  refine ⟨by omega, fun hb => by rw [h4.nops]; exact h7 hb, fun v hv => ⟨(hw.1 v hv).length, ?_⟩, h4.neg⟩
  rintro i rfl
  exact hw.1 _ hv

/-- What program::initialize decides. -/
def initVerdict (e : Env) (n : Nat) : Res :=
  if e.flags.bip342 && isPrevalid e.ops then some .prevalid_script
  else if isScriptUnderflow e.ops then some .invalid_script
  else if e.flags.bip342 && decide (n > 1000) then some .invalid_stack_size
  else if (e.flags.bip342 || e.flags.bip141) && witnessOversized e.witness then some .invalid_witness_stack
  else if !e.flags.bip342 && decide (opsSize e.ops > 10000) then some .invalid_script_size
  else if isPrefail e.ops then some .prefail_script
  else none

theorem initProgram_eq (e : Env) (s : St (List Val)) :
    initProgram e s = some (initVerdict e (s.primary.length + s.alternate.length), s) := by
  unfold initProgram initVerdict
  cases e.flags.bip342 && isPrevalid e.ops <;> [skip; rfl]
  cases isScriptUnderflow e.ops <;> [skip; rfl]
  have hov : (do if e.flags.bip342 then isStackOverflow else return false : M (List Val) Bool) s =
      some (e.flags.bip342 && decide (s.primary.length + s.alternate.length > 1000), s) := by
    cases hc : e.flags.bip342 <;> rfl
  simp only [Bool.false_eq_true, if_false, mbind, hov, Option.bind_some]
  cases e.flags.bip342 && decide (s.primary.length + s.alternate.length > 1000) <;> [skip; rfl]
  cases (e.flags.bip342 || e.flags.bip141) && witnessOversized e.witness <;> [skip; rfl]
  cases !e.flags.bip342 && decide (opsSize e.ops > 10000) <;> [skip; rfl]
  cases isPrefail e.ops <;> rfl

theorem consistent_of_complete {ops : List Op} (hops : OpsOK ops) (hu : isScriptUnderflow ops = false) : ∀ o ∈ ops, o.Consistent := by
  rcases hops.cases with h | ⟨l, h1, h2, h3⟩
  · exact h
  · exfalso
    have : isScriptUnderflow ops = true := by
      unfold isScriptUnderflow isPrefail
      simp only [Bool.and_eq_true, List.any_eq_true]
      exact ⟨⟨l, List.mem_of_getLast? h1, by rw [h3]; exact anyInvalid_invalid⟩, by simp [h1, h2]⟩
    rw [hu] at this; cases this

/-- A successful script has passed the checks that `C22_limits` assumes, and its loop ran to the end. -/
theorem C22_checked_before_run (e : Env) (hops : OpsOK e.ops) (st : List Val) (b : Nat) (s' : St (List Val))
    (h : run e (start st (b + 1)) = some (none, s')) :
    (∀ o ∈ e.ops, o.Consistent) ∧ (∀ o ∈ e.ops, isInvalid o.code = false) ∧
    runLoop e 0 e.ops (start st (b + 1)) = some (none, s') ∧ s'.condition = [] := by
  unfold run at h
  simp only [mbind, initProgram_eq, Option.bind_some] at h
  have hv : initVerdict e ((start st (b + 1)).primary.length + (start st (b + 1)).alternate.length) = none := by
    cases hi : initVerdict e ((start st (b + 1)).primary.length + (start st (b + 1)).alternate.length) with
    | none => rfl
    | some err => rw [hi] at h; cases h
  rw [hv] at h
  simp only [mbind] at h
  cases hl : runLoop e 0 e.ops (start st (b + 1)) with
  | none => rw [hl] at h; cases h
  | some p =>
    obtain ⟨r, s1⟩ := p
    rw [hl] at h
    simp only [Option.bind_some] at h
    cases r with
    | some err => cases h
    | none =>
      simp only [mbind, isBalanced, Option.bind_some] at h
      cases hc : s1.condition.isEmpty
      · rw [hc] at h; cases h
      · rw [hc] at h
        cases h
        unfold initVerdict at hv
        split_ifs at hv with a1 a2 a3 a4 a5 a6
        refine ⟨consistent_of_complete hops (by simpa using a2), ?_, rfl, List.isEmpty_iff.1 hc⟩
        intro o ho
        simpa using List.any_eq_false.1 (by simpa using a6 : isPrefail e.ops = false) o ho

/-- Non-vacuity: the example script succeeds, and the hypotheses hold for it. -/
example : (toyEnv {} exampleOps).OK ∧ OpsOK exampleOps ∧ (∃ s', run (toyEnv {} exampleOps) (start ([] : List Val) 1) = some (none, s')) := by
  refine ⟨toyEnv_ok _ _, exampleOps_ok, ?_⟩
  have h : (run (toyEnv {} exampleOps) (start ([] : List Val) 1)).map (·.1) = some none := by decide +kernel
  cases hr : run (toyEnv {} exampleOps) (start ([] : List Val) 1) with
  | none => rw [hr] at h; cases h
  | some p => obtain ⟨r, s⟩ := p; rw [hr] at h; cases h; exact ⟨s, rfl⟩

/-- The limits are reached: with 1001 elements the same evaluation fails. -/
example : (run (toyEnv {} (List.replicate 1000 (opc 81))) (start ([] : List Val) 1)).map (·.1) = some none ∧
    (run (toyEnv {} (List.replicate 1001 (opc 81))) (start ([] : List Val) 1)).map (·.1) = some (some .invalid_stack_size) := by
  constructor <;> decide +kernel

/-! ## C23 -/

/-- A script succeeds only if its IF/NOTIF/ELSE/ENDIF are balanced (`depth` counts brackets). -/
theorem C23_success_is_balanced (e : Env) (he : e.OK) (hops : OpsOK e.ops)
    (st : List Val) (b : Nat) (s' : St (List Val)) (h : run e (start st (b + 1)) = some (none, s')) :
    depth e.ops 0 = some 0 := by
  obtain ⟨hc, hi, hl, hb⟩ := C22_checked_before_run e hops st b s' h
  obtain ⟨r, s1, h1, h2⟩ := runLoop_refines he hc e.ops 0 _ _ hc hi ⟨start_rel e st b, .inl rfl⟩
  rw [h1] at hl
  cases hl
  obtain ⟨t', h3, h4, _⟩ := h2
  have hd := (steps_frame e.ops 0 _ _ h3).1
  have : t'.exec = [] := by
    have := h4.cond
    rw [hb] at this
    cases hx : t'.exec with
    | nil => rfl
    | cons a as => rw [hx] at this; exact this.elim
  rw [this] at hd
  exact hd

/-- While any enclosing condition is false, an operation other than IF/NOTIF/ELSE/ENDIF changes nothing but the operation
count (or fails a limit). `s` is the state after any evaluated prefix `p`. -/
theorem C23_untaken_branch_has_no_effect (e : Env) (he : e.OK) (hcons : ∀ o ∈ e.ops, o.Consistent)
    (hinv : ∀ o ∈ e.ops, isInvalid o.code = false) (st : List Val) (b : Nat)
    (p : List Op) (hp : p <+: e.ops) (s : St (List Val)) (h : runLoop e 0 p (start st (b + 1)) = some (none, s))
    (hfalse : false ∈ s.condition) (i : Nat) (op : Op)
    (hop : op.code.toNat ≠ 99 ∧ op.code.toNat ≠ 100 ∧ op.code.toNat ≠ 103 ∧ op.code.toNat ≠ 104)
    (r : Res) (s' : St (List Val)) (hs : runStep e i op s = some (r, s')) :
    { s' with operations := s.operations } = s := by
  obtain ⟨r0, s1, h1, h2⟩ := runLoop_refines he hcons p 0 _ _ (fun o ho => hcons o (hp.subset ho)) (fun o ho => hinv o (hp.subset ho))
    ⟨start_rel e st b, .inl rfl⟩
  rw [h1] at h
  cases h
  obtain ⟨t', h3, h4, _⟩ := h2
  have hneg : (s.negative == 0) = false := by
    rw [h4.neg, beq_eq_false_iff_ne]
    intro h0
    have : s.condition.count false = 0 := by exact_mod_cast h0
    exact List.count_eq_zero.1 this hfalse
  have hcd : isConditional op.code = false := by
    rw [Bool.eq_false_iff]
    unfold isConditional
    simp only [ne_eq, decide_eq_true_eq, List.mem_cons, List.not_mem_nil, or_false, ← UInt8.toNat_inj, UInt8.reduceToNat]
    omega
  unfold runStep at hs
  split at hs
  · cases hs; rfl
  obtain ⟨bv, n, hi⟩ : ∃ bv n, opsIncrementOp e op s = some (bv, { s with operations := n }) := by
    unfold opsIncrementOp
    cases e.flags.bip342
    · exact ⟨_, _, rfl⟩
    · exact ⟨true, s.operations, rfl⟩
  have hsc : isSuccess { s with operations := n } = some (false, { s with operations := n }) := by
    show some (s.negative == 0, _) = _
    rw [hneg]
  simp only [mbind, hi, Option.bind_some, hcd, Bool.false_eq_true, if_false] at hs
  cases bv
  · cases hs; rfl
  · simp only [Bool.not_true, Bool.false_eq_true, if_false, mbind, hsc, Option.bind_some] at hs
    cases hs; rfl

/-- Non-vacuity: after `0 IF` the next operation is skipped (RETURN would fail). -/
example : ∃ s, runLoop (toyEnv {} [opc 0, opc 99, opc 106, opc 104]) 0 [opc 0, opc 99] (start ([] : List Val) 1) = some (none, s) ∧
    false ∈ s.condition ∧ (run (toyEnv {} [opc 0, opc 99, opc 106, opc 104]) (start ([] : List Val) 1)).map (·.1) = some none := by
  refine ⟨_, rfl, by decide, by decide +kernel⟩

/-! ## C24 -/

/-- The vector-backed and the list-backed stack give the same result, error code included, and the same final stacks, for
every script (also unparseable ones), flags, and starting stack. -/
theorem C24_stack_containers_agree (e : Env) (vs : VecStack) (ls : LinkStack) (hsame : vs.list = ls.list) (b : Nat) :
    (run e (start vs b)).map (fun (r, s) => (r, s.primary.list, s.alternate, s.condition, s.operations, s.budget, s.offset)) =
    (run e (start ls b)).map (fun (r, s) => (r, s.primary.list, s.alternate, s.condition, s.operations, s.budget, s.offset)) := by
  have h1 := run_hom vec_lawful e (start vs b)
  have h2 := run_hom link_lawful e (start ls b)
  rw [show (start vs b).map VecStack.list = start vs.list b from rfl] at h1
  rw [show (start ls b).map LinkStack.list = start ls.list b from rfl, ← hsame, h1] at h2
  have := congrArg (Option.map fun p : Res × St (List Val) =>
    (p.1, p.2.primary, p.2.alternate, p.2.condition, p.2.operations, p.2.budget, p.2.offset)) h2
  simpa [Option.map_map, Function.comp_def, St.map] using this

/-- Also for the final truth test. -/
theorem C24_result_test_agrees (vs : St VecStack) (ls : St LinkStack) (clean : Bool) (hsame : vs.map VecStack.list = ls.map LinkStack.list) :
    (isTrue clean vs).map (·.1) = (isTrue clean ls).map (·.1) := by
  have h1 := isTrue_hom vec_lawful clean vs
  have h2 := isTrue_hom link_lawful clean ls
  rw [← hsame, h1] at h2
  have := congrArg (Option.map fun p : Bool × St (List Val) => p.1) h2
  simpa [Option.map_map, Function.comp_def] using this

/-- Non-vacuity: OP_ROLL on both containers. -/
example : (run (toyEnv {} [opc 81, opc 82, opc 83, opc 82, opc 122]) (start (VecStack.mk #[]) 1)).map (fun p => (p.1, p.2.primary.list)) =
    some (none, [.int 1, .int 3, .int 2]) ∧
  (run (toyEnv {} [opc 81, opc 82, opc 83, opc 82, opc 122]) (start (LinkStack.mk []) 1)).map (fun p => (p.1, p.2.primary.list)) =
    some (none, [.int 1, .int 3, .int 2]) := by
  constructor <;> decide +kernel

/-- Both containers are lawful, so C22 applies to them. -/
theorem C22_no_undefined_access_in_library_containers (e : Env) (he : e.OK)
    (hops : OpsOK e.ops) (hsz : (opsData e.ops).length < 2 ^ 64) (vs : VecStack) (ls : LinkStack) (b : Nat) :
    (run e (start vs (b + 1))).isSome = true ∧ (run e (start ls (b + 1))).isSome = true := by
  constructor
  · obtain ⟨r, s, h⟩ := C22_no_undefined_access _ vec_lawful e he hops hsz vs b; rw [h]; rfl
  · obtain ⟨r, s, h⟩ := C22_no_undefined_access _ link_lawful e he hops hsz ls b; rw [h]; rfl

end Verif.Machine
