import Verif.Model.Capture
import Verif.Lemmas.Machine8
import Verif.Props.Patterns
/-! Capture of schnorr signatures: a program under BIP342 that captures does, operation by operation, what the program that verifies
inline does if the captured rows verify, and the latter stops at the first that does not. -/
namespace Verif.Capture
open Verif Verif.Machine Verif.Spec.Script

/-- The result of a handler that captured `cap`. -/
def attach {α : Type} (cap : Cap) (o : Option (α × St (List Val))) : Option (α × St (List Val) × Cap) :=
  o.map fun r => (r.1, r.2, cap)

/-- The environment in which every schnorr signature is taken for good. -/
def trust (e : Env) : Env := { e with verifySchnorr := fun _ _ _ => true }

/-- The row verifies. -/
def goodRow (e : Env) (r : Bytes × Bytes × Bytes) : Bool := e.verifySchnorr r.2.1 r.1 r.2.2

/-- The handler stops with the error `b`. -/
def Stops (b : Err) (o : Option (Res × St (List Val))) : Prop := ∃ s, o = some (some b, s)

/-- The handler `mc`, that captures, against `f`: it captures nothing and does the same, or captures a row and does what `f` would do if
the row were good, where `f` stops with the error `b` if it is not. -/
def Sim (e : Env) (b : Err) (f : Env → M (List Val) Res) (mc : MC Res) : Prop :=
  ∀ s cap, ∃ cap' : Cap, cap'.log = cap.log ∧
    ((cap'.rows = cap.rows ∧ mc (s, cap) = attach cap' (f e s)) ∨
     ∃ row, cap'.rows = cap.rows ++ [row] ∧ mc (s, cap) = attach cap' (f (trust e) s) ∧
       (goodRow e row = true → f e s = f (trust e) s) ∧ (goodRow e row = false → Stops b (f e s)))

theorem Sim.lift {e : Env} {b : Err} {f : Env → M (List Val) Res} : Sim e b f (lift (f e)) := fun _ cap =>
  ⟨cap, rfl, .inl ⟨rfl, rfl⟩⟩

theorem Sim.pure {e : Env} {b : Err} {r : Res} : Sim e b (fun _ => pure r) (pure r) := fun _ cap =>
  ⟨cap, rfl, .inl ⟨rfl, rfl⟩⟩

theorem Sim.yes {e : Env} {b : Err} {P : Env → Prop} [∀ e, Decidable (P e)] {f g : Env → M (List Val) Res} {Q : Prop} [Decidable Q]
    {mc mc' : MC Res} (h1 : P e) (h2 : P (trust e)) (h3 : Q) (h : Sim e b f mc) :
    Sim e b (fun e => if P e then f e else g e) (if Q then mc else mc') := by
  intro s cap
  dsimp only
  rw [if_pos h1, if_pos h2, if_pos h3]
  exact h s cap

theorem Sim.no {e : Env} {b : Err} {P : Env → Prop} [∀ e, Decidable (P e)] {f g : Env → M (List Val) Res} {Q : Prop} [Decidable Q]
    {mc mc' : MC Res} (h1 : ¬ P e) (h2 : ¬ P (trust e)) (h3 : ¬ Q) (h : Sim e b g mc') :
    Sim e b (fun e => if P e then f e else g e) (if Q then mc else mc') := by
  intro s cap
  dsimp only
  rw [if_neg h1, if_neg h2, if_neg h3]
  exact h s cap

theorem bind_eq {α β : Type} (x : MC α) (g : α → MC β) (s : St (List Val) × Cap) : (x >>= g) s = (x s).bind fun r => g r.1 r.2 := rfl

theorem Sim.bind {α : Type} {e : Env} {b : Err} {x : Env → M (List Val) α} {g : Env → α → M (List Val) Res} {gc : α → MC Res}
    (hx : x (trust e) = x e) (h : ∀ a, Sim e b (fun e => g e a) (gc a)) : Sim e b (fun e => x e >>= g e) (Capture.lift (x e) >>= gc) := by
  intro s cap
  simp only [bind_eq, mbind, Capture.lift, hx]
  cases hs : x e s with
  | none => exact ⟨cap, rfl, .inl ⟨rfl, rfl⟩⟩
  | some r => exact h r.1 r.2 cap

theorem Sim.then {e : Env} {b b' : Err} {f : Env → M (List Val) Res} {mc : MC Res} {g : Env → Res → M (List Val) Res} {gc : Res → MC Res}
    (h : Sim e b f mc) (hg : g (trust e) = g e) (hgc : ∀ r, gc r = Capture.lift (g e r)) (hb : ∀ s, Stops b' (g e (some b) s)) :
    Sim e b' (fun e => f e >>= g e) (mc >>= gc) := by
  intro s cap
  obtain ⟨cap', h1, h2⟩ := h s cap
  refine ⟨cap', h1, ?_⟩
  have aux : ∀ o : Option (Res × St (List Val)), ((attach cap' o).bind fun r => gc r.1 r.2) = attach cap' (o.bind fun r => g e r.1 r.2) := by
    intro o
    cases o with
    | none => rfl
    | some r => simp only [attach, Option.map_some, Option.bind_some, hgc]; rfl
  simp only [bind_eq, mbind]
  rcases h2 with ⟨h2, h3⟩ | ⟨row, h2, h3, h4, h5⟩
  · left
    exact ⟨h2, by rw [h3, aux]⟩
  · right
    refine ⟨row, h2, by rw [h3, aux, hg], ?_, ?_⟩
    · intro hr; rw [h4 hr, hg]
    · intro hr
      obtain ⟨s', h6⟩ := h5 hr
      rw [h6]
      exact hb s'

/-! ## The threshold -/

theorem extractThreshold_some (ops : List Op) : ∃ x, extractThreshold ops = some x := by
  obtain ⟨m, hm, -⟩ := Pattern.C64_tapscript_multisig ops
  obtain ⟨t, ht, hti⟩ := Pattern.C64_tapscript_threshold ops
  unfold extractThreshold
  rw [hm]
  cases m with
  | true => exact ⟨_, rfl⟩
  | false =>
    rw [ht]
    cases t with
    | false => exact ⟨_, rfl⟩
    | true =>
      obtain ⟨k, s, body, e, he, -, -, -, hs⟩ := hti.1 rfl
      have hlen : 4 ≤ ops.length ∧ ((∃ c ∈ ops.getLast?, c.code = 165) → 5 ≤ ops.length) := by
        rcases hs with ⟨n, t, rfl, -, hc⟩ | ⟨n, o, t, rfl, -⟩
        · refine ⟨by rw [he]; simp, ?_⟩
          rintro ⟨c, hc1, hc2⟩
          exfalso
          have : c = t := by
            rw [he] at hc1
            have e2 : k :: s :: (body ++ [n, t]) = (k :: s :: (body ++ [n])) ++ [t] := by simp
            rw [e2, List.getLast?_concat] at hc1
            exact (Option.some.inj hc1).symm
          subst this
          rw [hc2] at hc
          exact absurd hc (by unfold Pattern.Comparison; decide)
        · refine ⟨by rw [he]; simp, fun _ => by rw [he]; simp⟩
      obtain ⟨hl4, hl5⟩ := hlen
      have h2 : ∃ x, ops[ops.length - 2]? = some x := ⟨_, List.getElem?_eq_getElem (by omega)⟩
      obtain ⟨x, hx⟩ := h2
      have h3 : ∃ l, ops.getLast? = some l := by
        cases hl : ops.getLast? with
        | none => simp at hl; subst hl; simp at hl4
        | some l => exact ⟨l, rfl⟩
      obtain ⟨l, hl⟩ := h3
      simp only [bind, Option.bind, hx, hl]
      cases Pattern.asUnsigned32 x with
      | none => exact ⟨_, rfl⟩
      | some v =>
        dsimp only
        by_cases hc : l.code = 165
        · have := hl5 ⟨l, hl, hc⟩
          have h4 : ∃ y, ops[ops.length - 3]? = some y := ⟨_, List.getElem?_eq_getElem (by omega)⟩
          obtain ⟨y, hy⟩ := h4
          rw [hy]
          dsimp only [Option.bind_eq_bind, Option.bind_some]
          rw [if_pos trivial]
          have hc' : ¬ (l.code ≠ 165) := fun h => h hc
          cases Pattern.asUnsigned32 y with
          | none => rw [if_neg hc']; exact ⟨_, rfl⟩
          | some w => rw [if_neg hc']; exact ⟨_, rfl⟩
        · rw [if_pos hc]
          exact ⟨_, rfl⟩

theorem thresholdBatchable_cases (c : Ctx) (s : St (List Val)) (cap : Cap) :
    ∃ b cap', thresholdBatchable c (s, cap) = some (b, s, cap') ∧ cap'.log = cap.log ∧ cap'.rows = cap.rows := by
  unfold thresholdBatchable
  dsimp only
  split
  · exact ⟨_, _, rfl, rfl, rfl⟩
  · split
    · exact ⟨_, _, rfl, rfl, rfl⟩
    · obtain ⟨⟨a, b, d⟩, hx⟩ := extractThreshold_some c.env.ops
      rw [hx]
      dsimp only
      split
      · exact ⟨_, _, rfl, rfl, rfl⟩
      · exact ⟨_, _, rfl, rfl, rfl⟩

/-- A check is inline, or captures and is true. -/
theorem verifySchnorr_cases (c : Ctx) (p h sg : Bytes) (s : St (List Val)) (cap : Cap) :
    ∃ cap' : Cap, cap'.log = cap.log ∧
      ((cap'.rows = cap.rows ∧ verifySchnorr c p h sg (s, cap) = some (c.env.verifySchnorr p h sg, s, cap')) ∨
       (cap'.rows = cap.rows ++ [(h, p, sg)] ∧ verifySchnorr c p h sg (s, cap) = some (true, s, cap'))) := by
  unfold verifySchnorr
  split
  · obtain ⟨b, cap1, h1, h2, h3⟩ := thresholdBatchable_cases c s cap
    simp only [bind_eq, h1, Option.bind_some]
    cases b with
    | true =>
      refine ⟨_, ?_, .inr ⟨?_, rfl⟩⟩
      · exact h2
      · show cap1.rows ++ _ = _; rw [h3]
    | false =>
      rw [if_neg (by simp)]
      split
      · refine ⟨_, ?_, .inr ⟨?_, rfl⟩⟩
        · exact h2
        · show cap1.rows ++ _ = _; rw [h3]
      · exact ⟨cap1, h2, .inl ⟨h3, rfl⟩⟩
  · exact ⟨cap, rfl, .inl ⟨rfl, rfl⟩⟩

/-- The check, and what follows of it. -/
theorem Sim.check {c : Ctx} {b : Err} {p h sg : Bytes} :
    Sim c.env b (fun e => if e.verifySchnorr p h sg then Pure.pure none else Pure.pure (some b))
      (verifySchnorr c p h sg >>= fun r => if r then Pure.pure none else Pure.pure (some b)) := by
  intro s cap
  obtain ⟨cap', h1, h2⟩ := verifySchnorr_cases c p h sg s cap
  refine ⟨cap', h1, ?_⟩
  rcases h2 with ⟨h2, h3⟩ | ⟨h2, h3⟩
  · left
    refine ⟨h2, ?_⟩
    rw [bind_eq, h3]
    simp only [Option.bind_some]
    cases c.env.verifySchnorr p h sg <;> rfl
  · right
    refine ⟨_, h2, ?_, ?_, ?_⟩
    · rw [bind_eq, h3]; rfl
    · intro hg
      have : c.env.verifySchnorr p h sg = true := hg
      dsimp only; rw [this]; rfl
    · intro hg
      have : c.env.verifySchnorr p h sg = false := hg
      dsimp only; rw [this]
      exact ⟨s, rfl⟩

theorem checkSigSchnorr_sim (c : Ctx) (key sig : Bytes) :
    Sim c.env .op_check_sig_schnorr3 (fun e => Machine.checkSigSchnorr e key sig) (checkSigSchnorr c key sig) := by
  unfold checkSigSchnorr Machine.checkSigSchnorr
  split
  · cases schnorrSplit sig with
    | none => exact Sim.pure
    | some x =>
      obtain ⟨sg, fl⟩ := x
      intro s cap
      simp only [bind_eq, mbind]
      show ∃ cap' : Cap, _
      have e1 : (get : M (List Val) (St (List Val))) s = some (s, s) := rfl
      have e2 : (get : MC (St (List Val) × Cap)) (s, cap) = some ((s, cap), (s, cap)) := rfl
      simp only [e1, e2, Option.bind_some]
      have e3 : (trust c.env).sighashTap = c.env.sighashTap := rfl
      rw [e3]
      cases c.env.sighashTap s.offset fl with
      | none => exact Sim.pure s cap
      | some h => exact Sim.check s cap
  · exact Sim.pure

theorem lift_pure {α : Type} (a : α) : lift (Pure.pure a) = (Pure.pure a : MC α) := rfl
theorem lift_bind {α β : Type} (x : M (List Val) α) (g : α → M (List Val) β) : lift (x >>= g) = (lift x >>= fun a => lift (g a)) := by
  funext s
  simp only [bind_eq, lift, mbind]
  cases x s.1 <;> rfl
theorem lift_ite {α : Type} (p : Prop) [Decidable p] (x y : M (List Val) α) : lift (if p then x else y) = if p then lift x else lift y := by
  split <;> rfl

theorem opCheckSigVerify_sim (c : Ctx) (h3 : c.env.flags.bip342 = true) :
    Sim c.env .op_check_sig_schnorr3 (fun e => Machine.opCheckSigVerify e) (opCheckSigVerify c) := by
  unfold opCheckSigVerify Machine.opCheckSigVerify
  refine Sim.bind rfl fun n => ?_
  by_cases hn : n < 2
  · exact Sim.yes (P := fun _ => n < 2) hn hn hn Sim.pure
  refine Sim.no (P := fun _ => n < 2) hn hn hn ?_
  refine Sim.bind rfl fun key => ?_
  refine Sim.bind rfl fun sig => ?_
  have e1 : (trust c.env).flags.bip342 = true := h3
  refine Sim.yes h3 e1 h3 ?_
  by_cases hk : key = []
  · exact Sim.yes (P := fun _ => key = []) hk hk hk Sim.pure
  refine Sim.no (P := fun _ => key = []) hk hk hk ?_
  by_cases hs : sig = []
  · exact Sim.yes (P := fun _ => sig = []) hs hs hs Sim.pure
  refine Sim.no (P := fun _ => sig = []) hs hs hs ?_
  refine Sim.then (checkSigSchnorr_sim c key sig) rfl ?_ ?_
  · intro r
    cases r with
    | some err => rfl
    | none =>
      show (lift sigopsIncrement >>= _) = lift (sigopsIncrement >>= _)
      rw [lift_bind]
      congr 1
      funext b
      cases b <;> rfl
  · intro s; exact ⟨s, rfl⟩

theorem opCheckSig_sim (c : Ctx) (h3 : c.env.flags.bip342 = true) :
    Sim c.env .op_check_sig_schnorr3 (fun e => Machine.opCheckSig e) (opCheckSig c) := by
  unfold opCheckSig Machine.opCheckSig
  refine Sim.then (opCheckSigVerify_sim c h3) rfl ?_ ?_
  · intro r
    simp only [lift_ite, lift_bind, lift_pure]
  · intro s
    rw [if_neg (by decide), if_neg (fun h => absurd h.2 (by decide)), if_pos ⟨h3, by decide⟩]
    exact ⟨s, rfl⟩

theorem checkSigAddSchnorr_sim (c : Ctx) (key sig : Bytes) :
    Sim c.env .op_check_sig_add6 (fun e => Machine.checkSigAddSchnorr e key sig) (checkSigAddSchnorr c key sig) := by
  unfold checkSigAddSchnorr Machine.checkSigAddSchnorr
  split
  · cases schnorrSplit sig with
    | none => exact Sim.pure
    | some x =>
      obtain ⟨sg, fl⟩ := x
      refine Sim.bind rfl fun ok => ?_
      split
      · exact Sim.pure
      · exact Sim.bind (x := fun _ => cachedHash) rfl fun h => Sim.check
  · exact Sim.pure

theorem opCheckSigAdd_sim (c : Ctx) (h3 : c.env.flags.bip342 = true) :
    Sim c.env .op_check_sig_add6 (fun e => Machine.opCheckSigAdd e) (opCheckSigAdd c) := by
  unfold opCheckSigAdd Machine.opCheckSigAdd
  have e1 : (trust c.env).flags.bip342 = true := h3
  refine Sim.no (P := fun e => (!e.flags.bip342) = true) (by simp [h3]) (by simp [e1]) (by simp [h3]) ?_
  refine Sim.bind (x := fun _ => Machine.stackSize) rfl fun n => ?_
  by_cases hn : n < 3
  · exact Sim.yes (P := fun _ => n < 3) hn hn hn Sim.pure
  refine Sim.no (P := fun _ => n < 3) hn hn hn ?_
  refine Sim.bind (x := fun _ => popChunk) rfl fun key => ?_
  by_cases hk : key = []
  · exact Sim.yes (P := fun _ => key = []) hk hk hk Sim.pure
  refine Sim.no (P := fun _ => key = []) hk hk hk ?_
  refine Sim.bind (x := fun _ => popSigned32_) rfl fun number => ?_
  cases number with
  | none => exact Sim.pure
  | some number =>
    refine Sim.bind (x := fun _ => popChunk) rfl fun sig => ?_
    split
    · have := Sim.lift (e := c.env) (b := .op_check_sig_add6) (f := fun _ => (push (.int number) >>= fun _ => Pure.pure none))
      simp only [lift_bind, lift_pure] at this
      exact this
    refine Sim.then (checkSigAddSchnorr_sim c key sig) rfl ?_ ?_
    · intro r
      cases r with
      | some err => rfl
      | none =>
        show (lift sigopsIncrement >>= _) = lift (sigopsIncrement >>= _)
        rw [lift_bind]
        congr 1
        funext b
        cases b
        · rfl
        · simp only [lift_ite, lift_bind, lift_pure]
    · intro s; exact ⟨s, rfl⟩

/-- An error that a bad signature stops with. -/
def Bad (err : Err) : Prop := err = .op_check_sig_schnorr3 ∨ err = .op_check_sig_add6

/-- As `Sim`, one of the two errors of a bad signature. -/
def SimB (e : Env) (f : Env → M (List Val) Res) (mc : MC Res) : Prop := ∃ b, Bad b ∧ Sim e b f mc

theorem code_toNat (a : UInt8) (n : Nat) (h : n < 256) : a = UInt8.ofNat n ↔ a.toNat = n := by
  constructor
  · rintro rfl; rw [UInt8.toNat_ofNat']; exact Nat.mod_eq_of_lt h
  · rintro rfl; simp

theorem runOp_sim (c : Ctx) (h3 : c.env.flags.bip342 = true) (i : Nat) (op : Op) :
    SimB c.env (fun e => Machine.runOp e i op) (runOp c i op) := by
  have e1 : (trust c.env).flags.bip342 = true := h3
  unfold runOp
  split
  · rename_i h
    refine ⟨.op_check_sig_schnorr3, .inl rfl, ?_⟩
    have : (fun e => (Machine.runOp e i op : M (List Val) Res)) = fun e => Machine.opCheckSig e := by
      funext e; unfold Machine.runOp; rw [h]; rfl
    rw [this]; exact opCheckSig_sim c h3
  split
  · rename_i h
    refine ⟨.op_check_sig_schnorr3, .inl rfl, ?_⟩
    have : (fun e => (Machine.runOp e i op : M (List Val) Res)) = fun e => Machine.opCheckSigVerify e := by
      funext e; unfold Machine.runOp; rw [h]; rfl
    rw [this]; exact opCheckSigVerify_sim c h3
  split
  · rename_i h
    refine ⟨.op_check_sig_schnorr3, .inl rfl, ?_⟩
    have : (fun e => (Machine.runOp e i op : M (List Val) Res)) = fun e => Machine.opCheckMultisig e := by
      funext e; unfold Machine.runOp; rw [h]; rfl
    rw [this]
    unfold opCheckMultisig Machine.opCheckMultisig
    exact Sim.yes h3 e1 h3 Sim.pure
  split
  · rename_i h
    refine ⟨.op_check_sig_schnorr3, .inl rfl, ?_⟩
    have : (fun e => (Machine.runOp e i op : M (List Val) Res)) = fun e => Machine.opCheckMultisigVerify e := by
      funext e; unfold Machine.runOp; rw [h]; rfl
    rw [this]
    unfold opCheckMultisigVerify Machine.opCheckMultisigVerify
    exact Sim.yes h3 e1 h3 Sim.pure
  split
  · rename_i h
    refine ⟨.op_check_sig_add6, .inr rfl, ?_⟩
    have : (fun e => (Machine.runOp e i op : M (List Val) Res)) = fun e => Machine.opCheckSigAdd e := by
      funext e; unfold Machine.runOp; rw [h]; rfl
    rw [this]; exact opCheckSigAdd_sim c h3
  · exact ⟨.op_check_sig_schnorr3, .inl rfl, Sim.lift⟩

theorem runStep_sim (c : Ctx) (h3 : c.env.flags.bip342 = true) (i : Nat) (op : Op) :
    SimB c.env (fun e => Machine.runStep e i op) (runStep c i op) := by
  obtain ⟨b, hb, h⟩ := runOp_sim c h3 i op
  refine ⟨b, hb, ?_⟩
  unfold runStep Machine.runStep
  split
  · exact Sim.pure
  refine Sim.bind rfl fun n => ?_
  split
  · exact Sim.pure
  refine Sim.bind (x := fun _ => (if isConditional op.code then Pure.pure true else isSuccess)) rfl fun n => ?_
  split
  · refine Sim.then h rfl ?_ ?_
    · intro r
      cases r with
      | some err => rfl
      | none => simp only [lift_ite, lift_bind, lift_pure]
    · intro s; exact ⟨s, rfl⟩
  · exact Sim.pure

/-- The loop, from a state that the specification relates to: it ends, and the inline loop does the same if the rows are good, and stops
if one is not. -/
theorem runLoop_sim (c : Ctx) (h3 : c.env.flags.bip342 = true) (he : c.env.OK) (hops : ∀ o ∈ c.env.ops, o.Consistent) :
    ∀ (ops : List Op) (i : Nat) (s : St (List Val)) (t : State) (cap : Cap), (∀ o ∈ ops, o.Consistent) →
      (∀ o ∈ ops, isInvalid o.code = false) → RunRel c.env s t →
      ∃ r s' cap' new, runLoop c i ops (s, cap) = some (r, s', cap') ∧ cap'.log = cap.log ∧ cap'.rows = cap.rows ++ new ∧
        (new.all (goodRow c.env) = true → Machine.runLoop c.env i ops s = some (r, s')) ∧
        (new.all (goodRow c.env) = false → ∃ b, Bad b ∧ Stops b (Machine.runLoop c.env i ops s))
  | [], i, s, t, cap, _, _, _ => ⟨none, s, cap, [], rfl, rfl, by simp, fun _ => rfl, fun h => by simp at h⟩
  | op :: ops, i, s, t, cap, hc, hi, hr => by
    obtain ⟨b, hb, h⟩ := runStep_sim c h3 i op
    obtain ⟨cap1, h1, h2⟩ := h s cap
    have het : (trust c.env).OK := ⟨⟨he.sizes.1, he.sizes.2, he.sizes.3, he.sizes.4, he.sizes.5⟩, he.total⟩
    have hrt : RunRel (trust c.env) s t := ⟨⟨hr.stack, hr.alt, hr.cond, hr.neg, hr.nops, hr.sep, hr.budget, hr.cache⟩, hr.small⟩
    have hco := hc op (by simp)
    have hio := hi op (by simp)
    unfold runLoop Machine.runLoop
    simp only [mbind, bind_eq]
    -- the captured step ends
    have step : ∃ r s1 row?, runStep c i op (s, cap) = some (r, s1, cap1) ∧ cap1.rows = cap.rows ++ row? ∧
        (row?.all (goodRow c.env) = true → Machine.runStep c.env i op s = some (r, s1)) ∧
        (row?.all (goodRow c.env) = false → Stops b (Machine.runStep c.env i op s)) ∧
        (r = none → ∃ t', RunRel c.env s1 t') := by
      rcases h2 with ⟨h2, h4⟩ | ⟨row, h2, h4, h5, h6⟩
      · obtain ⟨r, s1, h7, h8⟩ := runStep_refines he hops i op hco hio s t hr
        refine ⟨r, s1, [], by rw [h4]; dsimp only; rw [h7]; rfl, by simp [h2], fun _ => h7, fun h => by simp at h, ?_⟩
        rintro rfl
        obtain ⟨t', -, h9, -⟩ := h8
        exact ⟨t', h9⟩
      · obtain ⟨r, s1, h7, h8⟩ := runStep_refines het hops i op hco hio s t hrt
        refine ⟨r, s1, [row], by rw [h4]; dsimp only; rw [h7]; rfl, h2, ?_, ?_, ?_⟩
        · intro hg
          rw [← h7]
          exact h5 (by simpa using hg)
        · intro hg
          exact h6 (by simpa using hg)
        · rintro rfl
          obtain ⟨t', -, h9, -⟩ := h8
          exact ⟨t', ⟨⟨h9.stack, h9.alt, h9.cond, h9.neg, h9.nops, h9.sep, h9.budget, h9.cache⟩, h9.small⟩⟩
    obtain ⟨r, s1, row, g1, g2, g3, g4, g5⟩ := step
    rw [g1]
    simp only [Option.bind_some]
    cases r with
    | some err =>
      refine ⟨some err, s1, cap1, row, rfl, h1, g2, ?_, ?_⟩
      · intro hg; rw [g3 hg]; rfl
      · intro hg
        obtain ⟨s2, g6⟩ := g4 hg
        rw [g6]
        exact ⟨b, hb, s2, rfl⟩
    | none =>
      obtain ⟨t', ht⟩ := g5 rfl
      obtain ⟨r, s2, cap2, new, k1, k2, k3, k4, k5⟩ := runLoop_sim c h3 he hops ops (i + 1) s1 t' cap1
        (fun o ho => hc o (by simp [ho])) (fun o ho => hi o (by simp [ho])) ht
      refine ⟨r, s2, cap2, row ++ new, k1, by rw [k2, h1], by rw [k3, g2, List.append_assoc], ?_, ?_⟩
      · intro hg
        rw [List.all_append, Bool.and_eq_true] at hg
        rw [g3 hg.1]
        exact k4 hg.2
      · intro hg
        cases hrow : row.all (goodRow c.env) with
        | false =>
          obtain ⟨s3, g6⟩ := g4 hrow
          rw [g6]
          exact ⟨b, hb, s3, rfl⟩
        | true =>
          rw [List.all_append, hrow, Bool.true_and] at hg
          rw [g3 hrow]
          exact k5 hg

end Verif.Capture
