import Verif.Lemmas.Capture
import Verif.Props.Batch
/-! Capture of ecdsa signatures: a program without BIP342 captures in its last operation alone, and pushes true where the program that
verifies inline pushes the verdict. -/
namespace Verif.Capture
open Verif Verif.Machine Verif.Spec.Script Verif.Spec.Batch

/-! ## Programs that capture nothing -/

/-- The operation cannot capture an ecdsa signature in this program. -/
def Quiet (c : Ctx) (op : Op) : Prop :=
  ((op.code = 172 ∨ op.code = 173) → (c.enabled && ecdsaBatchable c) = false) ∧
  ((op.code = 174 ∨ op.code = 175) → (c.enabled && multisigBatchable c) = false)

theorem verifyEcdsa_lift (c : Ctx) (h : (c.enabled && ecdsaBatchable c) = false) (p d sg : Bytes) :
    verifyEcdsa c p d sg = Pure.pure (c.env.verifyEcdsa p d sg) := by
  funext s
  unfold verifyEcdsa
  rw [h]
  rfl

theorem tryMultisig_lift (c : Ctx) (h : (c.enabled && multisigBatchable c) = false) (p e : List Bytes) :
    tryMultisig c p e = Pure.pure false := by
  funext s
  unfold tryMultisig
  cases h1 : c.enabled
  · rfl
  · rw [h1, Bool.true_and] at h
    rw [h]; rfl

theorem opCheckSigVerify_lift (c : Ctx) (h3 : c.env.flags.bip342 = false) (h : (c.enabled && ecdsaBatchable c) = false) :
    opCheckSigVerify c = lift (Machine.opCheckSigVerify c.env) := by
  unfold opCheckSigVerify Machine.opCheckSigVerify
  rw [lift_bind]
  refine bind_congr fun n => ?_
  rw [lift_ite]
  split
  · rfl
  rw [lift_bind]
  refine bind_congr fun key => ?_
  rw [lift_bind]
  refine bind_congr fun sig => ?_
  simp only [h3, Bool.false_eq_true, if_false]
  rw [lift_ite]
  split
  · rfl
  rw [lift_bind]
  refine bind_congr fun x => ?_
  cases c.env.decodeSig x.1 c.env.flags.bip66 with
  | none => rfl
  | some sg =>
    dsimp only
    rw [lift_bind]
    refine bind_congr fun sub => ?_
    cases c.env.sighash sub x.2 with
    | none => rfl
    | some d =>
      dsimp only
      rw [verifyEcdsa_lift c h, lift_ite]
      rfl

theorem opCheckSig_lift (c : Ctx) (h3 : c.env.flags.bip342 = false) (h : (c.enabled && ecdsaBatchable c) = false) :
    opCheckSig c = lift (Machine.opCheckSig c.env) := by
  unfold opCheckSig Machine.opCheckSig
  rw [opCheckSigVerify_lift c h3 h, lift_bind]
  simp only [lift_ite, lift_bind, lift_pure]

theorem opCheckMultisigVerify_lift (c : Ctx) (h : (c.enabled && multisigBatchable c) = false) :
    opCheckMultisigVerify c = lift (Machine.opCheckMultisigVerify c.env) := by
  unfold opCheckMultisigVerify Machine.opCheckMultisigVerify
  rw [lift_ite]
  split
  · rfl
  rw [lift_bind]
  refine bind_congr fun count => ?_
  cases count with
  | none => rfl
  | some count =>
  dsimp only
  rw [lift_ite]
  split
  · rfl
  rw [lift_bind]
  refine bind_congr fun b => ?_
  rw [lift_ite]
  split
  · rfl
  rw [lift_bind]
  refine bind_congr fun keys => ?_
  cases keys with
  | none => rfl
  | some keys =>
  dsimp only
  rw [lift_bind]
  refine bind_congr fun count => ?_
  cases count with
  | none => rfl
  | some count =>
  dsimp only
  rw [lift_ite]
  split
  · rfl
  rw [lift_bind]
  refine bind_congr fun ends => ?_
  cases ends with
  | none => rfl
  | some ends =>
  dsimp only
  rw [lift_bind]
  refine bind_congr fun b => ?_
  rw [lift_ite]
  split
  · rfl
  rw [lift_bind]
  refine bind_congr fun b => ?_
  rw [lift_ite]
  split
  · rfl
  rw [tryMultisig_lift c h, pure_bind, if_neg (by decide), lift_bind]
  refine bind_congr fun sub => ?_
  rw [lift_bind]
  refine bind_congr fun u => ?_
  rw [lift_bind]
  refine bind_congr fun r => ?_
  match r with
  | none => rfl
  | some [] => rfl
  | some (_ :: _) => rfl

theorem opCheckMultisig_lift (c : Ctx) (h : (c.enabled && multisigBatchable c) = false) :
    opCheckMultisig c = lift (Machine.opCheckMultisig c.env) := by
  unfold opCheckMultisig Machine.opCheckMultisig
  rw [opCheckMultisigVerify_lift c h]
  simp only [lift_ite, lift_bind, lift_pure]

theorem runOp_lift (c : Ctx) (h3 : c.env.flags.bip342 = false) (i : Nat) (op : Op) (h : Quiet c op) :
    runOp c i op = lift (Machine.runOp c.env i op) := by
  unfold runOp
  split
  · rename_i hc
    have : (Machine.runOp c.env i op : M (List Val) Res) = Machine.opCheckSig c.env := by unfold Machine.runOp; rw [hc]; rfl
    rw [this]; exact opCheckSig_lift c h3 (h.1 (.inl hc))
  split
  · rename_i hc
    have : (Machine.runOp c.env i op : M (List Val) Res) = Machine.opCheckSigVerify c.env := by unfold Machine.runOp; rw [hc]; rfl
    rw [this]; exact opCheckSigVerify_lift c h3 (h.1 (.inr hc))
  split
  · rename_i hc
    have : (Machine.runOp c.env i op : M (List Val) Res) = Machine.opCheckMultisig c.env := by unfold Machine.runOp; rw [hc]; rfl
    rw [this]; exact opCheckMultisig_lift c (h.2 (.inl hc))
  split
  · rename_i hc
    have : (Machine.runOp c.env i op : M (List Val) Res) = Machine.opCheckMultisigVerify c.env := by unfold Machine.runOp; rw [hc]; rfl
    rw [this]; exact opCheckMultisigVerify_lift c (h.2 (.inr hc))
  split
  · rename_i hc
    have : (Machine.runOp c.env i op : M (List Val) Res) = Machine.opCheckSigAdd c.env := by unfold Machine.runOp; rw [hc]; rfl
    rw [this]
    unfold opCheckSigAdd Machine.opCheckSigAdd
    rw [h3]; rfl
  · rfl

theorem runStep_lift (c : Ctx) (h3 : c.env.flags.bip342 = false) (i : Nat) (op : Op) (h : Quiet c op) :
    runStep c i op = lift (Machine.runStep c.env i op) := by
  unfold runStep Machine.runStep
  rw [lift_ite]
  split
  · rfl
  rw [lift_bind]
  refine bind_congr fun b => ?_
  rw [lift_ite]
  split
  · rfl
  rw [lift_bind]
  rw [lift_ite (isConditional op.code = true)]
  refine bind_congr fun b => ?_
  rw [lift_ite]
  split
  · rw [runOp_lift c h3 i op h, lift_bind]
    refine bind_congr fun r => ?_
    cases r with
    | some err => rfl
    | none => simp only [lift_ite, lift_bind, lift_pure]
  · rfl

theorem runLoop_lift (c : Ctx) (h3 : c.env.flags.bip342 = false) : ∀ (ops : List Op) (i : Nat), (∀ o ∈ ops, Quiet c o) →
    runLoop c i ops = lift (Machine.runLoop c.env i ops)
  | [], _, _ => rfl
  | op :: ops, i, h => by
    unfold runLoop Machine.runLoop
    rw [runStep_lift c h3 i op (h op (by simp)), lift_bind]
    refine bind_congr fun r => ?_
    cases r with
    | some err => rfl
    | none => exact runLoop_lift c h3 ops (i + 1) fun o ho => h o (by simp [ho])

theorem run_lift (c : Ctx) (h3 : c.env.flags.bip342 = false) (h : ∀ o ∈ c.env.ops, Quiet c o) : run c = lift (Machine.run c.env) := by
  unfold run Machine.run
  rw [lift_bind]
  refine bind_congr fun r => ?_
  cases r with
  | some err => rfl
  | none =>
    dsimp only
    rw [runLoop_lift c h3 _ _ h, lift_bind]
    refine bind_congr fun r => ?_
    cases r with
    | some err => rfl
    | none => simp only [lift_ite, lift_bind, lift_pure]

/-- The program of an input captures nothing. -/
theorem quiet_spender (c : Ctx) (h : c.spender = true) (o : Op) : Quiet c o := by
  unfold Quiet ecdsaBatchable multisigBatchable
  rw [h]
  simp

/-! ## The last operation of a program that captures -/

/-- What the cryptography of a program must satisfy: sizes, and a compressed point verifies as the point. -/
structure Ctx.Crypto (c : Ctx) : Prop where
  sighash : ∀ sub f h, c.env.sighash sub f = some h → h.length = 32
  decode : ∀ b x s, c.env.decodeSig b x = some s → s.length = 64
  compress : ∀ p k, p.length = 65 → c.compress p = some k → k.length = 33 ∧ ∀ h s, c.env.verifyEcdsa p h s = c.env.verifyEcdsa k h s

theorem toCompressed_some {c : Ctx} (hc : c.Crypto) {p k : Bytes} (h : toCompressed c p = some k) :
    k.length = 33 ∧ ∀ d s, c.env.verifyEcdsa p d s = c.env.verifyEcdsa k d s := by
  unfold toCompressed at h
  split at h
  · rename_i hl; cases h; exact ⟨hl, fun _ _ => rfl⟩
  · split at h
    · rename_i hl; exact hc.compress p k hl h
    · cases h

/-- The verdict on a group. -/
def verdict (e : Env) (g : Group) : Bool := Batch.verifyGroup e.verifyEcdsa g.digest g.keys g.sigs

/-- What a handler that may capture does, `f` being what the inline one does: the same, or a group is captured, a true is pushed where the
inline one pushes the verdict, and nothing else differs but the cache of the multisig loop. -/
def Cpt (e : Env) (cap : Cap) (mc : Option (Res × St (List Val) × Cap)) (f : Option (Res × St (List Val))) : Prop :=
  mc = attach cap f ∨ ∃ (single : Bool) (g : Group) (log' : Batch.Log) (s' : St (List Val)) (ca : Cache) (p : List Val) (r : Res), Batch.Call (single, g) ∧ Batch.capture cap.log single g = some log' ∧
    mc = some (r, { s' with primary := .bool true :: p }, { cap with log := log' }) ∧
    f = some (r, { s' with primary := .bool (verdict e g) :: p, cache := ca })

/-- The same before the result is pushed: the inline handler ends with `b` where the verdict is bad. -/
def CptV (e : Env) (b : Err) (cap : Cap) (mc : Option (Res × St (List Val) × Cap)) (f : Option (Res × St (List Val))) : Prop :=
  mc = attach cap f ∨ ∃ (single : Bool) (g : Group) (log' : Batch.Log) (s' : St (List Val)) (ca : Cache), Batch.Call (single, g) ∧ Batch.capture cap.log single g = some log' ∧
    mc = some (none, s', { cap with log := log' }) ∧
    f = some (if verdict e g then none else some b, { s' with cache := ca })

theorem CptV.bind {α : Type} {e : Env} {b : Err} {cap : Cap} {x : M (List Val) α} {g : α → M (List Val) Res} {gc : α → MC Res}
    {s : St (List Val)} (h : ∀ a s', x s = some (a, s') → CptV e b cap (gc a (s', cap)) (g a s')) :
    CptV e b cap ((lift x >>= gc) (s, cap)) ((x >>= g) s) := by
  simp only [bind_eq, mbind, lift]
  cases hs : x s with
  | none => exact .inl rfl
  | some r => exact h r.1 r.2 hs

theorem CptV.same {e : Env} {b : Err} {cap : Cap} {f : M (List Val) Res} {s : St (List Val)} : CptV e b cap (lift f (s, cap)) (f s) := .inl rfl
theorem CptV.pure {e : Env} {b : Err} {cap : Cap} {r : Res} {s : St (List Val)} :
    CptV e b cap ((Pure.pure r : MC Res) (s, cap)) ((Pure.pure r : M (List Val) Res) s) := .inl rfl

/-- The check of one signature. -/
theorem verifyEcdsa_cpt {c : Ctx} (hc : c.Crypto) (p d sg : Bytes) (hd : d.length = 32) (hs : sg.length = 64) (s : St (List Val)) (cap : Cap)
    (b : Err) : CptV c.env b cap ((verifyEcdsa c p d sg >>= fun r => if r then Pure.pure none else Pure.pure (some b)) (s, cap))
      ((if c.env.verifyEcdsa p d sg then Pure.pure none else Pure.pure (some b) : M (List Val) Res) s) := by
  have inl : CptV c.env b cap (((Pure.pure (c.env.verifyEcdsa p d sg) : MC Bool) >>= fun r => if r then Pure.pure none else Pure.pure (some b)) (s, cap))
      ((if c.env.verifyEcdsa p d sg then Pure.pure none else Pure.pure (some b) : M (List Val) Res) s) := by
    left
    cases c.env.verifyEcdsa p d sg <;> rfl
  rw [bind_eq]
  unfold verifyEcdsa
  dsimp only
  split
  · cases hk : toCompressed c p with
    | none => exact inl
    | some k =>
      dsimp only
      cases hl : cap.log.appendSingle d k sg with
      | none => exact inl
      | some log' =>
        right
        obtain ⟨k1, k2⟩ := toCompressed_some hc hk
        refine ⟨true, ⟨d, [k], [sg]⟩, log', s, s.cache, ⟨⟨by simp, by simp, by simp, hd, by simpa using k1, by simpa using hs⟩, by simp⟩, hl,
          rfl, ?_⟩
        have : verdict c.env ⟨d, [k], [sg]⟩ = c.env.verifyEcdsa p d sg := by
          rw [k2]
          unfold verdict
          dsimp only [Batch.verifyGroup]
          cases c.env.verifyEcdsa k d sg <;> simp [Batch.verifyGroup]
        rw [this]
        cases c.env.verifyEcdsa p d sg <;> rfl
  · exact inl

theorem opCheckSigVerify_cpt {c : Ctx} (hc : c.Crypto) (h3 : c.env.flags.bip342 = false) (s : St (List Val)) (cap : Cap) :
    CptV c.env .op_check_sig_verify4 cap (opCheckSigVerify c (s, cap)) (Machine.opCheckSigVerify c.env s) := by
  unfold opCheckSigVerify Machine.opCheckSigVerify
  refine CptV.bind fun n s _ => ?_
  by_cases hn : n < 2
  · rw [if_pos hn, if_pos hn]; exact .pure
  rw [if_neg hn, if_neg hn]
  refine CptV.bind fun key s _ => ?_
  refine CptV.bind fun sig s _ => ?_
  simp only [h3, Bool.false_eq_true, if_false]
  by_cases hs : sig = []
  · rw [if_pos hs, if_pos hs]; exact .pure
  rw [if_neg hs, if_neg hs]
  refine CptV.bind fun x s _ => ?_
  cases hd : c.env.decodeSig x.1 c.env.flags.bip66 with
  | none => exact .pure
  | some sg =>
    dsimp only
    refine CptV.bind fun sub s _ => ?_
    cases hh : c.env.sighash sub x.2 with
    | none => exact .pure
    | some d => exact verifyEcdsa_cpt hc key d sg (hc.sighash _ _ _ hh) (hc.decode _ _ _ hd) s cap _

theorem opCheckSig_cpt {c : Ctx} (hc : c.Crypto) (h3 : c.env.flags.bip342 = false) (s : St (List Val)) (cap : Cap) :
    Cpt c.env cap (opCheckSig c (s, cap)) (Machine.opCheckSig c.env s) := by
  unfold opCheckSig Machine.opCheckSig
  rw [bind_eq, mbind]
  rcases opCheckSigVerify_cpt hc h3 s cap with h | ⟨single, g, log', s', ca, h1, h2, h4, h5⟩
  · left
    rw [h]
    cases hx : Machine.opCheckSigVerify c.env s with
    | none => rfl
    | some r =>
      simp only [attach, Option.map_some, Option.bind_some]
      have : ∀ (x : M (List Val) Res) (y : MC Res), y = lift x → y (r.2, cap) = Option.map (fun r => (r.1, r.2, cap)) (x r.2) := by
        rintro x _ rfl; rfl
      apply this
      simp only [lift_ite, lift_bind, lift_pure]
  · right
    refine ⟨single, g, log', s', ca, s'.primary, none, h1, h2, ?_, ?_⟩
    · rw [h4]
      simp only [Option.bind_some]
      rw [if_neg (by decide), if_neg (fun h => absurd h.2 (by decide)), if_neg (fun h => absurd h.2 (by decide))]
      rfl
    · rw [h5]
      simp only [Option.bind_some]
      have e0 : ∀ v : Bool, (if v then none else some Err.op_check_sig_verify4) ≠ some Err.op_check_sig_low_stack := by decide
      have e1 : ∀ v : Bool, (if v then none else some Err.op_check_sig_verify4) ≠ some Err.op_check_sig_decode_signature := by decide
      have e2 : ∀ v : Bool, ((if v then none else some Err.op_check_sig_verify4) == none) = v := by decide
      rw [if_neg (e0 _), if_neg (fun h => e1 _ h.2), if_neg (fun h => by rw [h3] at h; exact absurd h.1 (by decide)), e2]
      rfl

end Verif.Capture
