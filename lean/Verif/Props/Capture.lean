import Verif.Lemmas.Capture5
import Verif.Props.Verify
/-!
# C76: a block whose signatures are captured and verified afterwards is valid exactly if it is valid with each verified inline
-/
namespace Verif.Capture
open Verif Verif.Machine Verif.Spec.Script Verif.Spec.Batch

/-- What a use of capture must satisfy, besides the conditions on the spend: digests of 32 and signatures of 64 bytes, and a point that
compresses to 33 bytes which verify as the point does. `V` and `VS` are the checks of one signature (point, digest, signature). -/
structure Use.OK (V VS : Bytes → Bytes → Bytes → Bool) (u : Use) : Prop where
  spend : u.spend.OK
  ecdsa : u.spend.verifyEcdsa = V
  schnorr : u.spend.verifySchnorr = VS
  sighash : ∀ v sub f h, u.spend.sighash v sub f = some h → h.length = 32
  decode : ∀ b x s, u.spend.decodeSig b x = some s → s.length = 64
  compress : ∀ p k, p.length = 65 → u.compress p = some k → k.length = 33 ∧ ∀ h s, V p h s = V k h s

variable {V VS : Bytes → Bytes → Bytes → Bool}

/-- The log of the thread is that of the groups. -/
structure Logged (l : Batch.Log) (gs : List Group) : Prop where
  log : l.log = gs.flatMap Batch.record
  groups : l.groups = gs.length
  ok : ∀ g ∈ gs, g.OK
  few : gs.length ≤ 65536

/-- What was captured is `gs` and `rows`. -/
def Adds (cap cap' : Cap) (gs : List Group) (rows : List (Bytes × Bytes × Bytes)) : Prop :=
  (∀ pre, Logged cap.log pre → Logged cap'.log (pre ++ gs)) ∧ cap'.rows = cap.rows ++ rows

/-- What was captured is good. -/
def Right (V VS : Bytes → Bytes → Bytes → Bool) (gs : List Group) (rows : List (Bytes × Bytes × Bytes)) : Prop :=
  (∀ g ∈ gs, g.Good V) ∧ ∀ r ∈ rows, VS r.2.1 r.1 r.2.2 = true

/-- `y`, that captures, accepts and captures what is good exactly if `x` accepts. -/
def Judge (V VS : Bytes → Bytes → Bytes → Bool) (cap : Cap) (x : Option Res) (y : Out) : Prop :=
  ∀ res, x = some res → ∃ r cap' gs rows, y = some (r, cap') ∧ Adds cap cap' gs rows ∧ (res = none ↔ r = none ∧ Right V VS gs rows)

theorem Adds.refl (cap : Cap) : Adds cap cap [] [] := ⟨fun pre h => by simpa using h, by simp⟩
theorem Adds.trans {a b c : Cap} {g1 g2 : List Group} {r1 r2 : List (Bytes × Bytes × Bytes)} (h1 : Adds a b g1 r1) (h2 : Adds b c g2 r2) :
    Adds a c (g1 ++ g2) (r1 ++ r2) :=
  ⟨fun pre h => by rw [← List.append_assoc]; exact h2.1 _ (h1.1 _ h), by rw [h2.2, h1.2, List.append_assoc]⟩
theorem Right.nil : Right V VS [] [] := ⟨by simp, by simp⟩
theorem Right.append {g1 g2 : List Group} {r1 r2 : List (Bytes × Bytes × Bytes)} :
    Right V VS (g1 ++ g2) (r1 ++ r2) ↔ Right V VS g1 r1 ∧ Right V VS g2 r2 := by
  unfold Right
  simp only [List.mem_append]
  constructor
  · rintro ⟨h1, h2⟩
    exact ⟨⟨fun g hg => h1 g (.inl hg), fun r hr => h2 r (.inl hr)⟩, ⟨fun g hg => h1 g (.inr hg), fun r hr => h2 r (.inr hr)⟩⟩
  · rintro ⟨⟨h1, h2⟩, h3, h4⟩
    exact ⟨fun g hg => hg.elim (h1 g) (h3 g), fun r hr => hr.elim (h2 r) (h4 r)⟩

theorem Judge.same {cap : Cap} (r : Res) : Judge V VS cap (some r) (some (r, cap)) := by
  intro res h
  cases h
  exact ⟨r, cap, [], [], rfl, .refl _, by simp [Right.nil]⟩

/-- What is before a judgement and captures nothing. -/
theorem Judge.closed {cap : Cap} {x : Option Res} {y : Out} (h : Judge V VS { cap with sink := 0 } x y) : Judge V VS cap x y := h

theorem Judge.test {cap : Cap} {clean : Bool} {s : St (List Val)} {x : Option Res} {y : Out} (h : Judge V VS cap x y) :
    Judge V VS cap (Verif.testTrue clean s x) (testTrue clean s cap y) := by
  unfold Verif.testTrue testTrue
  match Machine.isTrue clean s with
  | none => intro res h; cases h
  | some (false, _) => exact .same _
  | some (true, _) => exact h

theorem capture_adds {cap : Cap} {single : Bool} {g : Group} {log' : Batch.Log} (h1 : Batch.Call (single, g))
    (h2 : Batch.capture cap.log single g = some log') : Adds cap { cap with log := log' } [g] [] := by
  refine ⟨fun pre hp => ?_, by simp⟩
  obtain ⟨ha, hb⟩ := Batch.capture_put cap.log (single, g) h1
  by_cases hg : cap.log.groups ≤ 65535
  · obtain ⟨l', h3, h4, h5, -⟩ := ha hg
    dsimp only at h3 h4
    rw [h2] at h3
    cases h3
    refine ⟨?_, ?_, ?_, ?_⟩
    · rw [h4, hp.log]; simp
    · rw [h5, hp.groups]; simp
    · intro x hx
      rcases List.mem_append.1 hx with hx | hx
      · exact hp.ok x hx
      · rw [List.mem_singleton.1 hx]; exact h1.1
    · have := hp.groups
      rw [List.length_append, List.length_singleton]; omega
  · have := hb hg
    dsimp only at this
    rw [h2] at this
    cases this

theorem verdict_iff (e : Env) (he : e.verifyEcdsa = V) (g : Group) : verdict e g = true ↔ g.Good V := by
  unfold verdict
  rw [Batch.verifyGroup_iff, he]
  rfl

theorem isTrue_top (clean v : Bool) (s : St (List Val)) (p : List Val) (hs : s.primary = .bool v :: p) :
    Machine.isTrue clean s = some ((!clean || p.length == 0) && v, s) := by
  unfold Machine.isTrue
  simp only [mbind, stackSize_eq, Option.bind_some, hs, List.length_cons]
  have e1 : (p.length + 1 == 0) = false := by simp
  have e2 : (p.length + 1 == 1) = (p.length == 0) := by simp
  rw [e1, e2]
  simp only [Bool.not_false, Bool.and_true]
  cases hc : (!clean || p.length == 0)
  · rfl
  · simp only [if_true, Bool.true_and]
    unfold peekBool top
    have : StackImpl.top s.primary = some (.bool v) := by rw [hs]; rfl
    show ((StackImpl.top s.primary).map fun v => (v, s)).bind _ = _
    rw [this]; rfl

theorem isTrue_total (clean : Bool) (s : St (List Val)) : ∃ b, Machine.isTrue clean s = some (b, s) := by
  unfold Machine.isTrue
  simp only [mbind, stackSize_eq, Option.bind_some]
  split
  · rename_i h
    cases hp : s.primary with
    | nil => rw [hp] at h; simp at h
    | cons v p =>
      unfold peekBool top
      have : StackImpl.top s.primary = some v := by rw [hp]; rfl
      refine ⟨v.toBool, ?_⟩
      show ((StackImpl.top s.primary).map fun v => (v, s)).bind _ = _
      rw [this]; rfl
  · exact ⟨false, rfl⟩

/-- Run a program without BIP342, test and continue: what follows may depend on nothing that was captured. -/
theorem runThen_judge {u : Use} {spender : Bool} {e : Env} (hc : (⟨e, u.enabled, spender, u.compress⟩ : Ctx).Crypto) (he : e.verifyEcdsa = V)
    (h3 : e.flags.bip342 = false) (hok : OpsOK e.ops) (st : List Val) (cap : Cap) (clean : Bool) (x : Option Res) (y : Cap → Out)
    (h : ∀ cap, Judge V VS cap x (y cap)) (hb : Batchable e.ops → ∃ r, x = some r ∧ ∀ cap, y cap = some (r, cap)) :
    Judge V VS cap (Verif.runThen e st 0 (fun t => Verif.testTrue clean t x) some)
      (runThen u spender e st 0 cap (fun t cap => testTrue clean t cap (y cap)) some) := by
  unfold Verif.runThen runThen
  rcases run_cpt hc h3 hok { primary := st, budget := 0 } { cap with sink := 0 } with hr | ⟨hbat, hr⟩
  · rw [hr]
    dsimp only
    match hm : Machine.run e { primary := st, budget := 0 } with
    | none => intro res h; cases h
    | some (some err, s') => exact Judge.closed (Judge.same _)
    | some (none, s') => exact Judge.closed (Judge.test (h _))
  · rcases hr with hr | ⟨single, g, log', s', ca, p, r, h1, h2, h4, h5⟩
    · rw [hr]
      dsimp only
      match hm : Machine.run e { primary := st, budget := 0 } with
      | none => intro res h; cases h
      | some (some err, s') => exact Judge.closed (Judge.same _)
      | some (none, s') => exact Judge.closed (Judge.test (h _))
    · dsimp only at h5
      rw [h4, h5]
      have ha := capture_adds h1 h2
      intro res hres
      cases r with
      | some err =>
        dsimp only at hres ⊢
        cases hres
        exact ⟨some err, _, [g], [], rfl, ha, by simp⟩
      | none =>
        dsimp only at hres ⊢
        obtain ⟨r, hx, hy⟩ := hb hbat
        have hv := verdict_iff e he g
        have hR : Right V VS [g] [] ↔ verdict e g = true := by rw [hv]; simp [Right]
        unfold Verif.testTrue at hres
        unfold testTrue
        rw [isTrue_top clean (verdict e g) _ p rfl] at hres
        rw [isTrue_top clean true _ p rfl]
        rw [hx] at hres
        rw [hy]
        cases hcl : (!clean || p.length == 0)
        · rw [hcl] at hres
          cases hres
          exact ⟨some .stack_false, _, [g], [], rfl, ha, by simp⟩
        · rw [hcl] at hres
          cases hvd : verdict e g
          · rw [hvd] at hres
            cases hres
            refine ⟨r, _, [g], [], rfl, ha, ?_⟩
            rw [hR, hvd]; simp
          · rw [hvd] at hres
            cases hres
            refine ⟨res, _, [g], [], rfl, ha, ?_⟩
            rw [hR, hvd]; simp

/-- The program of the input captures nothing, and what follows may be anything. -/
theorem spender_judge {u : Use} {e : Env} (h3 : e.flags.bip342 = false) (st : List Val) (cap : Cap) (k : St (List Val) → Option Res)
    (kc : St (List Val) → Cap → Out) (h : ∀ s, Machine.run e { primary := st, budget := 0 } = some (none, s) →
      Judge V VS { cap with sink := 0 } (k s) (kc s { cap with sink := 0 })) :
    Judge V VS cap (Verif.runThen e st 0 k some) (runThen u true e st 0 cap kc some) := by
  unfold Verif.runThen runThen
  have : run ⟨e, u.enabled, true, u.compress⟩ = lift (Machine.run e) := run_lift _ h3 fun o _ => quiet_spender _ rfl o
  rw [this]
  unfold lift
  match hm : Machine.run e { primary := st, budget := 0 } with
  | none => intro res h; cases h
  | some (some err, s') => exact Judge.closed (Judge.same _)
  | some (none, s') => exact Judge.closed (h s' hm)

/-- A program with BIP342. -/
theorem tapscript_judge {u : Use} {e : Env} (he : e.OK) (hv : e.verifySchnorr = VS) (h3 : e.flags.bip342 = true) (hok : OpsOK e.ops)
    (st : List Val) (bud : Nat) (cap : Cap) :
    Judge V VS cap
      (Verif.runThen e st (bud + 1) (fun t => Verif.testTrue true t (some none)) (fun e => if e = .prevalid_script then none else some e))
      (runThen u false e st (bud + 1) cap (fun t cap => testTrue true t cap (some (none, cap)))
        (fun e => if e = .prevalid_script then none else some e)) := by
  have hr : Rel e { primary := st, budget := bud + 1 } (Spec.Script.start (st.map Val.toChunk) bud) :=
    ⟨rfl, rfl, trivial, rfl, rfl, rfl, fun hh => by simp [Spec.Script.start], fun _ h => by simp at h⟩
  obtain ⟨r, s', cap', new, h1, h2, h4, h5, h6⟩ := run_sim ⟨e, u.enabled, false, u.compress⟩ h3 he hok _ _ hr rfl { cap with sink := 0 }
  unfold Verif.runThen runThen
  rw [h1]
  have ha : Adds cap cap' [] new := ⟨fun pre hp => by rw [h2, List.append_nil]; exact hp, h4⟩
  have hR : Right V VS [] new ↔ new.all (goodRow e) = true := by
    unfold Right goodRow
    rw [List.all_eq_true, hv]
    simp
  intro res hres
  cases hg : new.all (goodRow e)
  · obtain ⟨b, hb, s2, hs⟩ := h6 hg
    dsimp only at hs
    rw [hs] at hres
    have hne : b ≠ .prevalid_script := by rcases hb with rfl | rfl <;> decide
    rw [hg] at hR
    have hR' : ¬ Right V VS [] new := fun h => by cases hR.1 h
    dsimp only at hres
    rw [if_neg hne] at hres
    cases hres
    cases r with
    | some err => exact ⟨_, cap', [], new, rfl, ha, by simp [hR']⟩
    | none =>
      dsimp only
      unfold testTrue
      match hm : Machine.isTrue true s' with
      | none => obtain ⟨b, hb⟩ := isTrue_total true s'; rw [hb] at hm; cases hm
      | some (false, _) => exact ⟨_, cap', [], new, rfl, ha, by simp [hR']⟩
      | some (true, _) => exact ⟨_, cap', [], new, rfl, ha, by simp [hR']⟩
  · rw [h5 hg] at hres
    rw [hg] at hR
    cases r with
    | some err =>
      dsimp only at hres ⊢
      cases hres
      exact ⟨_, cap', [], new, rfl, ha, by rw [hR]; simp⟩
    | none =>
      dsimp only at hres ⊢
      unfold Verif.testTrue at hres
      unfold testTrue
      match hm : Machine.isTrue true s' with
      | none => rw [hm] at hres; cases hres
      | some (false, _) => rw [hm] at hres; cases hres; exact ⟨_, cap', [], new, rfl, ha, by simp⟩
      | some (true, _) => rw [hm] at hres; cases hres; exact ⟨_, cap', [], new, rfl, ha, by rw [hR]; simp⟩

/-! ## Connect -/

theorem witness_program_not_batchable {ops : List Op} (h : witnessProgramPattern ops = true) : ¬ Batchable ops := by
  unfold witnessProgramPattern at h
  split at h
  · rename_i a b
    simp only [Bool.and_eq_true] at h
    rintro (hb | hb | hb)
    · unfold Pattern.payPublicKey at hb
      simp only [Bool.and_eq_true, beq_iff_eq] at hb
      simp only [decide_eq_true_eq] at h
      have hc := h.1.1.2
      have hbn : b.code.toNat = b.data.length := by
        simp only [Op.isMinimalPush, beq_iff_eq] at hc
        rw [hc, minimalOpcode_of (by omega), opcodeFromSize_small (by omega)]
        simp; omega
      rw [hb.2] at hbn
      have : (172 : UInt8).toNat = 172 := rfl
      omega
    · cases hb
    · unfold Pattern.payMultisigStandard at hb
      simp at hb
  · cases h

theorem p2sh_not_batchable {ops : List Op} (h : payScriptHashPattern ops = true) : ¬ Batchable ops := by
  unfold payScriptHashPattern at h
  split at h
  · rintro (hb | hb | hb)
    · cases hb
    · cases hb
    · unfold Pattern.payMultisigStandard at hb
      simp at hb
  · cases h

variable {u : Use}

theorem legacy_crypto (h : u.OK V VS) (spender : Bool) (ops : List Op) :
    (⟨u.spend.legacyEnv ops, u.enabled, spender, u.compress⟩ : Ctx).Crypto where
  sighash := h.sighash false
  decode := h.decode
  compress := fun p k hl hk => by
    obtain ⟨h1, h2⟩ := h.compress p k hl hk
    refine ⟨h1, fun d s => ?_⟩
    show u.spend.verifyEcdsa p d s = u.spend.verifyEcdsa k d s
    rw [h.ecdsa]; exact h2 d s

theorem segwit_crypto (h : u.OK V VS) (spender : Bool) (ops : List Op) (st : List Bytes) :
    (⟨u.spend.segwitEnv ops st, u.enabled, spender, u.compress⟩ : Ctx).Crypto where
  sighash := h.sighash true
  decode := h.decode
  compress := fun p k hl hk => by
    obtain ⟨h1, h2⟩ := h.compress p k hl hk
    refine ⟨h1, fun d s => ?_⟩
    show u.spend.verifyEcdsa p d s = u.spend.verifyEcdsa k d s
    rw [h.ecdsa]; exact h2 d s

theorem extractSegwit_ok (h : u.spend.OK) {program ops : List Op} {stack : List Bytes} (he : extractSegwit u.spend program = .ok (ops, stack)) :
    OpsOK ops := by
  unfold extractSegwit at he
  dsimp only at he
  split at he
  · rename_i hl
    split at he
    · cases he; exact (keyhash_ok hl).1
    · cases he
  · split at he
    · split at he
      · cases he
      · rename_i w hw
        split at he
        · cases he; exact parseOps_ok (witness_element h (List.mem_of_getLast? hw))
        · cases he
    · cases he

theorem mem_dropAnnex {x : Bytes} {l : List Bytes} (h : x ∈ dropAnnex l) : x ∈ l := by
  unfold dropAnnex at h
  split at h
  · exact h
  · split at h
    · exact List.dropLast_subset _ h
    · exact h

theorem extractTaproot_ok (h : u.spend.OK) {program ops : List Op} {stack : List Bytes} {leaf : Option Bytes}
    (he : extractTaproot u.spend program = .ok (leaf, ops, stack)) : OpsOK ops := by
  have hs : OpsOK successOps := Machine.opsOK_of _ (by
    intro o ho
    simp only [successOps, List.mem_singleton] at ho
    subst ho
    exact plain_consistent _ (by decide))
  unfold extractTaproot at he
  dsimp only at he
  split at he
  · split at he
    · split at he
      · rename_i c w hc hw
        split at he
        · cases he
        · split at he
          · cases he
          · split at he
            · cases he
              exact parseOps_ok (witness_element h (mem_dropAnnex (List.dropLast_subset _ (List.mem_of_getLast? hw))))
            · cases he; exact hs
      · cases he
    · split at he
      · cases he
        exact Machine.opsOK_of _ (by
          intro o ho
          simp only [List.mem_singleton] at ho
          subst ho
          exact plain_consistent _ (by decide))
      · cases he
  · cases he; exact hs

theorem connectWitness_judge (h : u.OK V VS) (program : List Op) (embedded : Bool) (cap : Cap) :
    Judge V VS cap (Verif.connectWitness u.spend program embedded) (connectWitness u program embedded cap) := by
  unfold Verif.connectWitness connectWitness
  cases scriptVersion program with
  | segwit =>
    dsimp only
    cases he : extractSegwit u.spend program with
    | error e => exact .same _
    | ok x =>
      obtain ⟨ops, stack⟩ := x
      exact runThen_judge (segwit_crypto h false ops stack) h.ecdsa rfl (extractSegwit_ok h.spend he) _ cap true (some none)
        (fun cap => some (none, cap)) (fun _ => .same _) (fun _ => ⟨none, rfl, fun _ => rfl⟩)
  | taproot =>
    dsimp only
    by_cases hc : (!u.spend.flags.bip341 || embedded) = true
    · rw [if_pos hc, if_pos hc]; exact .same _
    · rw [if_neg hc, if_neg hc]
      have h341 : u.spend.flags.bip341 = true := by
        simp only [Bool.or_eq_true, Bool.not_eq_true', not_or, Bool.not_eq_false] at hc
        exact hc.1
      cases he : extractTaproot u.spend program with
      | error e => exact .same _
      | ok x =>
        obtain ⟨leaf, ops, stack⟩ := x
        have hb := budget_eq h.spend
        dsimp only
        rw [hb]
        exact tapscript_judge (taproot_ok h.spend ops stack leaf) h.schnorr (h.spend.tap h341) (extractTaproot_ok h.spend he) _ _ cap
  | reserved => exact .same _
  | unversioned => exact .same _

theorem connectEmbedded_judge (h : u.OK V VS) (st : List Val) (hst : ∀ v ∈ st, v.toChunk.length < 2 ^ 63) (cap : Cap) :
    Judge V VS cap (Verif.connectEmbedded u.spend st) (connectEmbedded u st cap) := by
  unfold Verif.connectEmbedded connectEmbedded
  by_cases hp : (!relaxedPushPattern u.spend.ops) = true
  · rw [if_pos hp, if_pos hp]; exact .same _
  rw [if_neg hp, if_neg hp]
  cases st with
  | nil => intro res h; cases h
  | cons v rest =>
    dsimp only
    refine runThen_judge (legacy_crypto h false _) h.ecdsa rfl (parseOps_ok (hst v (by simp))) _ cap false _ _ ?_ ?_
    · intro cap
      by_cases hw : (u.spend.flags.bip141 && witnessProgramPattern (parseOps v.toChunk)) = true
      · rw [if_pos hw, if_pos hw]
        by_cases hn : (!nominalPushPattern u.spend.ops) = true
        · rw [if_pos hn, if_pos hn]; exact .same _
        · rw [if_neg hn, if_neg hn]; exact connectWitness_judge h _ _ _
      · rw [if_neg hw, if_neg hw]
        split <;> exact .same _
    · intro hb
      have hw : ¬ (u.spend.flags.bip141 && witnessProgramPattern (parseOps v.toChunk)) = true := by
        intro hw
        rw [Bool.and_eq_true] at hw
        exact witness_program_not_batchable hw.2 hb
      rw [if_neg hw]
      simp only [if_neg hw]
      split
      · exact ⟨_, rfl, fun _ => rfl⟩
      · exact ⟨_, rfl, fun _ => rfl⟩

/-- The elements that the program of the input leaves. -/
theorem input_small (h : u.spend.OK) (s' : St (List Val))
    (hr : Machine.run (u.spend.legacyEnv u.spend.ops) { primary := [], budget := 0 } = some (none, s')) :
    ∀ v ∈ s'.primary, v.toChunk.length < 2 ^ 63 := by
  have hrel : Rel (u.spend.legacyEnv u.spend.ops) { primary := [], budget := 0 } (Spec.Script.start [] 0) :=
    ⟨rfl, rfl, trivial, rfl, rfl, rfl, (fun hh => by cases hh), fun _ h => by simp at h⟩
  obtain ⟨r, s1, h1, h2⟩ := Machine.run_refines (legacy_ok h u.spend.ops) h.ops (by have := h.opsSize; show (opsData u.spend.ops).length < _; omega) _ _ hrel rfl rfl
  rw [hr] at h1
  cases h1
  obtain ⟨t', -, -, -, h5⟩ := h2
  have := (h5 ⟨by simp, by simp⟩).1
  intro v hv
  have := (this v (List.mem_append_left _ hv)).length
  omega

theorem connect_judge (h : u.OK V VS) (cap : Cap) : Judge V VS cap (Verif.connect u.spend) (connect u cap) := by
  unfold Verif.connect connect
  refine spender_judge rfl [] cap _ _ fun i hi => ?_
  refine runThen_judge (legacy_crypto h false _) h.ecdsa rfl h.spend.prevout _ _ false _ _ ?_ ?_
  · intro cap
    by_cases hp : (u.spend.flags.bip16 && payScriptHashPattern u.spend.prevout) = true
    · rw [if_pos hp, if_pos hp]; exact connectEmbedded_judge h _ (input_small h.spend i hi) _
    rw [if_neg hp, if_neg hp]
    by_cases hw : (u.spend.flags.bip141 && witnessProgramPattern u.spend.prevout) = true
    · rw [if_pos hw, if_pos hw]
      split
      · exact .same _
      · exact connectWitness_judge h _ _ _
    · rw [if_neg hw, if_neg hw]
      split <;> exact .same _
  · intro hb
    have hp : ¬ (u.spend.flags.bip16 && payScriptHashPattern u.spend.prevout) = true := by
      intro hp
      rw [Bool.and_eq_true] at hp
      exact p2sh_not_batchable hp.2 hb
    have hw : ¬ (u.spend.flags.bip141 && witnessProgramPattern u.spend.prevout) = true := by
      intro hw
      rw [Bool.and_eq_true] at hw
      exact witness_program_not_batchable hw.2 hb
    simp only [if_neg hp, if_neg hw]
    split
    · exact ⟨_, rfl, fun _ => rfl⟩
    · exact ⟨_, rfl, fun _ => rfl⟩

theorem connectAll_judge (us : List Use) (h : ∀ u ∈ us, u.OK V VS) (cap : Cap) :
    ∃ r cap' gs rows, connectAll us cap = some (r, cap') ∧ Adds cap cap' gs rows ∧
      ((r = none ∧ Right V VS gs rows) ↔ ∀ u ∈ us, Verif.connect u.spend = some none) := by
  induction us generalizing cap with
  | nil => exact ⟨none, cap, [], [], rfl, .refl _, by simp [Right.nil]⟩
  | cons u us ih =>
    obtain ⟨res, hres⟩ := C52_no_undefined_access u.spend (h u (by simp)).spend
    obtain ⟨r, cap1, g1, r1, h1, h2, h3⟩ := connect_judge (h u (by simp)) cap res hres
    unfold connectAll
    rw [h1]
    cases r with
    | some err =>
      refine ⟨some err, cap1, g1, r1, rfl, h2, ?_⟩
      simp only [reduceCtorEq, false_and, false_iff, iff_false] at h3 ⊢
      intro hall
      have := hall u (by simp)
      rw [hres] at this
      cases this
      exact h3 rfl
    | none =>
      obtain ⟨r, cap', g2, r2, h4, h5, h6⟩ := ih (fun u hu => h u (by simp [hu])) cap1
      refine ⟨r, cap', g1 ++ g2, r1 ++ r2, h4, h2.trans h5, ?_⟩
      rw [Right.append, List.forall_mem_cons, ← h6, hres, Option.some.injEq, h3]
      tauto

theorem logged_verify {l : Batch.Log} {gs : List Group} (h : Logged l gs) : l.verify V = true ↔ ∀ g ∈ gs, g.Good V := by
  unfold Batch.Log.verify
  rw [h.log, Batch.visits_records gs h.ok, Batch.verify_foldl]
  simp only [true_and, List.mem_map, forall_exists_index, and_imp, forall_apply_eq_imp_iff₂]
  refine forall₂_congr fun g _ => ?_
  exact Batch.verifyGroup_iff V g.digest g.keys g.sigs

/-! ## C76 -/

/-- **Capture is verification**: the inputs of a block are connected by one thread into empty accumulators, some of them with capture
enabled and some without. The calls end, and they all succeed with both accumulators verifying exactly if every input connects without
capture. -/
theorem C76_block (us : List Use) (h : ∀ u ∈ us, u.OK V VS) :
    ∃ r cap, connectAll us {} = some (r, cap) ∧
      ((r = none ∧ cap.log.verify V = true ∧ Batch.schnorrVerify VS cap.rows = true) ↔ ∀ u ∈ us, Verif.connect u.spend = some none) := by
  obtain ⟨r, cap, gs, rows, h1, h2, h3⟩ := connectAll_judge us h {}
  refine ⟨r, cap, h1, ?_⟩
  rw [← h3]
  have hl : Logged cap.log ([] ++ gs) := h2.1 [] ⟨rfl, rfl, by simp, by simp⟩
  rw [logged_verify hl, h2.2]
  unfold Batch.schnorrVerify Right
  simp

/-- What the log of the thread then holds: whole groups of the sizes that a store takes, as many as it counts and no more than their
numbers (`C75_ecdsa` tells what verifying them in one batch with those of other blocks returns). -/
theorem C76_stored (us : List Use) (h : ∀ u ∈ us, u.OK V VS) (r : Res) (cap : Cap) (hc : connectAll us {} = some (r, cap)) (id : Bytes) :
    ∃ gs : List Group, Batch.visits cap.log.log = gs.map (fun g => (g.digest, g.keys, g.sigs)) ∧ cap.log.groups = gs.length ∧
      Stored [⟨id, gs⟩] := by
  obtain ⟨r', cap', gs, rows, h1, h2, -⟩ := connectAll_judge us h {}
  rw [hc] at h1
  cases h1
  have hl : Logged cap.log ([] ++ gs) := h2.1 [] ⟨rfl, rfl, by simp, by simp⟩
  refine ⟨gs, by rw [hl.log, List.nil_append, Batch.visits_records gs hl.ok], hl.groups, ?_, ?_, ?_⟩
  · simp
  · simpa using hl.few
  · simpa using hl.ok

/-! Non-vacuity: with a toy signature scheme (a signature is good for a key that begins alike), a public key output, a 2 of 3 multisig and
a taproot key path. -/
namespace Instance

def toyV (k _ s : Bytes) : Bool := k.getLast? == s.head?
def toyVS (k _ s : Bytes) : Bool := k.head? == s.head?

def spend (ops prevout : List Op) (witness : List Bytes) : Spend :=
  { toySpend allFlags ops prevout witness with
    decodeSig := fun d _ => if d.length = 64 then some d else none
    sighash := fun _ _ _ => some (List.replicate 32 9)
    verifyEcdsa := toyV
    verifySchnorr := toyVS }

def use (enabled : Bool) (ops prevout : List Op) (witness : List Bytes) : Use :=
  ⟨spend ops prevout witness, enabled, fun p => if p.length = 65 then some (2 :: p.drop 33) else none⟩

theorem use_ok (enabled : Bool) (ops prevout : List Op) (witness : List Bytes)
    (h1 : ∀ o ∈ ops, o.Consistent) (h2 : ∀ o ∈ prevout, o.Consistent) (l1 : (opsData ops).length < 2 ^ 63)
    (l2 : (opsData prevout).length < 2 ^ 63) (l3 : ((Witness.ofStack witness).toData true).length < 2 ^ 63) :
    (use enabled ops prevout witness).OK toyV toyVS where
  spend :=
    have h := toySpend_ok allFlags ops prevout witness rfl h1 h2 l1 l2 l3
    ⟨h.ops, h.opsSize, h.prevout, h.prevoutSize, h.witness, h.rmd160, h.sha1, h.sha256, h.hash160, h.hash256, fun _ _ _ => rfl, h.tap⟩
  ecdsa := rfl
  schnorr := rfl
  sighash := fun _ _ _ h hh => by cases hh; rfl
  decode := fun b x s hh => by
    change (if b.length = 64 then some b else none) = some s at hh
    split at hh
    · rename_i hl; cases hh; exact hl
    · cases hh
  compress := fun p k hl hk => by
    change (if p.length = 65 then some (2 :: p.drop 33) else none) = some k at hk
    rw [if_pos hl] at hk
    cases hk
    refine ⟨by simp [hl], fun d s => ?_⟩
    unfold toyV
    have : (2 :: p.drop 33).getLast? = p.getLast? := by
      rw [List.getLast?_cons, List.getLast?_drop, if_neg (by omega)]
      cases hp : p.getLast? with
      | none => rw [List.getLast?_eq_none_iff] at hp; rw [hp] at hl; cases hl
      | some x => rfl
    rw [this]

/-- A push of 33, 64 or 65 bytes. -/
def push (b : Bytes) : Op := { code := UInt8.ofNat b.length, data := b }
def key (x : UInt8) : Bytes := 2 :: List.replicate 32 x
def sig (x : UInt8) : Bytes := List.replicate 64 x ++ [1]
def keyOut (x : UInt8) : List Op := [push (key x), { code := 172 }]
def multisigOut : List Op := [{ code := 82 }, push (key 1), push (key 2), push (key 3), { code := 83 }, { code := 174 }]

theorem consistent (l : List Op) (h : l.all (fun o => ((o.code.toNat == o.data.length && decide (o.data.length ≤ 75)) ||
    (o.data.isEmpty && decide (79 ≤ o.code))) && !o.underflow) = true) : ∀ o ∈ l, o.Consistent := by
  intro o ho
  have := List.all_eq_true.1 h o ho
  simp only [Bool.or_eq_true, Bool.and_eq_true, beq_iff_eq, decide_eq_true_eq, Bool.not_eq_true', List.isEmpty_iff] at this
  obtain ⟨c, d, u⟩ := o
  obtain ⟨h1, hu⟩ := this
  dsimp only at h1 hu
  subst hu
  rcases h1 with ⟨h1, h2⟩ | ⟨h1, h2⟩
  · have : c = UInt8.ofNat d.length := by rw [← h1]; simp
    rw [this]
    exact direct_consistent d h2
  · rw [h1]
    exact plain_consistent c h2

/-- All good, captured. -/
def good : List Use := [use true [push (sig 7)] (keyOut 7) [], use true [{ code := 0 }, push (sig 1), push (sig 3)] multisigOut [],
  use true [] p2trOut [List.replicate 64 7], use false [push (sig 7)] (keyOut 7) []]
/-- The signatures of the multisig are in the wrong order. -/
def bad : List Use := [use true [{ code := 0 }, push (sig 3), push (sig 1)] multisigOut []]

theorem good_ok : ∀ u ∈ good, u.OK toyV toyVS := by
  intro u hu
  simp only [good, List.mem_cons, List.not_mem_nil, or_false] at hu
  rcases hu with rfl | rfl | rfl | rfl <;>
    exact use_ok _ _ _ _ (consistent _ (by decide +kernel)) (consistent _ (by decide +kernel)) (by decide +kernel) (by decide +kernel)
      (by decide +kernel)
theorem bad_ok : ∀ u ∈ bad, u.OK toyV toyVS := by
  intro u hu
  simp only [bad, List.mem_cons, List.not_mem_nil, or_false] at hu
  subst hu
  exact use_ok _ _ _ _ (consistent _ (by decide +kernel)) (consistent _ (by decide +kernel)) (by decide +kernel) (by decide +kernel)
      (by decide +kernel)

theorem outcome (us : List Use) (h : ∀ u ∈ us, u.OK toyV toyVS) (p : Cap → Bool)
    (hm : ((connectAll us {}).map fun x => decide (x.1 = none) && p x.2) = some true) :
    ∃ cap, connectAll us {} = some (none, cap) ∧ p cap = true ∧
      ((cap.log.verify toyV = true ∧ Batch.schnorrVerify toyVS cap.rows = true) ↔ ∀ u ∈ us, Verif.connect u.spend = some none) := by
  obtain ⟨r, cap, h1, h2⟩ := C76_block us h
  rw [h1] at hm
  simp only [Option.map_some, Option.some.injEq, Bool.and_eq_true, decide_eq_true_eq] at hm
  obtain ⟨rfl, hp⟩ := hm
  exact ⟨cap, h1, hp, by simpa using h2⟩

/-- Two groups and a row are captured, and the fourth input is verified inline: all verifies. -/
example : ∃ cap, connectAll good {} = some (none, cap) ∧ (cap.log.groups, cap.log.rows, cap.rows.length) = (2, 5, 1) ∧
    cap.log.verify toyV = true ∧ Batch.schnorrVerify toyVS cap.rows = true := by
  obtain ⟨cap, h1, h2, h3⟩ := outcome good good_ok (fun cap => decide ((cap.log.groups, cap.log.rows, cap.rows.length) = (2, 5, 1)))
    (by decide +kernel)
  exact ⟨cap, h1, of_decide_eq_true h2, h3.2 (by decide +kernel)⟩

/-- A bad multisig is captured without error, and fails where the log is verified. -/
example : ∃ cap, connectAll bad {} = some (none, cap) ∧ cap.log.groups = 1 ∧ cap.log.verify toyV = false := by
  obtain ⟨cap, h1, h2, h3⟩ := outcome bad bad_ok (fun cap => decide (cap.log.groups = 1 ∧ cap.rows = [])) (by decide +kernel)
  have h4 := of_decide_eq_true h2
  refine ⟨cap, h1, h4.1, ?_⟩
  have hn : ¬ ∀ u ∈ bad, Verif.connect u.spend = some none := by decide +kernel
  cases hv : cap.log.verify toyV
  · rfl
  · exact absurd (h3.1 ⟨hv, by rw [h4.2]; rfl⟩) hn

end Instance

end Verif.Capture
