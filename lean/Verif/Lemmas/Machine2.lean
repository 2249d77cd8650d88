import Verif.Lemmas.Machine
/-! The refinement relation between the machine and the specification, and the handlers that use more than the stack. -/
namespace Verif.Machine
open Verif Verif.Num Verif.Spec Verif.Spec.Script

/-- Condition stacks agree where they matter: an entry counts only if all the outer ones are true. -/
def CondRel : List Bool → List Bool → Prop
  | [], [] => True
  | b :: c, b' :: x => CondRel c x ∧ (c.all id = true → b = b')
  | _, _ => False

theorem CondRel.all : ∀ {c x : List Bool}, CondRel c x → c.all id = x.all id
  | [], [], _ => rfl
  | b :: c, b' :: x, h => by
    obtain ⟨h1, h2⟩ := h
    have := h1.all
    simp only [List.all_cons, ← this, id]
    cases hc : c.all id
    · simp
    · rw [h2 hc]
  | [], _ :: _, h => h.elim
  | _ :: _, [], h => h.elim

structure Rel (e : Env) (s : St (List Val)) (t : State) : Prop where
  stack : chunks s.primary = t.stack
  alt : chunks s.alternate = t.alt
  cond : CondRel s.condition t.exec
  neg : s.negative = s.condition.count false
  nops : s.operations = t.nops
  sep : s.offset = t.sep
  budget : e.flags.bip342 = true → (s.budget : Int) = t.budget + 1
  cache : e.flags.bip342 = true → s.cache.set = true → e.sighashTap s.offset s.cache.flags = some s.cache.hash

/-- All elements within limits. -/
def Within (s : St (List Val)) : Prop := (∀ v ∈ s.primary ++ s.alternate, Small v) ∧ s.primary.length ≤ 2 ^ 62

/-- `h` implements `f`. The only tolerated difference is a multisig signature that fails to decode under BIP66. -/
def Refines (e : Env) (h : M (List Val) Res) (f : State → Option State) : Prop :=
  ∀ s t, Rel e s t → ∃ r s', h s = some (r, s') ∧ match r with
    | none => ∃ t', f t = some t' ∧ Rel e s' t' ∧ (Within s → ∀ v ∈ s'.primary ++ s'.alternate, Small v)
    | some err => f t = none ∨ (err = .op_check_multisig_decode_signature ∧ e.flags.bip66 = true ∧ e.flags.bip342 = false)

theorem neg_iff {e s t} (h : Rel e s t) : (s.negative == 0) = t.exec.all id := by
  rw [← h.cond.all, h.neg, Bool.eq_iff_iff]
  simp [List.count_eq_zero]

theorem PureRef.refines {e h g} (hp : PureRef h g) : Refines e h (fun t => onStack t (g t.stack)) := by
  intro s t hr
  have := hp s
  rw [hr.stack] at this
  cases hg : g t.stack with
  | none =>
    rw [hg] at this
    obtain ⟨err, p, h1⟩ := this
    refine ⟨_, _, h1, .inl ?_⟩
    simp [onStack, hg]
  | some l =>
    rw [hg] at this
    obtain ⟨p, h1, h2, h3⟩ := this
    refine ⟨_, _, h1, { t with stack := l }, by simp [onStack, hg], ⟨h2, hr.alt, hr.cond, hr.neg, hr.nops, hr.sep, hr.budget, hr.cache⟩, ?_⟩
    rintro ⟨w1, w2⟩ v hv
    rcases List.mem_append.1 hv with hv | hv
    · exact h3 (fun v hv => w1 v (by simp [hv])) w2 v hv
    · exact w1 v (by simp [hv])

theorem fails_refines {e : Env} {err : Err} : Refines e (pure (some err)) (fun _ => none) :=
  fun s _ _ => ⟨_, s, rfl, .inl rfl⟩

theorem opPushNumber_refines (e : Env) (v : Int) (hv : -2 ^ 62 ≤ v ∧ v ≤ 2 ^ 62) :
    Refines e (opPushNumber v) (fun t => some { t with stack := encodeNum v :: t.stack }) := by
  intro s t hr
  refine ⟨_, _, rfl, _, rfl, ⟨?_, hr.alt, hr.cond, hr.neg, hr.nops, hr.sep, hr.budget, hr.cache⟩, ?_⟩
  · show chunkFromInteger v :: chunks s.primary = _
    rw [hr.stack, encodeNum_eq]
  · rintro ⟨w1, w2⟩ w hw
    change w ∈ .int v :: s.primary ++ s.alternate at hw
    rcases List.mem_cons.1 hw with rfl | hw
    · exact hv
    · exact w1 w hw

theorem opPushSize_refines (e : Env) (err : Err) (op : Op) (hop : op.Consistent) (h78 : op.code ≤ 78) (hl : op.data.length ≤ 520) :
    Refines e (opPushSize err op) (fun t => some { t with stack := op.data :: t.stack }) := by
  intro s t hr
  have hu : isUnderclaimed op = false := by
    have := hop.fits
    unfold SizeFits at this
    unfold isUnderclaimed opcodeToMaximumSize
    have h78' : op.code.toNat ≤ 78 := UInt8.le_iff_toNat_le.1 h78
    split_ifs at * with a b c d
    · simp; omega
    · simp; omega
    · simp; omega
    · simp [this]
    · exfalso
      have d' : ¬ op.code.toNat ≤ 75 := fun h => d (UInt8.le_iff_toNat_le.2 h)
      have a' : op.code.toNat ≠ 76 := fun h => a (UInt8.toNat_inj.1 h)
      have b' : op.code.toNat ≠ 77 := fun h => b (UInt8.toNat_inj.1 h)
      have c' : op.code.toNat ≠ 78 := fun h => c (UInt8.toNat_inj.1 h)
      omega
  refine ⟨none, { s with primary := .chunk op.data :: s.primary }, ?_, _, rfl, ⟨?_, hr.alt, hr.cond, hr.neg, hr.nops, hr.sep, hr.budget, hr.cache⟩, ?_⟩
  · unfold opPushSize; rw [hu]; rfl
  · show op.data :: chunks s.primary = _
    rw [hr.stack]
  · rintro ⟨w1, w2⟩ w hw
    rcases List.mem_cons.1 hw with rfl | hw
    · exact hl
    · exact w1 w hw

theorem opToAlt_refines (e : Env) :
    Refines e opToAltStack (fun t => match t.stack with | [] => none | a :: s => some { t with stack := s, alt := a :: t.alt }) := by
  rintro ⟨p, al, co, ne, no, bu, o, ca⟩ t hr
  have hs := hr.stack
  rcases p with _ | ⟨a, p⟩
  · refine ⟨_, _, rfl, .inl ?_⟩
    simp [← hs]
  · refine ⟨none, ⟨p, a :: al, co, ne, no, bu, o, ca⟩, rfl, ?_⟩
    simp only [← hs, chunks, List.map]
    refine ⟨_, rfl, ⟨rfl, ?_, hr.cond, hr.neg, hr.nops, hr.sep, hr.budget, hr.cache⟩, ?_⟩
    · simp only [← hr.alt]; rfl
    · rintro ⟨w1, w2⟩ w hw
      apply w1
      simp at hw ⊢
      tauto

theorem opFromAlt_refines (e : Env) :
    Refines e opFromAltStack (fun t => match t.alt with | [] => none | a :: r => some { t with stack := a :: t.stack, alt := r }) := by
  rintro ⟨p, al, co, ne, no, bu, o, ca⟩ t hr
  have hs := hr.alt
  rcases al with _ | ⟨a, al⟩
  · refine ⟨_, _, rfl, .inl ?_⟩
    simp [← hs]
  · refine ⟨none, ⟨a :: p, al, co, ne, no, bu, o, ca⟩, rfl, ?_⟩
    simp only [← hs, chunks, List.map]
    refine ⟨_, rfl, ⟨?_, rfl, hr.cond, hr.neg, hr.nops, hr.sep, hr.budget, hr.cache⟩, ?_⟩
    · simp only [← hr.stack]; rfl
    · rintro ⟨w1, w2⟩ w hw
      apply w1
      simp at hw ⊢
      tauto

theorem opCodeseparator_refines (e : Env) (i : Nat) : Refines e (opCodeseparator i) (fun t => some { t with sep := i + 1 }) := by
  intro s t hr
  refine ⟨_, _, rfl, _, rfl, ⟨hr.stack, hr.alt, hr.cond, hr.neg, hr.nops, rfl, hr.budget, ?_⟩, ?_⟩
  · intro _ h; cases h
  · rintro ⟨w1, w2⟩ w hw; exact w1 w hw

theorem opElse_refines (e : Env) :
    Refines e opElse (fun t => match t.exec with | [] => none | b :: r => some { t with exec := (!b) :: r }) := by
  rintro ⟨p, al, co, ne, no, bu, o, ca⟩ t hr
  have hc := hr.cond
  have hn := hr.neg
  rcases co with _ | ⟨b, co⟩
  · rcases hx : t.exec with _ | ⟨b', x⟩
    · exact ⟨_, _, rfl, .inl (by simp [hx])⟩
    · rw [hx] at hc; exact hc.elim
  · rcases hx : t.exec with _ | ⟨b', x⟩
    · rw [hx] at hc; exact hc.elim
    · rw [hx] at hc
      obtain ⟨h1, h2⟩ := hc
      refine ⟨_, _, rfl, ?_⟩
      simp only [hx]
      refine ⟨_, rfl, ⟨hr.stack, hr.alt, ⟨h1, fun h => by rw [h2 h]⟩, ?_, hr.nops, hr.sep, hr.budget, hr.cache⟩, ?_⟩
      · simp only at hn ⊢
        rw [hn]
        cases b <;> simp
      · rintro ⟨w1, w2⟩ w hw; exact w1 w hw

theorem opEndif_refines (e : Env) :
    Refines e opEndif (fun t => match t.exec with | [] => none | _ :: r => some { t with exec := r }) := by
  rintro ⟨p, al, co, ne, no, bu, o, ca⟩ t hr
  have hc := hr.cond
  have hn := hr.neg
  rcases co with _ | ⟨b, co⟩
  · rcases hx : t.exec with _ | ⟨b', x⟩
    · exact ⟨_, _, rfl, .inl (by simp [hx])⟩
    · rw [hx] at hc; exact hc.elim
  · rcases hx : t.exec with _ | ⟨b', x⟩
    · rw [hx] at hc; exact hc.elim
    · rw [hx] at hc
      obtain ⟨h1, h2⟩ := hc
      refine ⟨_, _, rfl, ?_⟩
      simp only [hx]
      refine ⟨_, rfl, ⟨hr.stack, hr.alt, h1, ?_, hr.nops, hr.sep, hr.budget, hr.cache⟩, ?_⟩
      · simp only at hn ⊢
        rw [hn]
        cases b <;> simp
      · rintro ⟨w1, w2⟩ w hw; exact w1 w hw

theorem popBool_mk (e : Env) (a : Val) (p al co ne no bu o ca) :
    popBool (S := List Val) e.flags.bip342 ⟨a :: p, al, co, ne, no, bu, o, ca⟩ =
      match condition e a.toChunk with
      | none => some (none, ⟨a :: p, al, co, ne, no, bu, o, ca⟩)
      | some b => some (some b, ⟨p, al, co, ne, no, bu, o, ca⟩) := by
  simp only [popBool, mbind, top_mk, Option.bind_some, condition]
  cases e.flags.bip342
  · simp only [Bool.not_false, if_true, mbind, drop_mk, Option.bind_some, mpure, toBool_eq, Bool.false_eq_true, if_false]
  · simp only [Bool.not_true, Bool.false_eq_true, if_false, if_true]
    rw [toMinimalBool_eq]
    split_ifs <;> rfl

theorem openIf_case (e : Env) (neg : Bool) (h : M (List Val) Res) (err1 err2 : Err)
    (hh : h = (do
      if ← isSuccess then
        if ← isStackEmpty then return some err1
        else match ← popBool e.flags.bip342 with
          | none => return some err2
          | some value => beginIf (if neg then !value else value); return none
      else beginIf neg; return none)) : Refines e h (openIf e neg) := by
  subst hh
  rintro ⟨p, al, co, ne, no, bu, o, ca⟩ t hr
  have hi := neg_iff hr
  have hs := hr.stack
  have key : ∀ b b' (p' : List Val) (s' : List Bytes), chunks p' = s' → (t.exec.all id = true → b = b') →
      (∀ v ∈ p', v ∈ p) →
      ∃ r s', (do beginIf b; return none : M (List Val) Res) ⟨p', al, co, ne, no, bu, o, ca⟩ = some (r, s') ∧ match r with
      | none => ∃ t', some ({ t with stack := chunks p', exec := b' :: t.exec } : State) = some t' ∧ Rel e s' t' ∧
          (Within ⟨p, al, co, ne, no, bu, o, ca⟩ → ∀ v ∈ s'.primary ++ s'.alternate, Small v)
      | some err => (some ({ t with stack := chunks p', exec := b' :: t.exec } : State)) = none ∨
          (err = .op_check_multisig_decode_signature ∧ e.flags.bip66 = true ∧ e.flags.bip342 = false) := by
    intro b b' p' s' hp hb hm
    refine ⟨_, _, rfl, _, rfl, ⟨rfl, hr.alt, ⟨hr.cond, fun hc => ?_⟩, ?_, hr.nops, hr.sep, hr.budget, hr.cache⟩, ?_⟩
    · exact hb (by rw [← hr.cond.all]; exact hc)
    · have := hr.neg
      simp only at this ⊢
      rw [this]
      cases b <;> simp
    · rintro ⟨w1, w2⟩ w hw
      apply w1
      simp at hw ⊢
      rcases hw with hw | hw
      · exact .inl (hm _ hw)
      · exact .inr hw
  simp only [mbind, isSuccess, Option.bind_some]
  simp only at hi
  rw [hi]
  unfold openIf
  cases hx : t.exec.all id
  · simp only [Bool.false_eq_true, if_false]
    have := key neg false p t.stack hs (by simp [hx]) (fun v hv => hv)
    rw [show chunks p = t.stack from hs] at this
    exact this
  · simp only [if_true, mbind]
    rcases p with _ | ⟨a, p⟩
    · refine ⟨_, _, rfl, .inl ?_⟩
      simp [← hs]
    · simp only [isStackEmpty_mk, Option.bind_some, Bool.false_eq_true, if_false, mbind, popBool_mk]
      simp only [← hs, chunks, List.map]
      cases hcnd : condition e a.toChunk with
      | none => exact ⟨_, _, rfl, .inl rfl⟩
      | some v =>
        simp only [Option.bind_some, Option.bind_eq_bind, Option.pure_def]
        exact key _ _ p _ rfl (fun _ => rfl) (fun v hv => by simp [hv])

theorem opIf_refines (e : Env) : Refines e (opIf e) (openIf e false) :=
  openIf_case e false _ _ _ rfl
theorem opNotif_refines (e : Env) : Refines e (opNotif e) (openIf e true) :=
  openIf_case e true _ _ _ rfl

end Verif.Machine
