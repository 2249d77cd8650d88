import Verif.Lemmas.Capture3
/-! Capture: whole programs without BIP342. -/
namespace Verif.Capture
open Verif Verif.Machine Verif.Spec.Script Verif.Spec.Batch

theorem runLoop_append_inline (e : Env) : ∀ (a b : List Op) (i : Nat), (Machine.runLoop e i (a ++ b) : M (List Val) Res) =
    (Machine.runLoop e i a >>= fun r => match r with
      | some err => Pure.pure (some err)
      | none => Machine.runLoop e (i + a.length) b)
  | [], b, i => by
    show _ = ((Pure.pure none : M (List Val) Res) >>= _)
    rw [pure_bind]; rfl
  | x :: a, b, i => by
    show (Machine.runStep e i x >>= _) = ((Machine.runStep e i x >>= _) >>= _)
    rw [bind_assoc]
    refine bind_congr fun r => ?_
    cases r with
    | some err => rfl
    | none =>
      show Machine.runLoop e (i + 1) (a ++ b) = _
      rw [runLoop_append_inline e a b (i + 1)]
      refine bind_congr fun r => ?_
      cases r with
      | some err => rfl
      | none => dsimp only; rw [List.length_cons, Nat.add_assoc, Nat.add_comm 1]

theorem runLoop_append (c : Ctx) : ∀ (a b : List Op) (i : Nat), runLoop c i (a ++ b) =
    (runLoop c i a >>= fun r => match r with
      | some err => Pure.pure (some err)
      | none => runLoop c (i + a.length) b)
  | [], b, i => by
    show _ = ((Pure.pure none : MC Res) >>= _)
    rw [pure_bind]; rfl
  | x :: a, b, i => by
    show (runStep c i x >>= _) = ((runStep c i x >>= _) >>= _)
    rw [bind_assoc]
    refine bind_congr fun r => ?_
    cases r with
    | some err => rfl
    | none =>
      show runLoop c (i + 1) (a ++ b) = _
      rw [runLoop_append c a b (i + 1)]
      refine bind_congr fun r => ?_
      cases r with
      | some err => rfl
      | none => dsimp only; rw [List.length_cons, Nat.add_assoc, Nat.add_comm 1]

theorem Cpt.bind {α : Type} {e : Env} {cap : Cap} {x : M (List Val) α} {g : α → M (List Val) Res} {gc : α → MC Res}
    {s : St (List Val)} (h : ∀ a s', x s = some (a, s') → Cpt e cap (gc a (s', cap)) (g a s')) :
    Cpt e cap ((lift x >>= gc) (s, cap)) ((x >>= g) s) := by
  simp only [bind_eq, mbind, lift]
  cases hs : x s with
  | none => exact .inl rfl
  | some r => exact h r.1 r.2 hs

theorem Cpt.pure {e : Env} {cap : Cap} {r : Res} {s : St (List Val)} :
    Cpt e cap ((Pure.pure r : MC Res) (s, cap)) ((Pure.pure r : M (List Val) Res) s) := .inl rfl

/-- What follows the handler, if it reads neither the top of the stack nor the cache. -/
theorem Cpt.then {e : Env} {cap : Cap} {f : M (List Val) Res} {mc : MC Res} {g : Res → M (List Val) Res} {gc : Res → MC Res}
    {s : St (List Val)} (h : Cpt e cap (mc (s, cap)) (f s)) (hgc : ∀ r, gc r = lift (g r))
    (hg : ∀ (r : Res) (s' : St (List Val)) (p : List Val), ∃ r', ∀ (v : Bool) (ca : Cache),
      g r { s' with primary := .bool v :: p, cache := ca } = some (r', { s' with primary := .bool v :: p, cache := ca })) :
    Cpt e cap ((mc >>= gc) (s, cap)) ((f >>= g) s) := by
  rw [bind_eq, mbind]
  rcases h with h | ⟨single, gr, log', s', ca, p, r, h1, h2, h3, h4⟩
  · left
    rw [h]
    cases f s with
    | none => rfl
    | some r => simp only [attach, Option.map_some, Option.bind_some, hgc]; rfl
  · right
    obtain ⟨r', hr⟩ := hg r s' p
    refine ⟨single, gr, log', s', ca, p, r', h1, h2, ?_, ?_⟩
    · rw [h3]
      simp only [Option.bind_some, hgc, lift]
      have := hr true s'.cache
      rw [show ({ s' with primary := Val.bool true :: p, cache := s'.cache } : St (List Val)) = { s' with primary := Val.bool true :: p } from rfl] at this
      rw [this]; rfl
    · rw [h4]
      exact hr _ ca

/-- One step, its operation captured. -/
theorem runStep_cpt {c : Ctx} (i : Nat) (op : Op) (s : St (List Val)) (cap : Cap)
    (h : ∀ s' : St (List Val), s'.primary = s.primary → (isConditional op.code = true ∨ s.negative = 0) → Cpt c.env cap (runOp c i op (s', cap)) (Machine.runOp c.env i op s')) :
    Cpt c.env cap (runStep c i op (s, cap)) (Machine.runStep c.env i op s) := by
  unfold runStep Machine.runStep
  by_cases hd : op.data.length > 520
  · rw [if_pos hd, if_pos hd]; exact .pure
  rw [if_neg hd, if_neg hd]
  refine Cpt.bind fun b s1 h1 => ?_
  have p1 : s1.primary = s.primary ∧ s1.negative = s.negative := by
    unfold opsIncrementOp at h1
    split at h1
    · cases h1; exact ⟨rfl, rfl⟩
    · simp only [Option.some.injEq, Prod.mk.injEq] at h1
      rw [← h1.2]; exact ⟨rfl, rfl⟩
  by_cases hb : (!b) = true
  · rw [if_pos hb, if_pos hb]; exact .pure
  rw [if_neg hb, if_neg hb]
  refine Cpt.bind fun b s2 h2 => ?_
  have p2 : s2 = s1 ∧ (b = true → isConditional op.code = true ∨ s1.negative = 0) := by
    split at h2
    · rename_i hcd; cases h2; exact ⟨rfl, fun _ => .inl hcd⟩
    · cases h2; exact ⟨rfl, fun hb => .inr (by simpa using hb)⟩
  by_cases hb : b = true
  · rw [if_pos hb, if_pos hb]
    refine Cpt.then (h s2 (by rw [p2.1, p1.1]) (p1.2 ▸ p2.2 hb)) ?_ ?_
    · intro r
      cases r with
      | some err => rfl
      | none => simp only [lift_ite, lift_bind, lift_pure]
    · intro r s' p
      cases r with
      | some err => exact ⟨some err, fun _ _ => rfl⟩
      | none =>
        refine ⟨if decide (p.length + 1 + s'.alternate.length > 1000) then some .invalid_stack_size else none, ?_⟩
        intro v ca
        simp only [mbind, isStackOverflow, StackImpl.size, Option.bind_some, List.length_cons]
        split <;> rfl
  · rw [if_neg hb, if_neg hb]; exact .pure

/-- An operation that a program that can capture may hold before its last. -/
def Plain (o : Op) : Prop := o.code ≠ 172 ∧ o.code ≠ 173 ∧ o.code ≠ 174 ∧ o.code ≠ 175

theorem Plain.quiet {o : Op} (h : Plain o) (c : Ctx) : Quiet c o :=
  ⟨fun h' => by rcases h' with h' | h' <;> [exact absurd h' h.1; exact absurd h' h.2.1],
   fun h' => by rcases h' with h' | h' <;> [exact absurd h' h.2.2.1; exact absurd h' h.2.2.2]⟩

theorem plain_of_lt {o : Op} (h : o.code.toNat < 172) : Plain o := by
  refine ⟨?_, ?_, ?_, ?_⟩ <;> (intro hc; rw [hc] at h; exact absurd h (by decide))

theorem plain_data {o : Op} (h : o.Consistent) (hd : o.data ≠ []) : Plain o := by
  apply plain_of_lt
  by_cases hc : 79 ≤ o.code
  · exact absurd (consistent_large h hc).1 hd
  · have := UInt8.not_le.1 hc
    have := UInt8.lt_iff_toNat_lt.1 this
    have e : (79 : UInt8).toNat = 79 := rfl
    omega

/-- The patterns that capture: nothing but the last operation checks signatures. -/
theorem batchable_shape {ops : List Op} (hok : OpsOK ops)
    (h : Pattern.payPublicKey ops = true ∨ payKeyHashPattern ops = true ∨ Pattern.payMultisigStandard ops = true) :
    ∃ init last, ops = init ++ [last] ∧ (∀ o ∈ init, Plain o) ∧
      (last.code = 172 ∨ last.code = 174 ∧ ∃ init' o, init = init' ++ [o] ∧ isPositive o.code = true) := by
  rcases h with h | h | h
  · unfold Pattern.payPublicKey at h
    split at h
    · rename_i a b
      simp only [Bool.and_eq_true, beq_iff_eq] at h
      refine ⟨[a], b, rfl, ?_, .inl h.2⟩
      have hc := Pattern.OpsOK_init hok [a] [b] rfl (by simp)
      intro o ho
      simp only [List.mem_singleton] at ho
      subst ho
      refine plain_data (hc o (by simp)) ?_
      intro hd
      rw [hd] at h
      exact absurd h.1 (by decide)
    · cases h
  · unfold payKeyHashPattern at h
    split at h
    · rename_i a b d f g
      simp only [Bool.and_eq_true, beq_iff_eq] at h
      obtain ⟨⟨⟨⟨h1, h2⟩, h3⟩, h4⟩, h5⟩ := h
      refine ⟨[a, b, d, f], g, rfl, ?_, .inl h5⟩
      have hc := Pattern.OpsOK_init hok [a, b, d, f] [g] rfl (by simp)
      intro o ho
      simp only [List.mem_cons, List.not_mem_nil, or_false] at ho
      rcases ho with rfl | rfl | rfl | rfl
      · exact plain_of_lt (by rw [h1]; decide)
      · exact plain_of_lt (by rw [h2]; decide)
      · refine plain_data (hc o (by simp)) ?_
        intro hd
        rw [hd] at h3
        exact absurd h3 (by decide)
      · exact plain_of_lt (by rw [h4]; decide)
    · cases h
  · unfold Pattern.payMultisigStandard at h
    split at h
    · rename_i f s l hf hs hl
      split at h
      · cases h
      · rename_i hg
        split at h
        · cases h
        · rename_i hp
          dsimp only at h
          split at h
          · cases h
          · have hlen : 4 ≤ ops.length := by by_contra hx; exact hg (.inl (by omega))
            have hcode : l.code = 174 := by by_contra hx; exact hg (.inr hx)
            simp only [Bool.or_eq_true, Bool.not_eq_true', not_or, Bool.not_eq_false] at hp
            -- ops = f :: keys ++ [s, l]
            obtain ⟨q, hq⟩ : ∃ q, ops = q ++ [l] := by
              have := List.dropLast_append_getLast? l hl
              exact ⟨_, this.symm⟩
            have hql : q.length + 1 = ops.length := by rw [hq]; simp
            have hqs : q.getLast? = some s := by
              rw [hq, List.getElem?_append_left (by simp; omega)] at hs
              rw [List.getLast?_eq_getElem?]
              simpa using hs
            obtain ⟨r, hr⟩ : ∃ r, q = r ++ [s] := ⟨_, (List.dropLast_append_getLast? s hqs).symm⟩
            have hrl : r.length + 2 = ops.length := by rw [← hql, hr]; simp
            obtain ⟨keys, hk⟩ : ∃ keys, r = f :: keys := by
              cases r with
              | nil => simp at hrl; omega
              | cons a r' =>
                rw [hq, hr] at hf
                simp at hf
                exact ⟨r', by rw [hf]⟩
            have hpos : ∀ o : Op, isPositive o.code = true → Plain o := by
              intro o ho
              apply plain_of_lt
              unfold isPositive at ho
              simp only [Bool.and_eq_true, decide_eq_true_eq] at ho
              have := UInt8.le_iff_toNat_le.1 ho.2
              have e : (96 : UInt8).toNat = 96 := rfl
              omega
            have hall : ∀ o ∈ keys, Ec.isPublicKey o.data = true := by
              have e : (ops.drop 1).take (ops.length - 3) = keys := by
                have : ops = f :: (keys ++ [s, l]) := by rw [hq, hr, hk]; simp
                rw [this]
                simp only [List.drop_succ_cons, List.drop_zero, List.length_cons, List.length_append, List.length_nil]
                rw [List.take_left' (by omega)]
              rw [e, List.all_eq_true] at h
              exact h
            have hc := Pattern.OpsOK_init hok q [l] hq (by simp)
            refine ⟨q, l, hq, ?_, .inr ⟨hcode, r, s, hr, hp.2⟩⟩
            intro o ho
            have ho' := ho
            rw [hr, hk] at ho
            simp only [List.cons_append, List.mem_cons, List.mem_append, List.not_mem_nil, or_false] at ho
            rcases ho with rfl | ho | rfl
            · exact hpos o hp.1
            · refine plain_data (hc o ho') ?_
              intro hd
              have := hall o ho
              rw [hd] at this
              exact absurd this (by decide)
            · exact hpos o hp.2
    · cases h

/-- The step of an OP_1 to OP_16 that succeeds leaves its number on top, if the branch is taken. -/
theorem runStep_number (e : Env) (i : Nat) (o : Op) (h : isPositive o.code = true) (s s' : St (List Val))
    (hs : Machine.runStep e i o s = some (none, s')) :
    (∃ (n : Nat) (p : List Val), s'.primary = .int n :: p ∧ n ≤ 16) ∨ s'.negative ≠ 0 := by
  unfold isPositive at h
  simp only [Bool.and_eq_true, decide_eq_true_eq] at h
  have h1 := UInt8.le_iff_toNat_le.1 h.1
  have h2 := UInt8.le_iff_toNat_le.1 h.2
  have e1 : (81 : UInt8).toNat = 81 := rfl
  have e2 : (96 : UInt8).toNat = 96 := rfl
  have hcond : isConditional o.code = false := by
    unfold isConditional
    simp only [List.mem_cons, List.not_mem_nil, or_false, decide_eq_false_iff_not, not_or]
    refine ⟨?_, ?_, ?_, ?_⟩ <;> (intro hc; rw [hc] at h2; exact absurd h2 (by decide))
  have hop : (Machine.runOp e i o : M (List Val) Res) = opPushNumber ((o.code.toNat : Int) - 80) := by
    unfold Machine.runOp
    split <;> first | (exfalso; omega) | skip
    rw [if_neg (by omega), if_pos (by omega)]
  unfold Machine.runStep at hs
  rw [hcond, hop] at hs
  simp only [Bool.false_eq_true, if_false, mbind] at hs
  split at hs
  · cases hs
  · obtain ⟨b, s1, hs1⟩ : ∃ b s1, opsIncrementOp e o s = some (b, s1) := by
      unfold opsIncrementOp
      split
      · exact ⟨_, _, rfl⟩
      · exact ⟨_, _, rfl⟩
    rw [mbind, hs1] at hs
    simp only [Option.bind_some] at hs
    split at hs
    · cases hs
    · rw [mbind] at hs
      simp only [isSuccess, Option.bind_some] at hs
      split at hs
      · left
        rw [mbind] at hs
        simp only [opPushNumber, mbind, push, mpure, Option.bind_some, isStackOverflow, StackImpl.push] at hs
        split at hs
        · cases hs
        · simp only [mpure, Option.some.injEq, Prod.mk.injEq] at hs
          refine ⟨o.code.toNat - 80, s1.primary, ?_, by omega⟩
          rw [← hs.2]
          simp only [List.cons.injEq, Val.int.injEq, and_true]
          omega
      · right
        rename_i hn
        simp only [mpure, Option.some.injEq, Prod.mk.injEq] at hs
        rw [← hs.2]
        intro h0
        rw [h0] at hn
        exact hn rfl

/-- The last step of a loop. -/
theorem runLoop_last (e : Env) (i : Nat) (init : List Op) (o : Op) (s s' : St (List Val))
    (h : Machine.runLoop e i (init ++ [o]) s = some (none, s')) : ∃ s0, Machine.runStep e (i + init.length) o s0 = some (none, s') := by
  rw [runLoop_append_inline, mbind] at h
  cases hr : Machine.runLoop e i init s with
  | none => rw [hr] at h; cases h
  | some r =>
    obtain ⟨r, s0⟩ := r
    rw [hr] at h
    cases r with
    | some err => cases h
    | none =>
      refine ⟨s0, ?_⟩
      simp only [Option.bind_some, Machine.runLoop, mbind] at h
      cases hs : Machine.runStep e (i + init.length) o s0 with
      | none => rw [hs] at h; cases h
      | some r =>
        obtain ⟨r, s1⟩ := r
        rw [hs] at h
        cases r with
        | some err => cases h
        | none => cases h; rfl

/-- The loop of a program that captures. -/
theorem runLoop_cpt {c : Ctx} (hc : c.Crypto) (h3 : c.env.flags.bip342 = false) (hok : OpsOK c.env.ops)
    (h : Pattern.payPublicKey c.env.ops = true ∨ payKeyHashPattern c.env.ops = true ∨ Pattern.payMultisigStandard c.env.ops = true)
    (s : St (List Val)) (cap : Cap) : Cpt c.env cap (runLoop c 0 c.env.ops (s, cap)) (Machine.runLoop c.env 0 c.env.ops s) := by
  obtain ⟨init, last, h1, h2, h4⟩ := batchable_shape hok h
  rw [h1, runLoop_append, runLoop_append_inline, runLoop_lift c h3 init 0 (fun o ho => (h2 o ho).quiet c)]
  refine Cpt.bind fun r s' hs => ?_
  cases r with
  | some err => exact .pure
  | none =>
    refine Cpt.then (runStep_cpt _ last s' cap ?_) (g := fun r => match r with
      | some err => Pure.pure (some err)
      | none => Machine.runLoop c.env (0 + init.length + 1) []) ?_ ?_
    · intro s2 hp hn
      rcases h4 with h4 | ⟨h4, init', o, h5, h6⟩
      · have e1 : runOp c (0 + init.length) last = opCheckSig c := by unfold runOp; rw [if_pos h4]
        have e2 : (Machine.runOp c.env (0 + init.length) last : M (List Val) Res) = Machine.opCheckSig c.env := by
          unfold Machine.runOp; rw [h4]; rfl
        rw [e1, e2]
        exact opCheckSig_cpt hc h3 s2 cap
      · have e1 : runOp c (0 + init.length) last = opCheckMultisig c := by unfold runOp; rw [h4]; rfl
        have e2 : (Machine.runOp c.env (0 + init.length) last : M (List Val) Res) = Machine.opCheckMultisig c.env := by
          unfold Machine.runOp; rw [h4]; rfl
        rw [e1, e2]
        have hn0 : s'.negative = 0 := by
          rcases hn with hn | hn
          · rw [h4] at hn; exact absurd hn (by decide)
          · exact hn
        rw [h5] at hs
        obtain ⟨s0, hs0⟩ := runLoop_last c.env 0 init' o s s' hs
        rcases runStep_number c.env _ o h6 s0 s' hs0 with ⟨n, p, h7, h8⟩ | h7
        · exact opCheckMultisig_cpt hc h3 s2 cap n p (by rw [hp, h7]) h8
        · exact absurd hn0 h7
    · intro r
      cases r <;> rfl
    · intro r s' p
      cases r with
      | some err => exact ⟨some err, fun _ _ => rfl⟩
      | none => exact ⟨none, fun _ _ => rfl⟩

/-- What makes a program capture. -/
def Batchable (ops : List Op) : Prop :=
  Pattern.payPublicKey ops = true ∨ payKeyHashPattern ops = true ∨ Pattern.payMultisigStandard ops = true

/-- A whole program. -/
theorem run_cpt {c : Ctx} (hc : c.Crypto) (h3 : c.env.flags.bip342 = false) (hok : OpsOK c.env.ops) (s : St (List Val)) (cap : Cap) :
    run c (s, cap) = attach cap (Machine.run c.env s) ∨
      Batchable c.env.ops ∧ Cpt c.env cap (run c (s, cap)) (Machine.run c.env s) := by
  by_cases h : Batchable c.env.ops
  · right
    refine ⟨h, ?_⟩
    unfold run Machine.run
    refine Cpt.bind fun r s' hs => ?_
    cases r with
    | some err => exact .pure
    | none =>
      refine Cpt.then (runLoop_cpt hc h3 hok h s' cap) ?_ ?_
      · intro r
        cases r with
        | some err => rfl
        | none => simp only [lift_ite, lift_bind, lift_pure]
      · intro r s' p
        cases r with
        | some err => exact ⟨some err, fun _ _ => rfl⟩
        | none =>
          refine ⟨if (!s'.condition.isEmpty) = true then some .invalid_stack_scope else none, ?_⟩
          intro v ca
          simp only [mbind, isBalanced, Option.bind_some]
          split <;> rfl
  · left
    unfold Batchable at h
    simp only [not_or, Bool.not_eq_true] at h
    have : run c = lift (Machine.run c.env) := by
      refine run_lift c h3 fun o _ => ⟨fun _ => ?_, fun _ => ?_⟩
      · simp [ecdsaBatchable, h.1, h.2.1]
      · simp [multisigBatchable, h.2.2]
    rw [this]
    rfl

end Verif.Capture
