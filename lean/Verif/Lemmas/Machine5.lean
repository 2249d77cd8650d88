import Verif.Lemmas.Machine4
import Mathlib.Data.Nat.Bitwise
/-! Remaining handlers and the dispatch. -/
namespace Verif.Machine
open Verif Verif.Num Verif.Spec Verif.Spec.Script

theorem opCheckMultisigVerify_refines (e : Env) (hops : ∀ o ∈ e.ops, o.Consistent)
    (htot : e.flags.bip342 = false → ∀ sub f, (e.sighash sub f).isSome = true) :
    Refines e (opCheckMultisigVerify e)
      (fun t => if e.flags.bip342 then none else do let (ok, t) ← checkMultisig e t; if ok then return t else none) := by
  intro s t hr
  cases h342 : e.flags.bip342
  swap
  · refine ⟨unevaluated 175, s, ?_, ?_⟩
    · unfold opCheckMultisigVerify; rw [h342]; rfl
    · exact .inl rfl
  obtain ⟨r, s', h1, h2, h3⟩ := checkMultisig_ref e hops h342 (htot h342) s t hr
  refine ⟨r, s', h1, ?_⟩
  simp only [Bool.false_eq_true, if_false]
  split at h3
  · obtain ⟨t', k1, k2⟩ := h3
    simp only [k1]
    exact ⟨t', rfl, k2, fun w v hv => w.1 v (h2 v hv)⟩
  · obtain ⟨t', k1, k2⟩ := h3
    simp [k1]
  · rcases h3 with ⟨h66, _⟩ | ⟨t', k1, k2⟩
    · simp [h66]
    · simp [k1]
  · simp [h3.1]

theorem opCheckMultisig_refines (e : Env) (hops : ∀ o ∈ e.ops, o.Consistent)
    (htot : e.flags.bip342 = false → ∀ sub f, (e.sighash sub f).isSome = true) :
    Refines e (opCheckMultisig e)
      (fun t => if e.flags.bip342 then none else do let (ok, t) ← checkMultisig e t; return { t with stack := encodeBool ok :: t.stack }) := by
  intro s t hr
  cases h342 : e.flags.bip342
  swap
  · refine ⟨unevaluated 174, s, ?_, ?_⟩
    · unfold opCheckMultisig; rw [h342]; rfl
    · exact .inl rfl
  obtain ⟨r, s', h1, h2, h3⟩ := checkMultisig_ref e hops h342 (htot h342) s t hr
  have hsm : ∀ b, Within s → ∀ v ∈ (Val.bool b :: s'.primary) ++ s'.alternate, Small v := by
    intro b w v hv
    rcases List.mem_cons.1 hv with rfl | hv
    · trivial
    · exact w.1 v (h2 v hv)
  have hun : multisigFatal r = false → ¬ (e.flags.bip66 = true ∧ r = some .op_check_multisig_decode_signature) →
      opCheckMultisig e s = some (none, { s' with primary := .bool (r == none) :: s'.primary }) := by
    intro hf hd
    simp only [opCheckMultisig, h342, Bool.false_eq_true, if_false, mbind, h1, Option.bind_some, hf]
    rw [if_neg hd]
    rfl
  simp only [Bool.false_eq_true, if_false]
  split at h3
  · obtain ⟨t', k1, k2⟩ := h3
    refine ⟨_, _, hun rfl (by simp), ?_⟩
    simp only [k1]
    exact ⟨_, rfl, k2.push _ _ rfl, hsm _⟩
  · obtain ⟨t', k1, k2⟩ := h3
    refine ⟨_, _, hun rfl (by simp), ?_⟩
    simp only [k1]
    exact ⟨_, rfl, k2.push _ _ rfl, hsm _⟩
  · cases h66 : e.flags.bip66
    · rw [h66] at h3
      simp at h3
      obtain ⟨t', k1, k2⟩ := h3
      refine ⟨_, _, hun rfl (by simp [h66]), ?_⟩
      simp only [k1]
      exact ⟨_, rfl, k2.push _ _ rfl, hsm _⟩
    · refine ⟨some .op_check_multisig_decode_signature, s', ?_, .inr (by simp)⟩
      simp only [opCheckMultisig, h342, Bool.false_eq_true, if_false, mbind, h1, Option.bind_some, h66]
      rfl
  · rename_i err _ _
    refine ⟨some err, s', ?_, ?_⟩
    · simp only [opCheckMultisig, h342, Bool.false_eq_true, if_false, mbind, h1, Option.bind_some, h3.2, if_true, mpure]
    · simp [h3.1]

theorem peek40_mk (v : Val) (p al co ne no bu o ca) :
    peekUnsigned40 (S := List Val) ⟨v :: p, al, co, ne, no, bu, o, ca⟩ =
      some ((num 5 v.toChunk).bind fun n => if n < 0 then none else some n.toNat, ⟨v :: p, al, co, ne, no, bu, o, ca⟩) := by
  simp only [peekUnsigned40, mbind, isStackEmpty_mk, Option.bind_some, Bool.false_eq_true, if_false, top_mk]
  rw [toSigned_eq 5 64 (by omega) (by omega)]
  cases num 5 v.toChunk with
  | none => rfl
  | some n =>
    simp only [Option.bind_some]
    by_cases h : n < 0
    · simp only [h, if_true]; rfl
    · simp only [h, if_false]; rfl

theorem peek40_nil (al co ne no bu o ca) :
    peekUnsigned40 (S := List Val) ⟨[], al, co, ne, no, bu, o, ca⟩ = some (none, ⟨[], al, co, ne, no, bu, o, ca⟩) := rfl

/-- A handler that only reads the stack. -/
theorem readonly_refines (e : Env) (h : M (List Val) Res) (ok : List Bytes → Bool)
    (hh : ∀ s : St (List Val), ∃ r, h s = some (r, s) ∧ (r = none ↔ ok (chunks s.primary) = true)) :
    Refines e h (fun t => if ok t.stack then some t else none) := by
  intro s t hr
  obtain ⟨r, h1, h2⟩ := hh s
  rw [hr.stack] at h2
  refine ⟨r, s, h1, ?_⟩
  cases r with
  | none => exact ⟨t, if_pos (h2.1 rfl), hr, fun w => w.1⟩
  | some err => exact .inl (if_neg fun hc => by cases h2.2 hc)

theorem opCltv_refines (e : Env) :
    Refines e (opCheckLocktimeVerify e) (fun t => if !e.flags.bip65 || lockTimeOk e t.stack then some t else none) := by
  apply readonly_refines e _ (fun s => !e.flags.bip65 || lockTimeOk e s)
  rintro ⟨p, al, co, ne, no, bu, o, ca⟩
  unfold opCheckLocktimeVerify
  cases h65 : e.flags.bip65
  · exact ⟨none, rfl, by simp⟩
  · simp only [Bool.not_true, Bool.false_eq_true, if_false, Bool.false_or]
    by_cases hf : e.sequence = 0xffffffff
    · simp only [hf, if_true]
      refine ⟨_, rfl, ?_⟩
      unfold lockTimeOk
      rcases p with _ | ⟨a, p⟩
      · simp
      · simp only [chunks, List.map]
        cases num 5 a.toChunk <;> simp [hf]
    · simp only [hf, if_false, mbind]
      rcases p with _ | ⟨a, p⟩
      · exact ⟨_, rfl, by simp [lockTimeOk]⟩
      · simp only [peek40_mk, Option.bind_some, chunks, List.map, lockTimeOk]
        cases num 5 a.toChunk with
        | none => exact ⟨_, rfl, by simp⟩
        | some n =>
          simp only [Option.bind_some]
          by_cases hn : n < 0
          · simp only [hn, if_true]
            exact ⟨_, rfl, by simp [show ¬ 0 ≤ n by omega]⟩
          · simp only [hn, if_false]
            have e1 : (n.toNat < 500000000) ↔ n < 500000000 := by omega
            have e2 : (n.toNat > e.locktime) ↔ ¬ n ≤ e.locktime := by omega
            simp only [e1, e2]
            by_cases c1 : (n < 500000000 ↔ e.locktime < 500000000)
            · have : (decide (n < 500000000) != decide (e.locktime < 500000000)) = false := by simp [c1]
              rw [this]
              by_cases c2 : n ≤ e.locktime
              · simp only [Bool.false_eq_true, if_false, c2, not_true]
                exact ⟨_, rfl, by simp [c1, hf]; omega⟩
              · simp only [Bool.false_eq_true, if_false, c2, not_false_eq_true, if_true]
                exact ⟨_, rfl, by simp⟩
            · have : (decide (n < 500000000) != decide (e.locktime < 500000000)) = true := by
                by_cases d1 : n < 500000000 <;> by_cases d2 : e.locktime < 500000000 <;> simp_all
              rw [this]
              simp only [if_true]
              refine ⟨_, rfl, ?_⟩
              simp only [reduceCtorEq, false_iff, Bool.and_eq_true, decide_eq_true_eq]
              tauto

theorem and_mask (v : Nat) : v &&& 0x0040ffff = (if v.testBit 22 then 2 ^ 22 else 0) + v % 2 ^ 16 := by
  have h1 : (if v.testBit 22 then 2 ^ 22 else 0) + v % 2 ^ 16 = (if v.testBit 22 then 2 ^ 22 else 0) ||| v % 2 ^ 16 := by
    cases v.testBit 22
    · simp
    · simp only [if_true]
      have hlt : v % 2 ^ 16 < 2 ^ 22 := lt_of_lt_of_le (Nat.mod_lt _ (by norm_num)) (by norm_num)
      have := Nat.two_pow_add_eq_or_of_lt hlt 1
      simpa using this
  rw [h1]
  apply Nat.eq_of_testBit_eq
  intro i
  rw [Nat.testBit_and, Nat.testBit_or, Nat.testBit_mod_two_pow]
  have hm : (0x0040ffff : Nat).testBit i = (decide (i = 22) || decide (i < 16)) := by
    have : (0x0040ffff : Nat) = 2 ^ 22 ||| (2 ^ 16 - 1) := by decide
    rw [this, Nat.testBit_or, Nat.testBit_two_pow, Nat.testBit_two_pow_sub_one]
    congr 1
    simp [eq_comm]
  rw [hm]
  have hp : (if v.testBit 22 then 2 ^ 22 else 0 : Nat).testBit i = (decide (i = 22) && v.testBit 22) := by
    cases v.testBit 22
    · simp
    · simp only [if_true, Nat.testBit_two_pow, Bool.and_true]; simp [eq_comm]
  rw [hp]
  by_cases h22 : i = 22
  · subst h22; simp
  · simp [h22, Bool.and_comm]

theorem and_high (v : Nat) : v &&& 0x80000000 ≠ 0 ↔ v.testBit 31 = true := by
  rw [show (0x80000000 : Nat) = 2 ^ 31 by norm_num, Nat.and_two_pow]
  cases v.testBit 31 <;> simp

theorem opCsv_refines (e : Env) :
    Refines e (opCheckSequenceVerify e) (fun t => if !e.flags.bip112 || sequenceOk e t.stack then some t else none) := by
  apply readonly_refines e _ (fun s => !e.flags.bip112 || sequenceOk e s)
  rintro ⟨p, al, co, ne, no, bu, o, ca⟩
  unfold opCheckSequenceVerify
  cases h112 : e.flags.bip112
  · exact ⟨none, rfl, by simp⟩
  · simp only [Bool.not_true, Bool.false_eq_true, if_false, Bool.false_or, mbind]
    unfold sequenceOk
    rcases p with _ | ⟨a, p⟩
    · exact ⟨_, rfl, by simp⟩
    · simp only [peekUnsigned32, mbind, peek40_mk, Option.bind_some, chunks, List.map]
      cases num 5 a.toChunk with
      | none => exact ⟨_, rfl, by simp⟩
      | some n =>
        simp only [Option.bind_some]
        by_cases hn : n < 0
        · simp only [hn, if_true]
          exact ⟨_, rfl, by simp⟩
        · simp only [hn, if_false, mpure, Option.bind_some]
          generalize hv : n.toNat = v
          have b31 : (v % 2 ^ 32).testBit 31 = v.testBit 31 := by rw [Nat.testBit_mod_two_pow]; simp
          have b22 : (v % 2 ^ 32).testBit 22 = v.testBit 22 := by rw [Nat.testBit_mod_two_pow]; simp
          have b16 : (v % 2 ^ 32) % 2 ^ 16 = v % 2 ^ 16 := Nat.mod_mod_of_dvd _ (by norm_num)
          rw [b31, b22, b16]
          simp only [and_high, and_mask]
          have hseq : (e.sequence &&& 0x80000000 = 0) ↔ e.sequence.testBit 31 = false := by
            have := and_high e.sequence
            by_cases hx : e.sequence &&& 0x80000000 = 0
            · simp only [hx, true_iff]; cases ht : e.sequence.testBit 31
              · rfl
              · exact absurd hx (this.2 ht)
            · simp only [hx, false_iff]; rw [this.1 hx]; simp
          simp only [hseq]
          have l1 : v % 2 ^ 16 < 2 ^ 16 := Nat.mod_lt _ (by norm_num)
          have l2 : e.sequence % 2 ^ 16 < 2 ^ 16 := Nat.mod_lt _ (by norm_num)
          generalize v % 2 ^ 16 = x at *
          generalize e.sequence % 2 ^ 16 = y at *
          cases v.testBit 31
          · simp only [Bool.false_eq_true, if_false]
            by_cases hver : e.version < 2
            · simp only [hver, if_true]
              exact ⟨_, rfl, by simp; omega⟩
            · simp only [hver, if_false]
              cases e.sequence.testBit 31
              · simp only [Bool.false_eq_true, if_false]
                cases v.testBit 22 <;> cases e.sequence.testBit 22
                · simp only [bne_self_eq_false, Bool.false_eq_true, if_false]
                  by_cases hxy : x > y
                  · simp only [hxy, if_true]; exact ⟨_, rfl, by simp; omega⟩
                  · simp only [hxy, if_false]; exact ⟨_, rfl, by simp; omega⟩
                · exact ⟨_, rfl, by simp; omega⟩
                · exact ⟨_, rfl, by simp; omega⟩
                · simp only [bne_self_eq_false, Bool.false_eq_true, if_false, if_true]
                  by_cases hxy : x > y
                  · simp only [hxy, if_true]; exact ⟨_, rfl, by simp; omega⟩
                  · simp only [hxy, if_false]; exact ⟨_, rfl, by simp; omega⟩
              · exact ⟨_, rfl, by simp⟩
          · exact ⟨_, rfl, by simp⟩

theorem sigAdd_block (e : Env) (k g : Bytes) (s : St (List Val)) (t : State) (h342 : e.flags.bip342 = true) (hr : Rel e s t) :
    ∃ r c, checkSigAddSchnorr e k g s = some (r, { s with cache := c }) ∧ (c.set = true → e.sighashTap s.offset c.flags = some c.hash) ∧
      (r = none ↔ ¬ (k.length = 32 ∧ (!checkSchnorr e g k t) = true)) ∧ r ≠ some .op_check_multisig_decode_signature := by
  unfold checkSigAddSchnorr checkSchnorr
  by_cases hk : k.length = 32
  swap
  · simp only [hk, if_false]; exact ⟨none, s.cache, rfl, hr.cache h342, by simp, by simp⟩
  simp only [hk, if_true, true_and]
  rw [schnorrSplit_eq]
  generalize (if g.length = 64 then some (g, (0 : UInt8))
        else if g.length = 65 ∧ g.getLastD 0 ∈ ([1, 2, 3, 0x81, 0x82, 0x83] : List UInt8) then
          some (g.take 64, g.getLastD 0) else none) = sp
  rcases sp with _ | ⟨sg, fl⟩
  · exact ⟨_, s.cache, rfl, hr.cache h342, by simp, by simp⟩
  · simp only [mbind, cached_eq, Option.bind_some]
    have hsep := hr.sep
    have hcache := hr.cache h342
    obtain ⟨p, al, co, ne, no, bu, o, ca⟩ := s
    simp only at hsep hcache ⊢
    by_cases hset : (ca.set && ca.flags == fl) = true
    · rw [hset]
      simp only [Bool.and_eq_true, beq_iff_eq] at hset
      have h2 := hcache hset.1
      rw [hset.2] at h2
      simp only [Bool.not_true, Bool.false_eq_true, if_false, mpure, Option.bind_some, mbind, cachedHash, hset.1, if_true]
      rw [← hsep, h2]
      cases hv : e.verifySchnorr k ca.hash sg
      · exact ⟨_, ca, rfl, fun _ => by rw [hset.2]; exact h2, by simp [hv], by simp⟩
      · exact ⟨_, ca, rfl, fun _ => by rw [hset.2]; exact h2, by simp [hv], by simp⟩
    · have hs2 : (ca.set && ca.flags == fl) = false := by simpa using hset
      rw [hs2]
      simp only [Bool.not_false, if_true, setHashTap]
      rw [← hsep]
      cases hh : e.sighashTap o fl with
      | none => exact ⟨_, ⟨false, fl, ca.hash⟩, rfl, nofun, by simp, by simp⟩
      | some h =>
        simp only [Option.bind_some, Bool.not_true, Bool.false_eq_true, if_false, mbind, cachedHash, if_true]
        cases hv : e.verifySchnorr k h sg
        · exact ⟨_, ⟨true, fl, h⟩, rfl, fun _ => hh, by simp [hv], by simp⟩
        · exact ⟨_, ⟨true, fl, h⟩, rfl, fun _ => hh, by simp [hv], by simp⟩

theorem opCheckSigAdd_refines (e : Env) : Refines e (opCheckSigAdd e) (fun t =>
    if !e.flags.bip342 then none
    else match t.stack with
    | key :: n :: sig :: s => do
      let n ← num 4 n
      let (ok, t) ← checkTap e sig key { t with stack := s }
      return { t with stack := encodeNum (if ok then n + 1 else n) :: s }
    | _ => none) := by
  rintro ⟨p, al, co, ne, no, bu, o, ca⟩ t hr
  cases h342 : e.flags.bip342
  · refine ⟨unevaluated 186, ⟨p, al, co, ne, no, bu, o, ca⟩, ?_, ?_⟩
    · unfold opCheckSigAdd; rw [h342]; rfl
    · exact .inl rfl
  have hs := hr.stack
  unfold opCheckSigAdd
  rw [h342]
  simp only [Bool.not_true, Bool.false_eq_true, if_false, ← hs, mbind]
  rcases p with _ | ⟨key, _ | ⟨n, _ | ⟨sig, p⟩⟩⟩
  · exact ⟨_, _, rfl, .inl rfl⟩
  · exact ⟨_, _, rfl, .inl rfl⟩
  · exact ⟨_, _, rfl, .inl rfl⟩
  simp only [stackSize_mk, Option.bind_some, List.length_cons, show ¬ (p.length + 1 + 1 + 1 < 3) by omega, if_false, mbind,
    popChunk_mk, chunks, List.map]
  have hr2 : Rel e ⟨p, al, co, ne, no, bu, o, ca⟩ { t with stack := List.map Val.toChunk p } :=
    ⟨rfl, hr.alt, hr.cond, hr.neg, hr.nops, hr.sep, hr.budget, hr.cache⟩
  generalize ht2 : ({ t with stack := List.map Val.toChunk p } : State) = t2 at *
  have hst2 : t2.stack = List.map Val.toChunk p := by rw [← ht2]
  generalize hk : key.toChunk = k at *
  generalize hg : sig.toChunk = g at *
  unfold checkTap
  by_cases hke : k = []
  · simp only [hke, if_true]
    refine ⟨_, _, rfl, .inl ?_⟩
    cases num 4 n.toChunk <;> rfl
  simp only [hke, if_false, mbind, popSigned_mk, Option.bind_some]
  cases hn : num 4 n.toChunk with
  | none => exact ⟨_, _, rfl, .inl rfl⟩
  | some m =>
    have hm := num_range hn
    simp only [Option.bind_some, mbind, popChunk_mk, Option.bind_eq_bind]
    rw [hg]
    have hsm : ∀ i : Int, -2 ^ 62 ≤ i ∧ i ≤ 2 ^ 62 → Within ⟨key :: n :: sig :: p, al, co, ne, no, bu, o, ca⟩ →
        ∀ v ∈ (Val.int i :: p) ++ al, Small v := by
      rintro i hi ⟨w1, w2⟩ v hv
      rcases List.mem_cons.1 hv with rfl | hv
      · exact hi
      · apply w1; simp at hv ⊢; tauto
    by_cases hge : g = []
    · simp only [hge, if_true]
      refine ⟨_, _, rfl, _, rfl, ?_, hsm m (by omega)⟩
      rw [← hst2]
      exact hr2.push (.int m) _ (encodeNum_eq m).symm
    simp only [hge, if_false, mbind]
    obtain ⟨r, c, k1, k2, k3, k4⟩ := sigAdd_block e k g ⟨p, al, co, ne, no, bu, o, ca⟩ t2 h342 hr2
    rw [k1]
    simp only [Option.bind_some]
    have hb := hr2.budget h342
    simp only at hb
    cases r with
    | some err =>
      have hc : (k.length = 32 ∧ (!checkSchnorr e g k t2) = true) := by
        by_contra hc; cases k3.2 hc
      refine ⟨some err, _, rfl, .inl ?_⟩
      rw [if_pos hc]
      by_cases hlt : t2.budget < 50 <;> simp [hlt]
    | none =>
      have hc := k3.1 rfl
      rw [if_neg hc]
      simp only [mbind, sigopsIncrement, Option.bind_some]
      by_cases hlt : t2.budget < 50
      · have h0 : bu - 50 = 0 := by omega
        simp only [if_pos hlt, h0]
        exact ⟨_, _, rfl, .inl rfl⟩
      · have h0 : (bu - 50 != 0) = true := by simp; omega
        simp only [if_neg hlt, h0]
        refine ⟨none, ⟨.int (m + 1) :: p, al, co, ne, no, bu - 50, o, c⟩, rfl, _, rfl, ?_, hsm (m + 1) (by omega)⟩
        rw [← hst2]
        have hr3 : Rel e ⟨p, al, co, ne, no, bu - 50, o, c⟩ { t2 with budget := t2.budget - 50 } :=
          ⟨hr2.stack, hr2.alt, hr2.cond, hr2.neg, hr2.nops, hr2.sep, fun _ => by simp only; omega, fun _ => k2⟩
        exact hr3.push (.int (m + 1)) _ (encodeNum_eq (m + 1)).symm

end Verif.Machine
