import Verif.Lemmas.Machine2
/-! Signature and lock handlers. -/
namespace Verif.Machine
open Verif Verif.Num Verif.Spec Verif.Spec.Script

/-! ### Subscripts -/

theorem leBytes_len (n v : Nat) : (leBytes n v).length = n := leBytes_length n v

theorem toData_length_le {o : Op} (h : o.Consistent) : o.toData.length ≤ 5 + o.data.length := by
  unfold Op.toData
  rw [h.notUnder]
  simp only [Bool.false_eq_true, if_false]
  split_ifs <;> simp [writeLE, leBytes_len] <;> omega

theorem u8ofNat_inj {m n : Nat} (hm : m < 256) (hn : n < 256) : UInt8.ofNat m = UInt8.ofNat n ↔ m = n := by
  constructor
  · intro h
    have := congrArg UInt8.toNat h
    simpa [Nat.mod_eq_of_lt hm, Nat.mod_eq_of_lt hn] using this
  · rintro rfl; rfl

/-- An operation is found by the stripper exactly when its bytes are those of the size-selected push. -/
theorem matchesStrip_push {o : Op} (h : o.Consistent) (d : Bytes) :
    matchesStrip o (opcodeFromSize d.length) d = true ↔ o.toData = pushBytes d := by
  unfold matchesStrip
  simp only [Bool.and_eq_true, beq_iff_eq]
  constructor
  · rintro ⟨h1, h2⟩
    unfold Op.toData pushBytes
    rw [h.notUnder, h1, h2]
    unfold opcodeFromSize
    simp only [Bool.false_eq_true, if_false]
    by_cases c1 : d.length ≤ 75
    · have e76 : UInt8.ofNat d.length ≠ 76 := fun hh => by
        have := (u8ofNat_inj (by omega) (by omega)).1 (hh.trans (show (76 : UInt8) = UInt8.ofNat 76 from rfl)); omega
      have e77 : UInt8.ofNat d.length ≠ 77 := fun hh => by
        have := (u8ofNat_inj (by omega) (by omega)).1 (hh.trans (show (77 : UInt8) = UInt8.ofNat 77 from rfl)); omega
      have e78 : UInt8.ofNat d.length ≠ 78 := fun hh => by
        have := (u8ofNat_inj (by omega) (by omega)).1 (hh.trans (show (78 : UInt8) = UInt8.ofNat 78 from rfl)); omega
      simp only [if_pos c1, if_neg e76, if_neg e77, if_neg e78]; rfl
    · by_cases c2 : d.length ≤ 255
      · simp [c1, c2]
      · by_cases c3 : d.length ≤ 65535
        · simp [c1, c2, c3, writeLE]
        · simp [c1, c2, c3, writeLE]
  · intro hd
    have hlen := toData_length_le h
    have hf := h.fits
    unfold SizeFits at hf
    unfold Op.toData pushBytes at hd
    rw [h.notUnder] at hd
    unfold opcodeFromSize
    simp only [Bool.false_eq_true, if_false] at hd
    by_cases c1 : d.length ≤ 75
    · simp only [if_pos c1] at hd ⊢
      have hh : o.code = UInt8.ofNat d.length := by
        have := congrArg List.head? hd; simpa using this
      have e76 : o.code ≠ 76 := fun k => by
        have := (u8ofNat_inj (m := d.length) (n := 76) (by omega) (by omega)).1 (hh.symm.trans k); omega
      have e77 : o.code ≠ 77 := fun k => by
        have := (u8ofNat_inj (m := d.length) (n := 77) (by omega) (by omega)).1 (hh.symm.trans k); omega
      have e78 : o.code ≠ 78 := fun k => by
        have := (u8ofNat_inj (m := d.length) (n := 78) (by omega) (by omega)).1 (hh.symm.trans k); omega
      refine ⟨hh, ?_⟩
      simp only [if_neg e76, if_neg e77, if_neg e78] at hd
      simpa using (List.cons.inj hd).2
    · by_cases c2 : d.length ≤ 255
      · simp only [if_neg c1, if_pos c2] at hd ⊢
        have hh : o.code = 76 := by have := congrArg List.head? hd; simpa using this
        refine ⟨hh, ?_⟩
        rw [if_pos hh] at hd
        simp at hd; exact hd.2.2
      · by_cases c3 : d.length ≤ 65535
        · simp only [if_neg c1, if_neg c2, if_pos c3] at hd ⊢
          have hh : o.code = 77 := by have := congrArg List.head? hd; simpa using this
          refine ⟨hh, ?_⟩
          rw [if_neg (by rw [hh]; decide), if_pos hh] at hd
          exact (List.append_inj (List.cons.inj hd).2 (by simp [writeLE, leBytes_len])).2
        · simp only [if_neg c1, if_neg c2, if_neg c3] at hd ⊢
          have hh : o.code = 78 := by have := congrArg List.head? hd; simpa using this
          refine ⟨hh, ?_⟩
          rw [if_neg (by rw [hh]; decide), if_neg (by rw [hh]; decide), if_pos hh] at hd
          exact (List.append_inj (List.cons.inj hd).2 (by simp [writeLE, leBytes_len])).2

theorem matchesStrip_sep {o : Op} (h : o.Consistent) : matchesStrip o 171 [] = true ↔ o.toData = [171] := by
  unfold matchesStrip
  simp only [Bool.and_eq_true, beq_iff_eq]
  unfold Op.toData
  rw [h.notUnder]
  simp only [Bool.false_eq_true, if_false]
  constructor
  · rintro ⟨h1, h2⟩; rw [h1, h2]; rfl
  · intro hd
    have hh : o.code = 171 := by have := congrArg List.head? hd; simpa using this
    refine ⟨hh, ?_⟩
    rw [hh] at hd; simpa using hd

theorem strip_any {o : Op} (h : o.Consistent) (sigs : List Bytes) :
    ((stripOps sigs).any fun (c, d) => matchesStrip o c d) = !decide (o.toData ≠ [171] ∧ ∀ d ∈ sigs, o.toData ≠ pushBytes d) := by
  rw [Bool.eq_iff_iff]
  unfold stripOps
  simp only [List.any_append, List.any_map, List.any_cons, List.any_nil, Bool.or_false, Bool.or_eq_true, List.any_eq_true,
    Bool.not_eq_true', decide_eq_false_iff_not, Function.comp, matchesStrip_push h, matchesStrip_sep h]
  constructor
  · rintro (⟨d, h1, h2⟩ | h1) ⟨k1, k2⟩
    · exact k2 d h1 h2
    · exact k1 h1
  · intro hh
    by_contra hc
    push Not at hc
    exact hh ⟨hc.2, fun d hd => hc.1 d hd⟩

theorem subscript_eq (e : Env) (hops : ∀ o ∈ e.ops, o.Consistent) (sigs : List Bytes) (s : St (List Val)) (t : State)
    (hs : s.offset = t.sep) : subscript e sigs s = some (scriptCode e sigs t, s) := by
  unfold subscript scriptCode
  rw [hs]
  simp only
  rw [Bool.and_comm]
  cases e.segwit && e.flags.bip143
  · simp only [Bool.false_eq_true, if_false]
    have hmem : ∀ o ∈ e.ops.drop t.sep, o.Consistent := fun o ho => hops o (List.mem_of_mem_drop ho)
    have hd : difference (e.ops.drop t.sep) (stripOps sigs) =
        (e.ops.drop t.sep).filter fun o => o.toData ≠ [171] ∧ ∀ d ∈ sigs, o.toData ≠ pushBytes d := by
      unfold difference
      apply List.filter_congr
      intro o ho
      rw [strip_any (hmem o ho)]; simp
    by_cases hi : isIntersecting (e.ops.drop t.sep) (stripOps sigs) = true
    · simp only [hi, Bool.not_true, Bool.false_eq_true, if_false]
      rw [hd]
    · have hi' : isIntersecting (e.ops.drop t.sep) (stripOps sigs) = false := by simpa using hi
      simp only [hi', Bool.not_false, if_true]
      rw [← hd]
      congr 2
      unfold difference
      symm
      rw [List.filter_eq_self]
      intro o ho
      unfold isIntersecting at hi'
      rw [List.any_eq_false] at hi'
      simpa using hi' o ho
  · simp

/-! ### OP_CHECKSIG -/

/-- Errors of op_check_sig_verify that fail op_check_sig. -/
def sigFatal (e : Env) (ec : Res) : Prop :=
  ec = some .op_check_sig_low_stack ∨ (e.flags.bip66 = true ∧ ec = some .op_check_sig_decode_signature) ∨
  (e.flags.bip342 = true ∧ (ec = some .op_check_sig_empty_key ∨ ec = some .op_check_sig_schnorr1 ∨
    ec = some .op_check_sig_schnorr2 ∨ ec = some .op_check_sig_schnorr3 ∨ ec = some .op_check_sig_budget))

theorem Rel.pop2 {e : Env} {a b : Val} {p al co ne no bu o ca} {t : State} (hr : Rel e ⟨a :: b :: p, al, co, ne, no, bu, o, ca⟩ t) :
    Rel e ⟨p, al, co, ne, no, bu, o, ca⟩ { t with stack := chunks p } :=
  ⟨rfl, hr.alt, hr.cond, hr.neg, hr.nops, hr.sep, hr.budget, hr.cache⟩

theorem schnorrSplit_eq (sig : Bytes) : schnorrSplit sig =
    (if sig.length = 64 then some (sig, 0)
    else if sig.length = 65 ∧ sig.getLastD 0 ∈ ([1, 2, 3, 0x81, 0x82, 0x83] : List UInt8) then
      some (sig.take 64, sig.getLastD 0)
    else none) := by
  have hb : isSchnorrSighash (sig.getLastD 0) = true ↔ sig.getLastD 0 ∈ ([1, 2, 3, 0x81, 0x82, 0x83] : List UInt8) := by
    simp [isSchnorrSighash]; tauto
  unfold schnorrSplit
  by_cases h1 : sig.length = 64
  · simp [h1]
  · by_cases h2 : sig.length = 65
    · simp only [h2, if_true, true_and, hb, show ¬ (65 = 64) by omega, if_false]
    · simp [h1, h2]

/-- The outcome of the Schnorr branch of op_check_sig_verify. -/
def schnorrErr (e : Env) (k g : Bytes) (off : Nat) : Option Err :=
  if k.length = 32 then
    match schnorrSplit g with
    | none => some .op_check_sig_schnorr1
    | some (sig, flags) => match e.sighashTap off flags with
      | none => some .op_check_sig_schnorr2
      | some hash => if e.verifySchnorr k hash sig then none else some .op_check_sig_schnorr3
  else none

theorem schnorrErr_eq (e : Env) (k g : Bytes) (t : State) :
    (k.length = 32 ∧ (!checkSchnorr e g k t) = true ∧ ∃ err, schnorrErr e k g t.sep = some err ∧
      (err = .op_check_sig_schnorr1 ∨ err = .op_check_sig_schnorr2 ∨ err = .op_check_sig_schnorr3)) ∨
    (¬ (k.length = 32 ∧ (!checkSchnorr e g k t) = true) ∧ schnorrErr e k g t.sep = none) := by
  unfold schnorrErr checkSchnorr
  by_cases hk : k.length = 32
  · simp only [hk, if_true, true_and]
    rw [schnorrSplit_eq]
    generalize (if g.length = 64 then some (g, (0 : UInt8))
          else if g.length = 65 ∧ g.getLastD 0 ∈ ([1, 2, 3, 0x81, 0x82, 0x83] : List UInt8) then
            some (g.take 64, g.getLastD 0) else none) = sp
    rcases sp with _ | ⟨sg, fl⟩
    · simp
    · simp only
      cases e.sighashTap t.sep fl with
      | none => simp
      | some h => cases e.verifySchnorr k h sg <;> simp
  · simp [hk]

theorem schnorr_block (e : Env) (k g : Bytes) (s : St (List Val)) :
    checkSigSchnorr e k g s = some (schnorrErr e k g s.offset, s) := by
  unfold schnorrErr checkSigSchnorr
  by_cases hk : k.length = 32
  · simp only [hk, if_true]
    cases schnorrSplit g with
    | none => rfl
    | some pr =>
      obtain ⟨sg, fl⟩ := pr
      simp only [mbind]
      rw [show (get : M (List Val) _) s = some (s, s) from rfl]
      simp only [Option.bind_some]
      cases e.sighashTap s.offset fl with
      | none => rfl
      | some h =>
        simp only
        cases e.verifySchnorr k h sg <;> rfl
  · simp only [hk, if_false]; rfl

theorem checkSigVerify_ref (e : Env) (hops : ∀ o ∈ e.ops, o.Consistent) (s : St (List Val)) (t : State) (hr : Rel e s t) :
    ∃ r s', opCheckSigVerify e s = some (r, s') ∧ (∀ v ∈ s'.primary ++ s'.alternate, v ∈ s.primary ++ s.alternate) ∧
      match checkSig e t with
      | none => sigFatal e r
      | some (true, t') => r = none ∧ Rel e s' t'
      | some (false, t') => (∃ err, r = some err) ∧ ¬ sigFatal e r ∧ Rel e s' t' := by
  obtain ⟨p, al, co, ne, no, bu, o, ca⟩ := s
  have hs := hr.stack
  rcases p with _ | ⟨key, _ | ⟨sig, p⟩⟩
  · refine ⟨_, _, rfl, fun v hv => hv, ?_⟩
    simp [checkSig, ← hs, sigFatal]
  · refine ⟨_, _, rfl, fun v hv => hv, ?_⟩
    simp [checkSig, ← hs, sigFatal]
  · have hr2 := hr.pop2
    have hsub : ∀ v ∈ p ++ al, v ∈ (key :: sig :: p) ++ al := fun v hv => by simp at hv ⊢; tauto
    simp only [opCheckSigVerify, mbind, stackSize_mk, Option.bind_some, List.length_cons,
      show ¬ (p.length + 1 + 1 < 2) by omega, if_false, popChunk_mk]
    unfold checkSig
    simp only [← hs, chunks, List.map]
    change Rel e _ { t with stack := List.map Val.toChunk p } at hr2
    generalize ht2 : ({ t with stack := List.map Val.toChunk p } : State) = t2 at *
    generalize hk : key.toChunk = k at *
    generalize hg : sig.toChunk = g at *
    have hsep : o = t2.sep := hr2.sep
    cases h342 : e.flags.bip342
    · simp only [Bool.false_eq_true, if_false]
      unfold checkEcdsa
      by_cases hge : g = []
      · simp only [hge, if_true, mpure]
        refine ⟨_, _, rfl, hsub, ?_⟩
        simp only [Option.pure_def, Option.bind_eq_bind, Option.bind_some]
        exact ⟨⟨_, rfl⟩, by simp [sigFatal], hr2⟩
      · simp only [hge, if_false, mbind, ecdsaSplit, mpure, Option.bind_some]
        cases hd : e.decodeSig g.dropLast e.flags.bip66 with
        | none =>
          refine ⟨_, _, rfl, hsub, ?_⟩
          cases h66 : e.flags.bip66
          · simp only [Bool.false_eq_true, if_false, Option.pure_def, Option.bind_eq_bind, Option.bind_some]
            exact ⟨⟨_, rfl⟩, by simp [sigFatal, h66], hr2⟩
          · simp [sigFatal, h66]
        | some sg =>
          simp only [mbind, subscript_eq e hops [g] ⟨p, al, co, ne, no, bu, o, ca⟩ t2 hsep, Option.bind_some]
          cases hh : e.sighash (scriptCode e [g] t2) (g.getLastD 0) with
          | none =>
            refine ⟨_, _, rfl, hsub, ?_⟩
            simp only [Option.pure_def, Option.bind_eq_bind, Option.bind_some]
            exact ⟨⟨_, rfl⟩, by simp [sigFatal], hr2⟩
          | some h =>
            simp only [Option.pure_def, Option.bind_eq_bind, Option.bind_some]
            cases hv : e.verifyEcdsa k h sg
            · exact ⟨_, _, rfl, hsub, ⟨_, rfl⟩, by simp [sigFatal], hr2⟩
            · exact ⟨_, _, rfl, hsub, rfl, hr2⟩
    · simp only [if_true]
      unfold checkTap
      by_cases hke : k = []
      · simp only [hke, if_true]
        exact ⟨_, _, rfl, hsub, by simp [sigFatal, h342]⟩
      simp only [hke, if_false]
      by_cases hge : g = []
      · simp only [hge, if_true]
        exact ⟨_, _, rfl, hsub, ⟨_, rfl⟩, by simp [sigFatal], hr2⟩
      simp only [hge, if_false]
      have hb := hr2.budget h342
      have hbudget : ∀ (K : ∀ v ∈ p ++ al, v ∈ (key :: sig :: p) ++ al), ∃ r s', ((do
          if !(← sigopsIncrement) then return some .op_check_sig_budget
          else return none : M (List Val) Res) ⟨p, al, co, ne, no, bu, o, ca⟩ = some (r, s')) ∧
          (∀ v ∈ s'.primary ++ s'.alternate, v ∈ (key :: sig :: p) ++ al) ∧
          (if t2.budget < 50 then r = some .op_check_sig_budget
           else r = none ∧ Rel e s' { t2 with budget := t2.budget - 50 }) := by
        intro K
        simp only [mbind, sigopsIncrement, Option.bind_some]
        simp only at hb
        by_cases hlt : t2.budget < 50
        · have : bu - 50 = 0 := by omega
          simp only [if_pos hlt, this]
          exact ⟨_, _, rfl, K, rfl⟩
        · have : bu - 50 ≠ 0 := by omega
          have hne : (bu - 50 != 0) = true := by simpa using this
          simp only [if_neg hlt, hne]
          refine ⟨_, _, rfl, K, rfl, ⟨hr2.stack, hr2.alt, hr2.cond, hr2.neg, hr2.nops, hr2.sep, ?_, hr2.cache⟩⟩
          intro _
          simp only
          omega
      rw [mbind, schnorr_block]
      simp only [Option.bind_some, hsep]
      rcases schnorrErr_eq e k g t2 with ⟨c1, c2, err, c3, c4⟩ | ⟨c1, c2⟩
      · rw [c3]
        refine ⟨_, _, rfl, hsub, ?_⟩
        have hnone : (if t2.budget < 50 then none
            else if k.length = 32 ∧ (!checkSchnorr e g k t2) = true then none
            else some (true, { t2 with budget := t2.budget - 50 }) : Option (Bool × State)) = none := by
          by_cases hlt : t2.budget < 50
          · rw [if_pos hlt]
          · rw [if_neg hlt, if_pos ⟨c1, c2⟩]
        rw [hnone]
        simp [sigFatal, h342]; tauto
      · simp only [c2, if_neg c1]
        obtain ⟨r, s', k1, k2, k3⟩ := hbudget hsub
        rw [hsep] at k1
        refine ⟨r, s', k1, k2, ?_⟩
        by_cases hlt : t2.budget < 50
        · rw [if_pos hlt] at k3 ⊢
          rw [k3]; simp [sigFatal, h342]
        · rw [if_neg hlt] at k3 ⊢
          exact k3

theorem opCheckSigVerify_refines (e : Env) (hops : ∀ o ∈ e.ops, o.Consistent) :
    Refines e (opCheckSigVerify e) (fun t => do let (ok, t) ← checkSig e t; if ok then return t else none) := by
  intro s t hr
  obtain ⟨r, s', h1, h2, h3⟩ := checkSigVerify_ref e hops s t hr
  refine ⟨r, s', h1, ?_⟩
  cases hc : checkSig e t with
  | none =>
    rw [hc] at h3
    cases r with
    | none => simp [sigFatal] at h3
    | some err => exact .inl (by simp [hc])
  | some pr =>
    obtain ⟨ok, t'⟩ := pr
    rw [hc] at h3
    cases ok
    · obtain ⟨⟨err, rfl⟩, _, _⟩ := h3
      exact .inl (by simp [hc])
    · obtain ⟨rfl, h4⟩ := h3
      exact ⟨t', by simp [hc], h4, fun w v hv => w.1 v (h2 v hv)⟩

theorem Rel.push {e : Env} {s : St (List Val)} {t : State} (hr : Rel e s t) (v : Val) (b : Bytes) (h : v.toChunk = b) :
    Rel e { s with primary := v :: s.primary } { t with stack := b :: t.stack } :=
  ⟨by show v.toChunk :: chunks s.primary = _; rw [h, hr.stack], hr.alt, hr.cond, hr.neg, hr.nops, hr.sep, hr.budget, hr.cache⟩

theorem opCheckSig_refines (e : Env) (hops : ∀ o ∈ e.ops, o.Consistent) :
    Refines e (opCheckSig e) (fun t => do let (ok, t) ← checkSig e t; return { t with stack := encodeBool ok :: t.stack }) := by
  intro s t hr
  obtain ⟨r, s', h1, h2, h3⟩ := checkSigVerify_ref e hops s t hr
  have hsm : ∀ b, Within s → ∀ v ∈ (Val.bool b :: s'.primary) ++ s'.alternate, Small v := by
    intro b w v hv
    rcases List.mem_cons.1 hv with rfl | hv
    · trivial
    · exact w.1 v (h2 v hv)
  have hun : ¬ sigFatal e r → opCheckSig e s = some (none, { s' with primary := .bool (r == none) :: s'.primary }) := by
    intro hf
    unfold sigFatal at hf
    push Not at hf
    simp only [opCheckSig, mbind, h1, Option.bind_some]
    rw [if_neg hf.1, if_neg (by tauto), if_neg (by tauto)]
    rfl
  cases hc : checkSig e t with
  | none =>
    rw [hc] at h3
    have : ∃ err, r = some err := by
      cases r with
      | none => simp [sigFatal] at h3
      | some err => exact ⟨_, rfl⟩
    obtain ⟨err, rfl⟩ := this
    refine ⟨some err, s', ?_, .inl (by simp [hc])⟩
    simp only [opCheckSig, mbind, h1, Option.bind_some]
    rcases h3 with h | ⟨h66, h⟩ | ⟨h342, h⟩
    · rw [if_pos h]; rfl
    · split_ifs <;> first | rfl | tauto
    · split_ifs <;> first | rfl | tauto
  | some pr =>
    obtain ⟨ok, t'⟩ := pr
    rw [hc] at h3
    cases ok
    · obtain ⟨⟨err, rfl⟩, h4, h5⟩ := h3
      exact ⟨_, _, hun h4, _, by simp [hc]; rfl, h5.push _ _ rfl, hsm _⟩
    · obtain ⟨rfl, h4⟩ := h3
      exact ⟨_, _, hun (by simp [sigFatal]), _, by simp [hc]; rfl, h4.push _ _ rfl, hsm _⟩

end Verif.Machine
