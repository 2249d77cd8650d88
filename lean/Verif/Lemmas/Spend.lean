import Verif.Props.Verify
import Verif.Spec.Spend
/-!
# Lemmas for C82: evaluating the standard scripts
-/
namespace Verif
open Verif.Machine (Env Val Err Res St Rel Within Small opcodeFromSize)
open Verif.Spec Verif.Spec.Script

/-! ### Pushes -/

/-- The operation that pushes `d`. -/
def po (d : Bytes) : Op := { code := opcodeFromSize d.length, data := d }

theorem po_spec {d : Bytes} (h : d.length ≤ 520) : (po d).Consistent ∧ (po d).toData = pushBytes d := by
  unfold po opcodeFromSize pushBytes
  simp only
  split_ifs with g1 g2 g3
  · refine ⟨direct_consistent d g1, ?_⟩
    have := (consistent_small (direct_consistent d g1) (by rw [UInt8.le_iff_toNat_le]; simp; omega)).2
    simp only at this
    simp [this]
  · exact ⟨⟨rfl, by simp [SizeFits]; omega, by show d.length ≤ 4000000; omega⟩, by simp [Op.toData]⟩
  · exact ⟨⟨rfl, by simp [SizeFits]; omega, by show d.length ≤ 4000000; omega⟩, by simp [Op.toData, writeLE]⟩
  · omega

theorem po_code (d : Bytes) : (po d).code.toNat ≤ 78 ∧ ((po d).code.toNat = 0 → d = []) := by
  unfold po opcodeFromSize
  simp only
  split_ifs with g1 g2 g3
  · have : (UInt8.ofNat d.length).toNat = d.length := by simp; omega
    rw [this]
    exact ⟨by omega, fun h => List.length_eq_zero_iff.1 h⟩
  · exact ⟨by decide, fun h => absurd h (by decide)⟩
  · exact ⟨by decide, fun h => absurd h (by decide)⟩
  · exact ⟨by decide, fun h => absurd h (by decide)⟩

theorem steps_append (e : Env) (a b : List Op) (i : Nat) (t : State) :
    steps e i (a ++ b) t = (steps e i a t).bind (steps e (i + a.length) b) := by
  induction a generalizing i t with
  | nil => rfl
  | cons o a ih =>
    simp only [List.cons_append, steps, List.length_cons, Option.bind_eq_bind]
    cases step e i o t with
    | none => rfl
    | some t1 => simp only [Option.bind_some, ih]; congr 2; omega

theorem step_of {e : Env} (he : e.flags.bip342 = false) {i : Nat} {op : Op} {t : State} (h1 : op.underflow = false) (h2 : op.data.length ≤ 520)
    (h3 : disabled op.code.toNat = false) (h4 : t.exec = []) :
    step e i op t = if (counted e op t).nops > 201 then none else
      (execute e i op (counted e op t)).bind fun t' => if t'.stack.length + t'.alt.length > 1000 then none else some t' := by
  have h5 : (counted e op t).exec = [] := by unfold counted; split <;> exact h4
  unfold step
  rw [h1, h3, he]
  simp only [Bool.false_eq_true, if_false, if_neg (Nat.not_lt.2 h2), Bool.not_false, Bool.true_and, decide_eq_true_eq, h5, List.all_nil,
    Bool.true_or, if_true]
  rfl


theorem step_po {e : Env} (he : e.flags.bip342 = false) {i : Nat} {d : Bytes} {t : State} (hd : d.length ≤ 520) (hx : t.exec = [])
    (hn : t.nops ≤ 201) (hs : t.stack.length + t.alt.length < 1000) :
    step e i (po d) t = some { t with stack := d :: t.stack } := by
  obtain ⟨h1, h2⟩ := po_code d
  have hdis : disabled (po d).code.toNat = false := by
    unfold disabled
    simp only [List.mem_cons, List.not_mem_nil, or_false, decide_eq_false_iff_not]
    omega
  have hc : counted e (po d) t = t := by
    unfold counted
    rw [if_neg]
    simp only [he, Bool.not_false, Bool.true_and, decide_eq_true_eq]
    omega
  rw [step_of he rfl hd hdis hx, hc, if_neg (by omega)]
  have hex : execute e i (po d) t = some { t with stack := d :: t.stack } := by
    unfold execute
    by_cases h0 : (po d).code.toNat = 0
    · simp only [h0, if_true]
      rw [h2 h0]
    · simp only [h0, if_false, h1, if_true]; rfl
  rw [hex]
  simp only [Option.bind_some, List.length_cons]
  rw [if_neg (by omega)]

theorem steps_pos {e : Env} (he : e.flags.bip342 = false) (ds : List Bytes) (i : Nat) (t : State) (hd : ∀ d ∈ ds, d.length ≤ 520) (hx : t.exec = [])
    (hn : t.nops ≤ 201) (hs : t.stack.length + t.alt.length + ds.length ≤ 1000) :
    steps e i (ds.map po) t = some { t with stack := ds.reverse ++ t.stack } := by
  induction ds generalizing i t with
  | nil => rfl
  | cons d ds ih =>
    simp only [List.length_cons] at hs
    simp only [List.map_cons, steps, Option.bind_eq_bind]
    rw [step_po he (hd d (.head _)) hx hn (by omega)]
    simp only [Option.bind_some]
    have hs' : (d :: t.stack).length + t.alt.length + ds.length ≤ 1000 := by simp only [List.length_cons]; omega
    rw [ih (i + 1) { t with stack := d :: t.stack } (fun x hm => hd x (.tail _ hm)) hx hn hs']
    simp

theorem pos_ok {ds : List Bytes} (hd : ∀ d ∈ ds, d.length ≤ 520) : OpsOK (ds.map po) ∧ opsData (ds.map po) = ds.flatMap pushBytes := by
  constructor
  · apply Machine.opsOK_of
    intro o ho
    obtain ⟨d, hm, rfl⟩ := List.mem_map.1 ho
    exact (po_spec (hd d hm)).1
  · unfold opsData
    rw [List.flatMap_map]
    induction ds with
    | nil => rfl
    | cons d ds ih => rw [List.flatMap_cons, List.flatMap_cons, (po_spec (hd d (.head _))).2, ih (fun x hm => hd x (.tail _ hm))]

theorem pos_noMultisig (ds : List Bytes) : NoMultisig (ds.map po) := by
  intro o ho
  obtain ⟨d, _, rfl⟩ := List.mem_map.1 ho
  intro hc
  have := (po_code d).1
  rw [hc] at this
  simp at this

/-- Evaluation of a script that is within the size limits and has no open conditional. -/
theorem eval_steps {e : Env} (he : e.flags.bip342 = false) (hw : (e.flags.bip141 && (e.witness.getD []).any (fun x => decide (x.length > 520))) = false)
    (hs : (opsData e.ops).length ≤ 10000) (t : State) :
    eval e t = match steps e 0 e.ops t with | none => .fail | some t' => if t'.exec = [] then .done t' else .fail := by
  unfold eval
  rw [he]
  simp only [Bool.false_and, Bool.false_eq_true, if_false, Bool.false_or, hw, Bool.not_false, Bool.true_and, decide_eq_true_eq]
  rw [if_neg (by omega)]
  cases steps e 0 e.ops t <;> rfl

theorem eval_keyhash {e : Env} (he : e.flags.bip342 = false) {h : Bytes} (hh : h.length = 20) (ho : e.ops = toPayKeyHash h) (st : List Bytes)
     : steps e 0 e.ops (start st 0) = (match st with
      | key :: sig :: rest => if rest.length > 996 then none else if e.hash160 key = h then
         (checkEcdsa e (scriptCode e [sig] (start [] 0)) sig key).map fun b => { start (encodeBool b :: rest) 0 with nops := 4 } else none
      | _ => none) := by
  have hd : Machine.opcodeFromSize 20 = 20 := by decide
  rw [ho]
  match st with
  | [] =>
    simp [steps, toPayKeyHash, step_of he, counted, execute, stackOp, onStack, disabled, start, he, hh]
  | [key] =>
    by_cases hk : e.hash160 key = h
    · simp [steps, toPayKeyHash, step_of he, counted, execute, stackOp, onStack, disabled, start, he, hh, hd, checkSig, hk]
    · simp [steps, toPayKeyHash, step_of he, counted, execute, stackOp, onStack, disabled, start, he, hh, hd, checkSig, hk]
  | key :: sig :: rest =>
    by_cases hr : rest.length > 996
    · by_cases h3 : rest.length > 997
      · have h1 : 1000 < rest.length + 1 + 1 + 1 := by omega
        simp [steps, toPayKeyHash, step_of he, counted, execute, stackOp, onStack, disabled, start, he, hh, hd, checkSig, hr, h1]
      · have h1 : ¬ 1000 < rest.length + 1 + 1 + 1 := by omega
        have h2 : 1000 < rest.length + 1 + 1 + 1 + 1 := by omega
        simp [steps, toPayKeyHash, step_of he, counted, execute, stackOp, onStack, disabled, start, he, hh, hd, checkSig, hr, h1, h2]
    · have h1 : ¬ 1000 < rest.length + 1 + 1 + 1 := by omega
      have h2 : ¬ 1000 < rest.length + 1 + 1 + 1 + 1 := by omega
      have h4 : ¬ 1000 < rest.length + 1 + 1  := by omega
      have h5 : ¬ 1000 < rest.length + 1 := by omega
      by_cases hk : e.hash160 key = h
      · have hq : scriptCode e [sig] { stack := rest, nops := 4 } = scriptCode e [sig] { stack := [] } := rfl
        simp [steps, toPayKeyHash, step_of he, counted, execute, stackOp, onStack, disabled, start, he, hh, hd, checkSig, hr, h1, h2, h4, h5, hk, hq]
        cases checkEcdsa e (scriptCode e [sig] { stack := [] }) sig key <;> simp [h5]
      · simp [steps, toPayKeyHash, step_of he, counted, execute, stackOp, onStack, disabled, start, he, hh, hd, checkSig, hr, h1, h2, hk, h4, h5]


/-! ### Signatures -/

theorem checkEcdsa_iff {e : Env} {s : Spend} {v0 : Bool} (h1 : e.decodeSig = s.decodeSig) (h2 : e.flags.bip66 = s.flags.bip66)
    (h3 : e.sighash = s.sighash v0) (h4 : e.verifyEcdsa = s.verifyEcdsa) (code : List Op) (sig key : Bytes) :
    checkEcdsa e code sig key = some true ↔ Signed s v0 code key sig := by
  unfold checkEcdsa Signed
  rw [h1, h2, h3, h4]
  by_cases hs : sig = []
  · simp [hs]
  · rw [if_neg hs]
    cases hd : s.decodeSig sig.dropLast s.flags.bip66 with
    | none => cases s.flags.bip66 <;> simp
    | some rs =>
      simp only [hs, ne_eq, not_false_eq_true, true_and, Option.some.injEq, exists_eq_left']
      cases hh : s.sighash v0 code (sig.getLastD 0) with
      | none => simp
      | some h => simp

theorem legacy_signed {s : Spend} (ops code : List Op) (sig key : Bytes) :
    checkEcdsa (s.legacyEnv ops) code sig key = some true ↔ Signed s false code key sig := checkEcdsa_iff rfl rfl rfl rfl _ _ _
theorem segwit_signed {s : Spend} (ops code : List Op) (st : List Bytes) (sig key : Bytes) :
    checkEcdsa (s.segwitEnv ops st) code sig key = some true ↔ Signed s true code key sig := checkEcdsa_iff rfl rfl rfl rfl _ _ _

/-- The matching loop finds an assignment whenever there is one. -/
theorem multisig_complete (e : Env) (code : List Op) (keys : List Bytes) : ∀ sigs : List Bytes,
    Spec.Script.multisig e code sigs keys = some true ↔
      ∃ chosen : List Bytes, chosen.Sublist keys ∧ List.Forall₂ (fun sig key => checkEcdsa e code sig key = some true) sigs chosen := by
  induction keys with
  | nil =>
    intro sigs
    cases sigs with
    | nil => exact ⟨fun _ => ⟨[], .slnil, .nil⟩, fun _ => rfl⟩
    | cons a l =>
      constructor
      · intro h; cases h
      · rintro ⟨c, h1, h2⟩
        have := List.sublist_nil.1 h1
        subst this
        cases h2
  | cons key keys ih =>
    intro sigs
    cases sigs with
    | nil => exact ⟨fun _ => ⟨[], List.nil_sublist _, .nil⟩, fun _ => rfl⟩
    | cons sig sigs =>
      rw [Spec.Script.multisig]
      constructor
      · intro h
        split at h
        · cases h
        · cases hc : checkEcdsa e code sig key with
          | none => rw [hc] at h; cases h
          | some b =>
            rw [hc] at h
            cases b with
            | true =>
              obtain ⟨c, h1, h2⟩ := (ih sigs).1 (by simpa using h)
              exact ⟨key :: c, h1.cons_cons key, .cons hc h2⟩
            | false =>
              obtain ⟨c, h1, h2⟩ := (ih (sig :: sigs)).1 (by simpa using h)
              exact ⟨c, h1.cons key, h2⟩
      · rintro ⟨c, h1, h2⟩
        have hlen := h1.length_le
        have hl2 := h2.length_eq
        rw [if_neg (by simp only [List.length_cons] at hlen hl2; omega)]
        cases h2 with
        | cons hr hrest =>
          rename_i k c
          have hdec : ∃ b, checkEcdsa e code sig key = some b := by
            unfold checkEcdsa at hr ⊢
            by_cases hs : sig = []
            · rw [if_pos hs] at hr; cases hr
            · rw [if_neg hs] at hr ⊢
              cases hd : e.decodeSig sig.dropLast e.flags.bip66 with
              | none => rw [hd] at hr; cases hb : e.flags.bip66 <;> rw [hb] at hr <;> cases hr
              | some rs =>
                simp only
                cases e.sighash code (sig.getLastD 0) with
                | none => exact ⟨_, rfl⟩
                | some hh => exact ⟨_, rfl⟩
          obtain ⟨b, hb⟩ := hdec
          rw [hb]
          cases b with
          | true =>
            have : Spec.Script.multisig e code sigs keys = some true := (ih sigs).2 ⟨c, by
              rcases List.sublist_cons_iff.1 h1 with h | ⟨r, h, h'⟩
              · exact (List.sublist_cons_self k c).trans h
              · cases h; exact h', hrest⟩
            simpa using this
          | false =>
            have : Spec.Script.multisig e code (sig :: sigs) keys = some true := (ih (sig :: sigs)).2 ⟨k :: c, by
              rcases List.sublist_cons_iff.1 h1 with h | ⟨r, h, h'⟩
              · exact h
              · cases h; rw [hb] at hr; exact absurd hr (by simp), .cons hr hrest⟩
            simpa using this

theorem matched_reverse {s : Spend} {v0 : Bool} {code : List Op} {keys sigs : List Bytes} :
    (∃ chosen : List Bytes, chosen.Sublist keys.reverse ∧ List.Forall₂ (fun sig key => Signed s v0 code key sig) sigs.reverse chosen) ↔
      Matched s v0 code keys sigs := by
  constructor
  · rintro ⟨c, h1, h2⟩
    refine ⟨c.reverse, by simpa using h1.reverse, ?_⟩
    have := List.rel_reverse h2
    simpa using this
  · rintro ⟨c, h1, h2⟩
    exact ⟨c.reverse, h1.reverse, List.rel_reverse h2⟩

/-! ### Script codes -/

theorem filter_legacy (s : Spend) (ops : List Op) (sigs : List Bytes) (t : State) (ht : t.sep = 0) (h : ∀ o ∈ ops, o.toData ≠ [171]) :
    scriptCode (s.legacyEnv ops) sigs t = ops.filter fun o => ∀ d ∈ sigs, o.toData ≠ pushBytes d := by
  unfold scriptCode
  rw [ht]
  show (if (false && _) = true then _ else _) = _
  simp only [Bool.false_and, Bool.false_eq_true, if_false]
  apply List.filter_congr
  intro o ho
  simp only [decide_eq_decide]
  exact ⟨fun hh => hh.2, fun hh => ⟨h o ho, hh⟩⟩

theorem keyhash_no_sep {h : Bytes} (hh : h.length = 20) : ∀ o ∈ toPayKeyHash h, o.toData ≠ [171] := by
  intro o ho
  simp only [toPayKeyHash, List.mem_cons, List.not_mem_nil, or_false] at ho
  rcases ho with rfl | rfl | rfl | rfl | rfl
  · decide
  · decide
  · have := (po_spec (d := h) (by omega)).2
    unfold po at this
    rw [this]
    unfold pushBytes
    rw [hh]
    simp
  · decide
  · decide

/-! ### Outputs that are neither P2SH nor witness programs -/

theorem verify_bare {s : Spend} (h1 : ¬ IsP2SH (opsData s.prevout)) (h2 : program? (opsData s.prevout) = none) :
    verify s = true ↔ s.witness = [] ∧ ∃ t1 t2, eval (s.legacyEnv s.ops) (start [] 0) = .done t1 ∧
      eval (s.legacyEnv s.prevout) (start t1.stack 0) = .done t2 ∧ accepts t2.stack = true := by
  unfold verify
  rw [h2, ite_self]
  constructor
  · intro h
    split at h
    · rename_i t1 he1
      split at h
      · rename_i t2 he2
        rw [if_neg (fun hh => h1 hh.2)] at h
        simp only [Bool.and_eq_true, List.isEmpty_iff] at h
        exact ⟨h.2, t1, t2, he1, he2, h.1⟩
      · cases h
    · cases h
  · rintro ⟨hw, t1, t2, he1, he2, ha⟩
    rw [he1]
    simp only
    rw [he2]
    simp only
    rw [if_neg (fun hh => h1 hh.2), ha, hw]
    rfl

theorem p2pkh_shape {h : Bytes} (hh : h.length = 20) : ¬ IsP2SH (p2pkh h) ∧ program? (p2pkh h) = none := by
  constructor
  · rintro ⟨h', _, he⟩
    unfold p2pkh at he
    simp at he
  · unfold p2pkh program?
    simp

theorem p2pkh_ops {s : Spend} (hs : s.OK) {h : Bytes} (hh : h.length = 20) (hp : opsData s.prevout = p2pkh h) : s.prevout = toPayKeyHash h := by
  rw [← parseOps_of hs.prevout hs.prevoutSize, hp]
  exact keyhash_parse hh

theorem eval_keyhash_legacy {s : Spend} (hs : s.OK) {h : Bytes} (hh : h.length = 20) (st : List Bytes) (t : State) :
    (eval (s.legacyEnv (toPayKeyHash h)) (start st 0) = .done t ∧ accepts t.stack = true) ↔
      ∃ key sig rest, st = key :: sig :: rest ∧ rest.length ≤ 996 ∧ s.hash160 key = h ∧ Signed s false (covered (p2pkh h) [sig]) key sig ∧
        t = { start ([1] :: rest) 0 with nops := 4 } := by
  have hlen : (opsData (toPayKeyHash h)).length ≤ 10000 := by
    have : opsData (toPayKeyHash h) = p2pkh h := by
      simp [toPayKeyHash, opsData, Op.toData, hh, Machine.opcodeFromSize, p2pkh]
    rw [this]; simp [p2pkh, hh]
  rw [eval_steps (e := s.legacyEnv (toPayKeyHash h)) rfl (by
    show (_ && ((none : Option (List Bytes)).getD []).any _) = false
    simp) hlen, eval_keyhash rfl hh rfl]
  have hcov : ∀ sig, scriptCode (s.legacyEnv (toPayKeyHash h)) [sig] (start [] 0) = covered (p2pkh h) [sig] := by
    intro sig
    rw [filter_legacy s _ _ _ rfl (keyhash_no_sep hh)]
    unfold covered p2pkh
    rw [keyhash_parse hh]
  constructor
  · rintro ⟨h1, h2⟩
    match st with
    | [] => simp at h1
    | [_] => simp at h1
    | key :: sig :: rest =>
      simp only [hcov] at h1
      by_cases hr : rest.length > 996
      · rw [if_pos hr] at h1; simp at h1
      rw [if_neg hr] at h1
      by_cases hk : (s.legacyEnv (toPayKeyHash h)).hash160 key = h
      swap
      · rw [if_neg hk] at h1; simp at h1
      rw [if_pos hk] at h1
      cases hc : checkEcdsa (s.legacyEnv (toPayKeyHash h)) (covered (p2pkh h) [sig]) sig key with
      | none => rw [hc] at h1; simp at h1
      | some b =>
        rw [hc] at h1
        simp only [Option.map_some] at h1
        have h1 := Verdict.done.inj ((if_pos rfl).symm.trans h1)
        subst h1
        cases b with
        | false => cases h2
        | true => exact ⟨key, sig, rest, rfl, by omega, hk, (legacy_signed _ _ _ _).1 hc, rfl⟩
  · rintro ⟨key, sig, rest, rfl, hr, hk, hsg, rfl⟩
    simp only [hcov]
    rw [if_neg (by omega), if_pos (show (s.legacyEnv (toPayKeyHash h)).hash160 key = h from hk), (legacy_signed _ _ _ _).2 hsg]
    exact ⟨rfl, rfl⟩


theorem pos_of {s : Spend} (hs : s.OK) {ds : List Bytes} (hd : ∀ d ∈ ds, d.length ≤ 520) (h : opsData s.ops = ds.flatMap pushBytes) :
    s.ops = ds.map po :=
  opsOK_injective hs.ops (pos_ok hd).1 hs.opsSize (h.trans (pos_ok hd).2.symm)

theorem eval_pos {s : Spend} {ds : List Bytes} (hd : ∀ d ∈ ds, d.length ≤ 520) (hn : ds.length ≤ 1000) (hl : (ds.flatMap pushBytes).length ≤ 10000) :
    eval (s.legacyEnv (ds.map po)) (start [] 0) = .done (start ds.reverse 0) := by
  rw [eval_steps (e := s.legacyEnv (ds.map po)) rfl (by
    show (_ && ((none : Option (List Bytes)).getD []).any _) = false
    simp) (by show (opsData (ds.map po)).length ≤ _; rw [(pos_ok hd).2]; exact hl)]
  rw [show (s.legacyEnv (ds.map po)).ops = ds.map po from rfl, steps_pos rfl ds 0 (start [] 0) hd rfl (by simp [start]) (by simpa [start] using hn)]
  simp [start]

theorem pushBytes_length (d : Bytes) (h : d.length ≤ 520) : (pushBytes d).length ≤ d.length + 3 := by
  unfold pushBytes
  dsimp only
  split_ifs <;> simp [leBytes] <;> omega

theorem bare_ordinary {s : Spend} (h1 : NoMultisig s.ops) (h2 : LastMultisig s.prevout) (h3 : ¬ IsP2SH (opsData s.prevout))
    (h4 : program? (opsData s.prevout) = none) : s.Ordinary where
  input := h1
  prevout := h2
  redeem := fun r hr => absurd hr.2.1 h3
  witness := by
    rintro script p w (rfl | hr) hp
    · rw [← program?_iff, h4] at hp; cases hp
    · exact absurd hr.2.1 h3


theorem pushBytes_inj {a b : Bytes} (ha : a.length ≤ 520) (hb : b.length ≤ 520) (h : pushBytes a = pushBytes b) : a = b := by
  have h1 := pos_ok (ds := [a]) (by simpa using ha)
  have h2 := pos_ok (ds := [b]) (by simpa using hb)
  have h3 := opsOK_injective h1.1 h2.1 (by rw [h1.2]; simp; have := pushBytes_length a ha; omega) (by rw [h1.2, h2.2]; simpa using h)
  simp only [List.map_cons, List.map_nil, List.cons.injEq, and_true] at h3
  exact congrArg Op.data h3

/-- An operation above the pushes is not the push of anything. -/
theorem plain_not_push (c : UInt8) (hc : 79 ≤ c) (d : Bytes) (hd : d.length ≤ 520) : (({ code := c } : Op)).toData ≠ pushBytes d := by
  intro hx
  rw [← (po_spec hd).2] at hx
  have h1 := plain_consistent c hc
  have h2 := (po_spec hd).1
  have h3 := opsOK_injective (Machine.opsOK_of [{ code := c }] (by simpa using h1)) (Machine.opsOK_of [po d] (by simpa using h2))
    (by simp [opsData, hx, (po_spec hd).2]; have := pushBytes_length d hd; omega) (by simpa [opsData] using hx)
  simp only [List.cons.injEq, and_true] at h3
  have h4 := congrArg (fun o => o.code.toNat) h3
  have := (po_code d).1
  rw [UInt8.le_iff_toNat_le] at hc
  simp only at h4
  simp at hc
  omega

/-! ### Scripts of pushes -/

/-- An operation that pushes `d`. -/
def Pushes (op : Op) (d : Bytes) : Prop :=
  ∀ (e : Env) (i : Nat) (t : State), e.flags.bip342 = false → t.exec = [] → t.nops ≤ 201 →
    step e i op t = if t.stack.length + 1 + t.alt.length > 1000 then none else some { t with stack := d :: t.stack }

theorem po_pushes {d : Bytes} (hd : d.length ≤ 520) : Pushes (po d) d := by
  intro e i t he hx hn
  obtain ⟨h1, h2⟩ := po_code d
  have hdis : disabled (po d).code.toNat = false := by
    unfold disabled
    simp only [List.mem_cons, List.not_mem_nil, or_false, decide_eq_false_iff_not]
    omega
  have hc : counted e (po d) t = t := by
    unfold counted
    rw [if_neg]
    simp only [he, Bool.not_false, Bool.true_and, decide_eq_true_eq]
    omega
  rw [step_of he rfl hd hdis hx, hc, if_neg (by omega)]
  have hex : execute e i (po d) t = some { t with stack := d :: t.stack } := by
    unfold execute
    by_cases h0 : (po d).code.toNat = 0
    · simp only [h0, if_true]
      rw [h2 h0]
    · simp only [h0, if_false, h1, if_true]; rfl
  rw [hex]
  simp only [Option.bind_some, List.length_cons]

theorem small_pushes {k : Nat} (h1 : 1 ≤ k) (h2 : k ≤ 16) : Pushes { code := UInt8.ofNat (80 + k) } [UInt8.ofNat k] := by
  intro e i t he hx hn
  have hk : (UInt8.ofNat (80 + k)).toNat = 80 + k := by simp; omega
  have hdis : disabled (UInt8.ofNat (80 + k)).toNat = false := by
    rw [hk]
    unfold disabled
    simp only [List.mem_cons, List.not_mem_nil, or_false, decide_eq_false_iff_not]
    omega
  have hc : counted e { code := UInt8.ofNat (80 + k) } t = t := by
    unfold counted
    rw [if_neg]
    simp only [he, Bool.not_false, Bool.true_and, decide_eq_true_eq, hk]
    omega
  rw [step_of he rfl (by simp) hdis hx, hc, if_neg (by omega)]
  have hex : execute e i { code := UInt8.ofNat (80 + k) } t = some { t with stack := [UInt8.ofNat k] :: t.stack } := by
    unfold execute
    simp only [hk]
    rw [if_neg (by omega), if_neg (by omega), if_neg (by omega), if_pos (by omega)]
    simp
  rw [hex]
  simp only [Option.bind_some, List.length_cons]

theorem steps_pushes {e : Env} (he : e.flags.bip342 = false) {ops : List Op} {ds : List Bytes} (h : List.Forall₂ Pushes ops ds) :
    ∀ (i : Nat) (t : State), t.exec = [] → t.nops ≤ 201 → t.stack.length + t.alt.length ≤ 1000 →
    steps e i ops t = if t.stack.length + ds.length + t.alt.length > 1000 then none else some { t with stack := ds.reverse ++ t.stack } := by
  induction h with
  | nil => intro i t _ _ hl; rw [if_neg (by simp; omega)]; rfl
  | cons h1 h2 ih =>
    rename_i o d os dl
    intro i t hx hn hl
    simp only [steps, Option.bind_eq_bind]
    rw [h1 e i t he hx hn]
    by_cases hb : t.stack.length + 1 + t.alt.length > 1000
    · rw [if_pos hb, if_pos (by simp only [List.length_cons]; omega)]; rfl
    · rw [if_neg hb]
      simp only [Option.bind_some]
      rw [ih (i + 1) { t with stack := d :: t.stack } hx hn (show (d :: t.stack).length + t.alt.length ≤ 1000 by simp only [List.length_cons]; omega)]
      simp only [List.length_cons]
      by_cases hb2 : t.stack.length + (dl.length + 1) + t.alt.length > 1000
      · rw [if_pos (by omega), if_pos hb2]
      · rw [if_neg (by omega), if_neg hb2]
        simp

/-! ### Multisig scripts -/

def multisigOps' (m : Nat) (keys : List Bytes) : List Op :=
  ({ code := UInt8.ofNat (80 + m) } :: keys.map po ++ [{ code := UInt8.ofNat (80 + keys.length) }]) ++ [{ code := 174 }]

theorem num_small {k : Nat} (h2 : k ≤ 16) : num 4 [UInt8.ofNat k] = some (k : Int) := by
  have : ∀ j : Fin 17, num 4 [UInt8.ofNat j.1] = some (j.1 : Int) := by decide
  exact this ⟨k, by omega⟩

theorem popCounted_small {k limit : Nat} (h1 : k ≤ 16) (h2 : k ≤ limit) (s : List Bytes) :
    popCounted limit ([UInt8.ofNat k] :: s) = if k > s.length then none else some (s.take k, s.drop k) := by
  unfold popCounted
  simp only [num_small h1, Option.bind_eq_bind, Option.bind_some, Int.toNat_natCast]
  by_cases h : k > s.length
  · rw [if_pos (by omega), if_pos h]
  · rw [if_neg (by omega), if_neg h]

theorem steps_multisig {e : Env} (he : e.flags.bip342 = false) {m : Nat} {keys : List Bytes} (hm : 1 ≤ m) (hmn : m ≤ keys.length)
    (hn : keys.length ≤ 16) (hk : ∀ k ∈ keys, k.length ≤ 520) (ho : e.ops = multisigOps' m keys) (st : List Bytes) (hst : st.length ≤ 1000) :
    steps e 0 e.ops (start st 0) = if st.length + (keys.length + 2) > 1000 then none else match st.drop m with
      | [] => none
      | dummy :: rest => if e.flags.bip147 ∧ dummy ≠ [] then none else
        (Spec.Script.multisig e (scriptCode e (st.take m) (start [] 0)) (st.take m) keys.reverse).map fun b =>
          { start (encodeBool b :: rest) 0 with nops := 1 + keys.length } := by
  have hf : List.Forall₂ Pushes ({ code := UInt8.ofNat (80 + m) } :: keys.map po ++ [{ code := UInt8.ofNat (80 + keys.length) }])
      ([UInt8.ofNat m] :: keys ++ [[UInt8.ofNat keys.length]]) := by
    refine List.Forall₂.cons (small_pushes hm (by omega)) (List.rel_append ?_ (.cons (small_pushes (by omega) hn) .nil))
    rw [List.forall₂_map_left_iff, List.forall₂_same]
    exact fun k hk' => po_pushes (hk k hk')
  rw [ho]
  unfold multisigOps'
  rw [steps_append, steps_pushes he hf 0 (start st 0) rfl (by simp [start]) (by simpa [start] using hst)]
  have hlen : ([UInt8.ofNat m] :: keys ++ [[UInt8.ofNat keys.length]]).length = keys.length + 2 := by simp
  have hlen2 : (start st 0).stack.length + ([UInt8.ofNat m] :: keys ++ [[UInt8.ofNat keys.length]]).length + (start st 0).alt.length =
    st.length + (keys.length + 2) := by rw [hlen]; rfl
  by_cases hb : st.length + (keys.length + 2) > 1000
  · rw [if_pos hb, if_pos (by rw [hlen2]; exact hb)]; rfl
  · rw [if_neg hb, if_neg (by rw [hlen2]; exact hb)]
    simp only [start]
    simp only [Option.bind_some, steps, Option.bind_eq_bind]
    rw [step_of he rfl (by simp) (by decide) rfl]
    have hcnt : ∀ t : State, counted e { code := 174 } t = { t with nops := t.nops + 1 } := by
      intro t; unfold counted; rw [if_pos]; simp [he]
    rw [hcnt]
    rw [if_neg (by simp)]
    have hex : ∀ (i : Nat) (t : State), execute e i { code := 174 } t = (checkMultisig e t).bind fun r => some { r.2 with stack := encodeBool r.1 :: r.2.stack } := by
      intro i t
      unfold execute
      simp [he]
    rw [hex]
    have hst2 : ([UInt8.ofNat m] :: keys ++ [[UInt8.ofNat keys.length]]).reverse ++ st =
        [UInt8.ofNat keys.length] :: (keys.reverse ++ [UInt8.ofNat m] :: st) := by simp
    rw [hst2]
    unfold checkMultisig
    simp only [Option.bind_eq_bind]
    rw [popCounted_small hn (by omega), if_neg (by simp)]
    simp only [Option.bind_some]
    rw [List.take_append_of_le_length (by simp), List.take_of_length_le (by simp), List.drop_append_of_le_length (by simp),
      List.drop_of_length_le (by simp), List.nil_append]
    simp only [List.length_reverse]
    rw [if_neg (by omega), popCounted_small (by omega) hmn]
    by_cases hs : m > st.length
    · rw [if_pos hs, List.drop_of_length_le (by omega)]; rfl
    · rw [if_neg hs]
      simp only [Option.bind_some]
      cases hd : st.drop m with
      | nil => rfl
      | cons dummy rest =>
        simp only
        by_cases h7 : e.flags.bip147 = true ∧ dummy ≠ []
        · rw [if_pos h7, if_pos h7]; rfl
        · rw [if_neg h7, if_neg h7]
          have hrl : rest.length + 1 ≤ 1000 := by
            have := congrArg List.length hd
            simp at this
            omega
          have hq : ∀ (x : List Bytes) (k : Nat), scriptCode e (st.take m) { stack := x, nops := k, budget := ((0 : Nat) : Int) } =
            scriptCode e (st.take m) { stack := [], budget := ((0 : Nat) : Int) } := fun _ _ => rfl
          rw [hq]
          cases Spec.Script.multisig e (scriptCode e (st.take m) { stack := [], budget := ((0 : Nat) : Int) }) (st.take m) keys.reverse with
          | none => rfl
          | some b =>
            simp only [Option.pure_def, Option.bind_some, Option.map_some, List.length_cons, List.length_nil]
            rw [if_neg (by omega)]
            simp

end Verif
