import Verif.Lemmas.Spend
/-!
# Lemmas for C82: the standard outputs
-/
namespace Verif
open Verif.Machine (Env Val Err Res St Rel Within Small opcodeFromSize)
open Verif.Spec Verif.Spec.Script

theorem mem_multisigOps' {m : Nat} {keys : List Bytes} {o : Op} (h : o ∈ multisigOps' m keys) :
    o = { code := UInt8.ofNat (80 + m) } ∨ (∃ d ∈ keys, o = po d) ∨ o = { code := UInt8.ofNat (80 + keys.length) } ∨ o = { code := 174 } := by
  unfold multisigOps' at h
  rcases List.mem_append.1 h with h | h
  · rcases List.mem_append.1 h with h | h
    · rcases List.mem_cons.1 h with h | h
      · exact .inl h
      · obtain ⟨d, hd, rfl⟩ := List.mem_map.1 h
        exact .inr (.inl ⟨d, hd, rfl⟩)
    · exact .inr (.inr (.inl (List.mem_singleton.1 h)))
  · exact .inr (.inr (.inr (List.mem_singleton.1 h)))

theorem pushBytes_head (k : Bytes) : ∃ b tl, pushBytes k = b :: tl ∧ b.toNat ≤ 78 ∧ (b.toNat > 75 ∨ (tl.length = b.toNat ∧ tl = k)) := by
  unfold pushBytes
  dsimp only
  split_ifs with g1 g2 g3
  · exact ⟨_, _, rfl, by simp; omega, .inr ⟨by simp; omega, rfl⟩⟩
  · exact ⟨_, _, rfl, by decide, .inl (by decide)⟩
  · exact ⟨_, _, rfl, by decide, .inl (by decide)⟩
  · exact ⟨_, _, rfl, by decide, .inl (by decide)⟩

theorem multisigOps'_ok {m : Nat} {keys : List Bytes} (hm : 1 ≤ m) (hmn : m ≤ keys.length) (hn : keys.length ≤ 16)
    (hk : ∀ k ∈ keys, k.length ≤ 520) :
    OpsOK (multisigOps' m keys) ∧ opsData (multisigOps' m keys) = Spec.multisig m keys := by
  have hc : ∀ k, 1 ≤ k → k ≤ 16 → (({ code := UInt8.ofNat (80 + k) } : Op)).Consistent ∧
      (({ code := UInt8.ofNat (80 + k) } : Op)).toData = [UInt8.ofNat (80 + k)] := by
    intro k h1 h2
    have : (79 : UInt8) ≤ UInt8.ofNat (80 + k) := by
      rw [UInt8.le_iff_toNat_le]; simp; omega
    have h3 := plain_consistent (UInt8.ofNat (80 + k)) this
    exact ⟨h3, (consistent_large h3 this).2⟩
  constructor
  · apply Machine.opsOK_of
    intro o ho
    rcases mem_multisigOps' ho with rfl | ⟨d, hd, rfl⟩ | rfl | rfl
    · exact (hc m hm (by omega)).1
    · exact (po_spec (hk d hd)).1
    · exact (hc _ (by omega) hn).1
    · exact plain_consistent _ (by decide)
  · have h2 := (pos_ok hk).2
    unfold opsData at h2 ⊢
    unfold multisigOps' Spec.multisig
    simp only [List.flatMap_append, List.flatMap_cons, List.cons_append, List.flatMap_nil, List.append_nil, h2, (hc m hm (by omega)).2,
      (hc _ (by omega) hn).2, List.nil_append]
    rw [show (({ code := 174 } : Op)).toData = [0xae] from rfl]
    simp

theorem pushes_length (keys : List Bytes) (hk : ∀ k ∈ keys, k.length ≤ 520) : (keys.flatMap pushBytes).length ≤ 523 * keys.length := by
  induction keys with
  | nil => simp
  | cons k ks ih =>
    have := pushBytes_length k (hk k (.head _))
    have := hk k (.head _)
    have := ih fun x hx => hk x (.tail _ hx)
    simp only [List.flatMap_cons, List.length_append, List.length_cons]
    omega

theorem multisig_size {m : Nat} {keys : List Bytes} (hn : keys.length ≤ 16) (hk : ∀ k ∈ keys, k.length ≤ 520) :
    (Spec.multisig m keys).length ≤ 10000 := by
  have := pushes_length keys hk
  unfold Spec.multisig
  simp only [List.length_append, List.length_cons, List.length_nil]
  omega

theorem multisig_parse {m : Nat} {keys : List Bytes} (hm : 1 ≤ m) (hmn : m ≤ keys.length) (hn : keys.length ≤ 16)
    (hk : ∀ k ∈ keys, k.length ≤ 520) : parseOps (Spec.multisig m keys) = multisigOps' m keys := by
  obtain ⟨h1, h2⟩ := multisigOps'_ok hm hmn hn hk
  rw [← h2, parseOps_of h1]
  rw [h2]
  have := multisig_size (m := m) hn hk
  omega

theorem multisig_last (m : Nat) (keys : List Bytes) (hmn : m ≤ keys.length) (hn : keys.length ≤ 16) : LastMultisig (multisigOps' m keys) := by
  intro o ho
  unfold multisigOps' at ho
  rw [List.dropLast_concat] at ho
  simp only [List.mem_append, List.mem_cons, List.not_mem_nil, or_false, List.mem_map, List.cons_append] at ho
  rcases ho with rfl | ⟨d, hd, rfl⟩ | rfl
  · intro h
    have := congrArg UInt8.toNat h
    simp at this
    omega
  · intro h
    have := (po_code d).1
    rw [h] at this
    simp at this
  · intro h
    have := congrArg UInt8.toNat h
    simp at this
    omega

theorem multisig_no_sep {m : Nat} {keys : List Bytes} (hm : 1 ≤ m) (hmn : m ≤ keys.length) (hn : keys.length ≤ 16)
    (hk : ∀ k ∈ keys, k.length ≤ 520) : ∀ o ∈ multisigOps' m keys, o.toData ≠ [171] := by
  have hc : ∀ k, 1 ≤ k → k ≤ 16 → (({ code := UInt8.ofNat (80 + k) } : Op)).toData ≠ [171] := by
    intro k h1 h2
    have : (79 : UInt8) ≤ UInt8.ofNat (80 + k) := by
      rw [UInt8.le_iff_toNat_le]; simp; omega
    have h3 := (consistent_large (plain_consistent (UInt8.ofNat (80 + k)) this) this).2
    simp only at h3
    rw [h3]
    intro h
    have := congrArg (fun l => UInt8.toNat (l.headD 0)) h
    simp at this
    omega
  intro o ho
  rcases mem_multisigOps' ho with rfl | ⟨d, hd, rfl⟩ | rfl | rfl
  · exact hc m hm (by omega)
  · rw [(po_spec (hk d hd)).2]
    exact fun h => plain_not_push 171 (by decide) d (hk d hd) (by rw [h]; rfl)
  · exact hc _ (by omega) hn
  · decide

theorem multisig_shape {m : Nat} {keys : List Bytes} (hm : 1 ≤ m) (hmn : m ≤ keys.length) (hn : keys.length ≤ 16) :
    ¬ IsP2SH (Spec.multisig m keys) ∧ program? (Spec.multisig m keys) = none := by
  constructor
  · rintro ⟨h', _, he⟩
    unfold Spec.multisig at he
    simp at he
    have := congrArg UInt8.toNat he.1
    simp at this
    omega
  · cases keys with
    | nil => simp at hmn; omega
    | cons k ks =>
      obtain ⟨b, tl, hb, _, hc⟩ := pushBytes_head k
      unfold Spec.multisig
      rw [List.flatMap_cons, hb]
      unfold program?
      simp only [List.cons_append, List.nil_append]
      rw [if_neg]
      simp only [List.length_append, List.length_cons, List.length_nil]
      rintro ⟨h1, _, h3⟩
      rcases hc with hc | ⟨hc, _⟩ <;> omega

/-- A multisig script, on any stack. -/
theorem eval_multisig {e : Env} (he : e.flags.bip342 = false) (hw : (e.flags.bip141 && (e.witness.getD []).any (fun x => decide (x.length > 520))) = false)
    {m : Nat} {keys : List Bytes} (hm : 1 ≤ m) (hmn : m ≤ keys.length) (hn : keys.length ≤ 16) (hk : ∀ k ∈ keys, k.length ≤ 520)
    (ho : e.ops = multisigOps' m keys) (st : List Bytes) (hst : st.length ≤ 1000) (t : State) :
    (eval e (start st 0) = .done t ∧ accepts t.stack = true) ↔ st.length + (keys.length + 2) ≤ 1000 ∧ ∃ sigs dummy rest,
      st = sigs ++ dummy :: rest ∧ sigs.length = m ∧ (e.flags.bip147 = true → dummy = []) ∧
      Spec.Script.multisig e (scriptCode e sigs (start [] 0)) sigs keys.reverse = some true ∧
      t = { start ([1] :: rest) 0 with nops := 1 + keys.length } := by
  rw [eval_steps he hw (by rw [ho, (multisigOps'_ok hm hmn hn hk).2]; exact multisig_size hn hk), steps_multisig he hm hmn hn hk ho st hst]
  by_cases hb : st.length + (keys.length + 2) > 1000
  · rw [if_pos hb]
    exact ⟨fun h => (by cases h.1), fun h => (by omega)⟩
  rw [if_neg hb]
  constructor
  · rintro ⟨h1, h2⟩
    refine ⟨by omega, ?_⟩
    cases hd : st.drop m with
    | nil => rw [hd] at h1; cases h1
    | cons dummy rest =>
      rw [hd] at h1
      simp only at h1
      by_cases h7 : e.flags.bip147 = true ∧ dummy ≠ []
      · rw [if_pos h7] at h1; cases h1
      rw [if_neg h7] at h1
      have hlen : m ≤ st.length := by
        have := congrArg List.length hd
        simp at this
        omega
      cases hc : Spec.Script.multisig e (scriptCode e (st.take m) (start [] 0)) (st.take m) keys.reverse with
      | none => rw [hc] at h1; cases h1
      | some b =>
        rw [hc] at h1
        simp only [Option.map_some] at h1
        have h1 := Verdict.done.inj ((if_pos rfl).symm.trans h1)
        subst h1
        cases b with
        | false => cases h2
        | true =>
          refine ⟨st.take m, dummy, rest, by rw [← hd, List.take_append_drop], by simp; omega, fun h => ?_, hc, rfl⟩
          by_contra hne
          exact h7 ⟨h, hne⟩
  · rintro ⟨_, sigs, dummy, rest, rfl, rfl, h7, hm', rfl⟩
    rw [List.drop_left, List.take_left]
    simp only
    rw [if_neg (fun h => h.2 (h7 h.1)), hm']
    exact ⟨rfl, rfl⟩

theorem legacy_witness_ok {s : Spend} {ops : List Op} :
    ((s.legacyEnv ops).flags.bip141 && ((s.legacyEnv ops).witness.getD []).any (fun x => decide (x.length > 520))) = false := by
  show (_ && ((none : Option (List Bytes)).getD []).any _) = false
  simp

theorem covered_mem {script : Bytes} {a b : List Bytes} (h : ∀ d, d ∈ a ↔ d ∈ b) : covered script a = covered script b := by
  unfold covered
  apply List.filter_congr
  intro o _
  simp only [decide_eq_decide]
  exact ⟨fun hh d hd => hh d ((h d).2 hd), fun hh d hd => hh d ((h d).1 hd)⟩

theorem matched_legacy {s : Spend} {m : Nat} {keys : List Bytes} (hm : 1 ≤ m) (hmn : m ≤ keys.length) (hn : keys.length ≤ 16)
    (hk : ∀ k ∈ keys, k.length ≤ 520) (sigs : List Bytes) :
    Spec.Script.multisig (s.legacyEnv (multisigOps' m keys)) (scriptCode (s.legacyEnv (multisigOps' m keys)) sigs.reverse (start [] 0)) sigs.reverse keys.reverse = some true ↔
      Matched s false (covered (Spec.multisig m keys) sigs) keys sigs := by
  rw [multisig_complete, ← matched_reverse]
  simp only [legacy_signed]
  have : scriptCode (s.legacyEnv (multisigOps' m keys)) sigs.reverse (start [] 0) = covered (Spec.multisig m keys) sigs := by
    rw [filter_legacy s _ _ _ rfl (multisig_no_sep hm hmn hn hk), covered_mem (b := sigs.reverse) (by simp)]
    unfold covered
    rw [multisig_parse hm hmn hn hk]
  rw [this]

theorem matched_segwit {s : Spend} (h143 : s.flags.bip143 = true) {m : Nat} {keys : List Bytes} (hm : 1 ≤ m) (hmn : m ≤ keys.length) (hn : keys.length ≤ 16)
    (hk : ∀ k ∈ keys, k.length ≤ 520) (st sigs : List Bytes) :
    Spec.Script.multisig (s.segwitEnv (multisigOps' m keys) st) (scriptCode (s.segwitEnv (multisigOps' m keys) st) sigs.reverse (start [] 0)) sigs.reverse keys.reverse = some true ↔
      Matched s true (parseOps (Spec.multisig m keys)) keys sigs := by
  rw [multisig_complete, ← matched_reverse]
  simp only [segwit_signed]
  have : scriptCode (s.segwitEnv (multisigOps' m keys) st) sigs.reverse (start [] 0) = parseOps (Spec.multisig m keys) := by
    rw [multisig_parse hm hmn hn hk]
    unfold scriptCode
    rw [if_pos (show ((s.segwitEnv (multisigOps' m keys) st).segwit && (s.segwitEnv (multisigOps' m keys) st).flags.bip143) = true by
      show (true && s.flags.bip143) = true
      rw [h143]; rfl)]
    rfl
  rw [this]

/-! ### P2SH -/

def p2shOps (h : Bytes) : List Op := [{ code := 169 }, po h, { code := 135 }]

theorem p2sh_ops {s : Spend} (hs : s.OK) {h : Bytes} (hh : h.length = 20) (hp : opsData s.prevout = p2sh h) : s.prevout = p2shOps h := by
  have hd : (po h).toData = 0x14 :: h := by
    rw [(po_spec (by omega)).2]; unfold pushBytes; rw [hh]; rfl
  refine opsOK_injective hs.prevout ?_ hs.prevoutSize ?_
  · apply Machine.opsOK_of
    intro o ho
    simp only [p2shOps, List.mem_cons, List.not_mem_nil, or_false] at ho
    rcases ho with rfl | rfl | rfl
    · exact plain_consistent _ (by decide)
    · exact (po_spec (by omega)).1
    · exact plain_consistent _ (by decide)
  · rw [hp]
    simp only [p2shOps, opsData, List.flatMap_cons, List.flatMap_nil, List.append_nil, hd]
    rw [show (({ code := 169 } : Op)).toData = [0xa9] from rfl, show (({ code := 135 } : Op)).toData = [0x87] from rfl]
    simp [p2sh]

theorem steps_p2sh {e : Env} (he : e.flags.bip342 = false) {h : Bytes} (hh : h.length = 20) (st : List Bytes) (hst : st.length ≤ 1000) :
    steps e 0 (p2shOps h) (start st 0) = (match st with
      | r :: rest => if rest.length > 998 then none else some { start (encodeBool (e.hash160 r == h) :: rest) 0 with nops := 2 }
      | _ => none) := by
  have hd : Machine.opcodeFromSize 20 = 20 := by decide
  match st with
  | [] => simp [steps, p2shOps, step_of he, counted, execute, stackOp, onStack, disabled, start, he, hh]
  | r :: rest =>
    simp only [List.length_cons] at hst
    have h0 : ¬ 1000 < rest.length + 1 := by omega
    by_cases hr : rest.length > 998
    · have h1 : 1000 < rest.length + 1 + 1 := by omega
      simp [steps, p2shOps, po, step_of he, counted, execute, stackOp, onStack, disabled, start, he, hh, hd, hr, h0, h1]
    · have h1 : ¬ 1000 < rest.length + 1 + 1 := by omega
      simp [steps, p2shOps, po, step_of he, counted, execute, stackOp, onStack, disabled, start, he, hh, hd, hr, h0, h1]

theorem eval_p2sh {s : Spend} {h : Bytes} (hh : h.length = 20) (st : List Bytes) (hst : st.length ≤ 1000) (t : State) :
    eval (s.legacyEnv (p2shOps h)) (start st 0) = .done t ↔ ∃ r rest, st = r :: rest ∧ rest.length ≤ 998 ∧
      t = { start (encodeBool (s.hash160 r == h) :: rest) 0 with nops := 2 } := by
  have hlen : (opsData (p2shOps h)).length ≤ 10000 := by
    have hd : (po h).toData = 0x14 :: h := by
      rw [(po_spec (by omega)).2]; unfold pushBytes; rw [hh]; rfl
    simp only [p2shOps, opsData, List.flatMap_cons, List.flatMap_nil, List.append_nil, hd, List.length_append, List.length_cons, hh]
    decide
  rw [eval_steps (e := s.legacyEnv (p2shOps h)) rfl legacy_witness_ok hlen,
    show (s.legacyEnv (p2shOps h)).ops = p2shOps h from rfl, steps_p2sh rfl hh st hst]
  match st with
  | [] => simp
  | r :: rest =>
    simp only
    by_cases hr : rest.length > 998
    · rw [if_pos hr]
      constructor
      · intro h; cases h
      · rintro ⟨_, _, h, h1, _⟩
        cases h
        omega
    · rw [if_neg hr]
      constructor
      · intro h
        have h1 := Verdict.done.inj ((if_pos rfl).symm.trans h)
        exact ⟨r, rest, rfl, by omega, h1.symm⟩
      · rintro ⟨_, _, h, h1, rfl⟩
        cases h
        rfl

theorem p2sh_is {h : Bytes} (hh : h.length = 20) : IsP2SH (p2sh h) := ⟨h, hh, rfl⟩

end Verif
