import Verif.Lemmas.Spend2
/-!
# Lemmas for C82: wrapping a script in P2SH and in a witness program
-/
namespace Verif
open Verif.Machine (Env Val Err Res St Rel Within Small opcodeFromSize)
open Verif.Spec Verif.Spec.Script

theorem steps_small {e : Env} (he : e.flags.bip342 = false) (ops : List Op) : ∀ (i : Nat) (t t' : State), t.stack.length + t.alt.length ≤ 1000 →
    steps e i ops t = some t' → t'.stack.length + t'.alt.length ≤ 1000 := by
  induction ops with
  | nil => intro i t t' h1 h2; cases h2; exact h1
  | cons o os ih =>
    intro i t t' h1 h2
    simp only [steps, Option.bind_eq_bind] at h2
    cases hs : step e i o t with
    | none => rw [hs] at h2; cases h2
    | some t1 =>
      rw [hs] at h2
      refine ih (i + 1) t1 t' ?_ h2
      unfold step at hs
      dsimp only at hs
      split_ifs at hs
      all_goals
        simp only [Option.bind_eq_bind] at hs
        obtain ⟨t2, _, h3⟩ := Option.bind_eq_some_iff.1 hs
        split_ifs at h3
        cases h3
        omega

theorem done_small {s : Spend} {ops : List Op} {st : List Bytes} (h : st.length ≤ 1000) {t : State} (he : eval (s.legacyEnv ops) (start st 0) = .done t) :
    t.stack.length ≤ 1000 := by
  unfold eval at he
  split_ifs at he
  cases hs : steps (s.legacyEnv ops) 0 (s.legacyEnv ops).ops (start st 0) with
  | none => rw [hs] at he; cases he
  | some t' =>
    rw [hs] at he
    simp only at he
    split_ifs at he
    cases he
    have := steps_small rfl _ _ _ _ (by simpa [start] using h) hs
    omega

/-! ### P2SH -/

theorem pos_push (ds : List Bytes) : (ds.map po).all (fun o => decide (o.code.toNat ≤ 96)) = true := by
  rw [List.all_eq_true]
  intro o ho
  obtain ⟨d, _, rfl⟩ := List.mem_map.1 ho
  have := (po_code d).1
  simp only [decide_eq_true_eq]
  omega

/-- A P2SH spend whose input script pushes the elements `ds` and then the redeem script. -/
theorem verify_p2sh {s : Spend} (hs : s.OK) (h16 : s.flags.bip16 = true) {h : Bytes} (hh : h.length = 20) (hp : opsData s.prevout = p2sh h)
    {ds : List Bytes} {r : Bytes} (hd : ∀ d ∈ ds, d.length ≤ 520) (hr : r.length ≤ 520) (hn : ds.length ≤ 998)
    (hl : (ds.flatMap pushBytes ++ pushBytes r).length ≤ 10000) (hi : opsData s.ops = ds.flatMap pushBytes ++ pushBytes r) :
    (verify s = true ↔ s.hash160 r = h ∧
      (∃ t, eval (s.legacyEnv (parseOps r)) (start ds.reverse 0) = .done t ∧ accepts t.stack = true) ∧
      (match (if s.flags.bip141 then program? r else none) with
            | some (v, p) => decide (opsData s.ops = Script.pushBytes r) && program s v p true
            | none => s.witness.isEmpty) = true) ∧ (∀ r', Redeems s r' → r' = r) ∧ NoMultisig s.ops := by
  have hd' : ∀ d ∈ ds ++ [r], d.length ≤ 520 := by
    intro d hm
    rcases List.mem_append.1 hm with hm | hm
    · exact hd d hm
    · rw [List.mem_singleton.1 hm]; exact hr
  have hops : s.ops = (ds ++ [r]).map po := pos_of hs hd' (by rw [hi]; simp)
  have he1 : eval (s.legacyEnv s.ops) (start [] 0) = .done (start (r :: ds.reverse) 0) := by
    rw [hops, eval_pos hd' (by simp; omega) (by simpa using hl)]
    simp
  have hpre := p2sh_ops hs hh hp
  refine ⟨?_, ?_, by rw [hops]; exact pos_noMultisig _⟩
  · unfold verify
    rw [he1]
    simp only
    rw [hpre]
    have he2 := (eval_p2sh (s := s) hh (start (r :: ds.reverse) 0).stack (by simp [start]; omega) _).2 ⟨r, ds.reverse, rfl, by simp; omega, rfl⟩
    rw [he2]
    simp only
    rw [if_pos ⟨h16, by rw [← hpre, hp]; exact p2sh_is hh⟩, show s.ops.all (fun o => decide (o.code.toNat ≤ 96)) = true by rw [hops]; exact pos_push _]
    simp only [start, Bool.true_and]
    by_cases hk : s.hash160 r = h
    · rw [show (s.hash160 r == h) = true by simpa using hk]
      simp only [hk, true_and]
      rw [show accepts (encodeBool true :: ds.reverse) = true from rfl, Bool.true_and]
      cases hv : eval (s.legacyEnv (parseOps r)) { stack := ds.reverse, budget := ((0 : Nat) : Int) } with
      | fail => simp
      | reserved => simp
      | done t =>
        simp only [Bool.and_eq_true, Verdict.done.injEq, exists_eq_left']
        rcases (if s.flags.bip141 = true then program? r else none) with _ | ⟨v, p⟩ <;> rfl
    · rw [show (s.hash160 r == h) = false by simpa using hk]
      simp only [hk, false_and]
      rw [show accepts (encodeBool false :: ds.reverse) = false from rfl, Bool.false_and]
      simp
  · rintro r' ⟨_, _, t, ht, hr'⟩
    rw [he1] at ht
    cases ht
    simpa [start] using hr'.symm

/-! ### Native witness programs -/

def nativeOps (p : Bytes) : List Op := [po [], po p]

theorem native_data {p : Bytes} (hp : p.length = 20 ∨ p.length = 32) : OpsOK (nativeOps p) ∧
    opsData (nativeOps p) = [0x00, UInt8.ofNat p.length] ++ p := by
  have hd : ∀ d ∈ [[], p], d.length ≤ 520 := by
    intro d hd
    simp only [List.mem_cons, List.not_mem_nil, or_false] at hd
    rcases hd with rfl | rfl
    · simp
    · omega
  obtain ⟨h1, h2⟩ := pos_ok hd
  refine ⟨h1, h2.trans ?_⟩
  have : pushBytes p = UInt8.ofNat p.length :: p := by
    unfold pushBytes; dsimp only; rw [if_pos (by omega)]; rfl
  simp only [List.flatMap_cons, List.flatMap_nil, List.append_nil, this]
  rfl

theorem native_program {p : Bytes} (hp : p.length = 20 ∨ p.length = 32) : program? ([0x00, UInt8.ofNat p.length] ++ p) = some (0, p) := by
  rw [program?_iff]
  exact ⟨by omega, by omega, 0, rfl, .inl ⟨rfl, rfl⟩⟩

theorem native_not_p2sh {p : Bytes} : ¬ IsP2SH ([0x00, UInt8.ofNat p.length] ++ p) := by
  rintro ⟨h', _, he⟩
  simp at he

theorem eval_native {s : Spend} {p : Bytes} (hp : p.length = 20 ∨ p.length = 32) :
    eval (s.legacyEnv (nativeOps p)) (start [] 0) = .done (start [p, []] 0) := by
  have hd : ∀ d ∈ [[], p], d.length ≤ 520 := by
    intro d hd
    simp only [List.mem_cons, List.not_mem_nil, or_false] at hd
    rcases hd with rfl | rfl
    · simp
    · omega
  have := eval_pos (s := s) hd (by simp) (by
    rw [← (pos_ok hd).2]
    have := (native_data hp).2
    unfold nativeOps at this
    simp only [List.map_cons, List.map_nil]
    rw [this]
    simp only [List.length_append, List.length_cons, List.length_nil]
    omega)
  simpa [nativeOps] using this

theorem eval_nil {s : Spend} (st : List Bytes) : eval (s.legacyEnv []) (start st 0) = .done (start st 0) := by
  rw [eval_steps (e := s.legacyEnv []) rfl legacy_witness_ok (by show (opsData []).length ≤ _; simp [opsData])]
  rfl

/-- A version 0 witness program: the input script must be empty and the witness spends the program. -/
theorem verify_native {s : Spend} (hs : s.OK) (h141 : s.flags.bip141 = true) {p : Bytes} (hp : p.length = 20 ∨ p.length = 32)
    (ho : opsData s.prevout = [0x00, UInt8.ofNat p.length] ++ p) :
    verify s = true ↔ opsData s.ops = [] ∧ truthy p = true ∧ segwit s p = true := by
  have hpre : s.prevout = nativeOps p := opsOK_injective hs.prevout (native_data hp).1 hs.prevoutSize (ho.trans (native_data hp).2.symm)
  by_cases hi : opsData s.ops = []
  · have hops : s.ops = [] := opsOK_injective hs.ops .nil hs.opsSize (by rw [hi]; rfl)
    unfold verify
    rw [hops, eval_nil]
    simp only
    rw [hpre, show (start ([] : List Bytes) 0).stack = [] from rfl, eval_native hp]
    simp only
    rw [if_neg (fun h => native_not_p2sh (ho ▸ hpre ▸ h.2)), h141, if_pos rfl, (native_data hp).2, native_program hp]
    simp only [program, if_true, Bool.and_eq_true, decide_eq_true_eq]
    constructor
    · rintro ⟨h1, h2, h3⟩; exact ⟨h2, h1, h3⟩
    · rintro ⟨h1, h2, h3⟩; exact ⟨h2, h1, h3⟩
  · constructor
    · intro hv
      exfalso
      unfold verify at hv
      rw [h141, if_pos rfl, ho, native_program hp] at hv
      split at hv
      · split at hv
        · rw [if_neg (fun h => native_not_p2sh h.2)] at hv
          simp [hi] at hv
        · cases hv
      · cases hv
    · exact fun h => absurd h.1 hi

/-- A program spent by its witness, nested in P2SH. -/
theorem verify_nested {s : Spend} (hs : s.OK) (h16 : s.flags.bip16 = true) (h141 : s.flags.bip141 = true) {h : Bytes} (hh : h.length = 20)
    (ho : opsData s.prevout = p2sh h) {p : Bytes} (hp : p.length = 20 ∨ p.length = 32)
    (hi : opsData s.ops = pushBytes ([0x00, UInt8.ofNat p.length] ++ p)) :
    (verify s = true ↔ s.hash160 ([0x00, UInt8.ofNat p.length] ++ p) = h ∧ truthy p = true ∧ segwit s p = true) ∧
      (∀ r', Redeems s r' → r' = [0x00, UInt8.ofNat p.length] ++ p) ∧ NoMultisig s.ops := by
  have hr : ([0x00, UInt8.ofNat p.length] ++ p).length ≤ 520 := by
    simp only [List.length_append, List.length_cons, List.length_nil]; omega
  obtain ⟨h1, h2, h3⟩ := verify_p2sh hs h16 hh ho (ds := []) (r := [0x00, UInt8.ofNat p.length] ++ p) (by simp) hr (by simp)
    (by have := pushBytes_length _ hr; simp only [List.flatMap_nil, List.nil_append]; omega) (by simpa using hi)
  refine ⟨?_, h2, h3⟩
  have hparse : parseOps ([0x00, UInt8.ofNat p.length] ++ p) = nativeOps p := by
    rw [← (native_data hp).2, parseOps_of (native_data hp).1]
    rw [(native_data hp).2]; omega
  rw [h1, h141, if_pos rfl, native_program hp, hparse]
  simp only [List.reverse_nil, eval_native hp, Verdict.done.injEq, exists_eq_left', program, if_true, hi, decide_true, Bool.true_and]
  exact Iff.rfl

theorem segwit20 {s : Spend} (h141 : s.flags.bip141 = true) (h143 : s.flags.bip143 = true) {p : Bytes} (hp : p.length = 20) :
    segwit s p = true ↔ ∃ sig key, s.witness = [sig, key] ∧ sig.length ≤ 520 ∧ key.length ≤ 520 ∧ s.hash160 key = p ∧
      Signed s true (parseOps (p2pkh p)) key sig := by
  unfold segwit
  dsimp only
  rw [if_pos hp]
  match hw : s.witness with
  | [] => simp
  | [a] => simp
  | a :: b :: c :: l => simp
  | [sig, key] =>
    have hlen : (opsData (toPayKeyHash p)).length ≤ 10000 := by
      have : opsData (toPayKeyHash p) = p2pkh p := by
        simp [toPayKeyHash, opsData, Op.toData, hp, Machine.opcodeFromSize, p2pkh]
      rw [this]; simp [p2pkh, hp]
    rw [keyhash_parse hp]
    have hpp : parseOps (p2pkh p) = toPayKeyHash p := keyhash_parse hp
    rw [hpp]
    have hcode : scriptCode (s.segwitEnv (toPayKeyHash p) [sig, key]) [sig] (start [] 0) = toPayKeyHash p := by
      unfold scriptCode
      rw [if_pos (show ((s.segwitEnv (toPayKeyHash p) [sig, key]).segwit && (s.segwitEnv (toPayKeyHash p) [sig, key]).flags.bip143) = true by
        show (true && s.flags.bip143) = true
        rw [h143]; rfl)]
      rfl
    by_cases hsz : sig.length ≤ 520 ∧ key.length ≤ 520
    · rw [eval_steps (e := s.segwitEnv (toPayKeyHash p) [sig, key]) rfl (by
        show (s.flags.bip141 && (([sig, key] : List Bytes)).any _) = false
        simp; intro _; omega) hlen, eval_keyhash rfl hp rfl]
      simp only [List.reverse_cons, List.reverse_nil, List.nil_append, List.cons_append, List.length_nil]
      rw [if_neg (by omega), hcode]
      have hk' : (s.segwitEnv (toPayKeyHash p) [sig, key]).hash160 key = s.hash160 key := rfl
      by_cases hk : s.hash160 key = p
      · rw [if_pos (hk'.trans hk)]
        have := segwit_signed (s := s) (toPayKeyHash p) (toPayKeyHash p) [sig, key] sig key
        cases hc : checkEcdsa (s.segwitEnv (toPayKeyHash p) [sig, key]) (toPayKeyHash p) sig key with
        | none =>
          rw [hc] at this
          simp only [reduceCtorEq, false_iff] at this
          simp only [Option.map_none, Bool.and_false, Bool.false_eq_true, false_iff]
          rintro ⟨a, b, hab, _, _, _, h⟩
          cases hab
          exact this h
        | some b =>
          rw [hc] at this
          simp only [Option.map_some, start, if_true, List.length_cons, List.length_nil, decide_true, Bool.true_and]
          cases b with
          | false =>
            simp only [Option.some.injEq, Bool.false_eq_true, false_iff] at this
            constructor
            · intro h; cases h
            · rintro ⟨a, b, hab, _, _, _, h⟩
              cases hab
              exact absurd h this
          | true =>
            simp only [true_iff] at this
            exact ⟨fun _ => ⟨sig, key, rfl, hsz.1, hsz.2, hk, this⟩, fun _ => rfl⟩
      · rw [if_neg (fun h => hk (hk'.symm.trans h))]
        simp only [Bool.and_false, Bool.false_eq_true, false_iff]
        rintro ⟨a, b, hab, _, _, h, _⟩
        cases hab
        exact hk h
    · have hf : eval (s.segwitEnv (toPayKeyHash p) [sig, key]) (start [sig, key].reverse 0) = .fail := by
        unfold eval
        rw [show (s.segwitEnv (toPayKeyHash p) [sig, key]).flags.bip342 = false from rfl,
          show (s.segwitEnv (toPayKeyHash p) [sig, key]).flags.bip141 = true from h141,
          show (s.segwitEnv (toPayKeyHash p) [sig, key]).witness = some [sig, key] from rfl]
        simp only [Bool.false_and, Bool.false_eq_true, if_false, Bool.false_or, Bool.true_and, Option.getD_some]
        rw [if_pos]
        simp
        omega
      rw [hf]
      simp only [Bool.and_false, Bool.false_eq_true, false_iff]
      rintro ⟨a, b, hab, h1, h2, _, _⟩
      cases hab
      exact hsz ⟨h1, h2⟩

theorem segwit32 {s : Spend} {p : Bytes} (hp : p.length = 32) :
    segwit s p = true ↔ ∃ st script t, s.witness = st ++ [script] ∧ s.sha256 script = p ∧
      eval (s.segwitEnv (parseOps script) st) (start st.reverse 0) = .done t ∧ acceptsClean t.stack = true := by
  unfold segwit
  dsimp only
  rw [if_neg (by omega), if_pos hp]
  cases hw : s.witness.reverse with
  | nil =>
    simp only [Bool.false_eq_true, false_iff]
    rintro ⟨st, script, t, h, _⟩
    rw [h] at hw
    simp at hw
  | cons script rest =>
    have hwit : s.witness = rest.reverse ++ [script] := by
      have := congrArg List.reverse hw
      simpa using this
    simp only [Bool.and_eq_true, decide_eq_true_eq]
    constructor
    · rintro ⟨h1, h2⟩
      cases he : eval (s.segwitEnv (parseOps script) rest.reverse) (start rest.reverse.reverse 0) with
      | fail => rw [he] at h2; cases h2
      | reserved => rw [he] at h2; cases h2
      | done t => rw [he] at h2; exact ⟨rest.reverse, script, t, hwit, h1, he, h2⟩
    · rintro ⟨st, script', t, h1, h2, h3, h4⟩
      rw [hwit] at h1
      obtain ⟨ha, hb⟩ := List.append_inj' h1 rfl
      cases hb
      rw [ha, h3]
      exact ⟨h2, h4⟩

/-- Ordinary spends of a witness program. -/
theorem native_ordinary {s : Spend} (hs : s.OK) {p : Bytes} (hp : p.length = 20 ∨ p.length = 32) (ho : opsData s.prevout = [0x00, UInt8.ofNat p.length] ++ p)
    (h1 : NoMultisig s.ops) (h2 : p.length = 32 → ∀ w, s.witness.getLast? = some w → LastMultisig (parseOps w)) : s.Ordinary where
  input := h1
  prevout := by
    have hpre : s.prevout = nativeOps p := opsOK_injective hs.prevout (native_data hp).1 hs.prevoutSize (ho.trans (native_data hp).2.symm)
    rw [hpre]
    exact fun o hm => pos_noMultisig [[], p] o (List.dropLast_subset _ hm)
  redeem := fun r hr => absurd hr.2.1 (by rw [ho]; exact native_not_p2sh)
  witness := by
    rintro script p' w (rfl | hr) hpw hl hw
    · rw [ho, ← program?_iff, native_program hp] at hpw
      cases hpw
      exact h2 hl w hw
    · exact absurd hr.2.1 (by rw [ho]; exact native_not_p2sh)

theorem p2sh_not_program {h : Bytes} (hh : h.length = 20) : program? (p2sh h) = none := by
  unfold p2sh program?
  simp [hh]

theorem p2sh_ordinary {s : Spend} (hs : s.OK) {h : Bytes} (hh : h.length = 20) (hp : opsData s.prevout = p2sh h) {r : Bytes}
    (hr : ∀ r', Redeems s r' → r' = r) (h1 : NoMultisig s.ops) (h2 : LastMultisig (parseOps r))
    (h3 : ∀ p w, program? r = some (0, p) → p.length = 32 → s.witness.getLast? = some w → LastMultisig (parseOps w)) : s.Ordinary where
  input := h1
  prevout := by
    rw [p2sh_ops hs hh hp]
    intro o ho
    have ho := List.dropLast_subset _ ho
    simp only [p2shOps, List.mem_cons, List.not_mem_nil, or_false] at ho
    rcases ho with rfl | rfl | rfl
    · decide
    · intro hc
      have := (po_code h).1
      rw [hc] at this
      simp at this
    · decide
  redeem := fun r' hr' => by rw [hr r' hr']; exact h2
  witness := by
    rintro script p w (rfl | hr') hpw hl hw
    · rw [hp, ← program?_iff, p2sh_not_program hh] at hpw; cases hpw
    · rw [hr _ hr', ← program?_iff] at hpw
      exact h3 p w hpw hl hw

end Verif
