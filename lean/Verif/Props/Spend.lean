import Verif.Lemmas.Spend3
/-!
# C82: what it takes to spend the standard outputs
-/
namespace Verif
open Verif.Machine (Env Val Err Res St Rel Within Small opcodeFromSize)
open Verif.Spec Verif.Spec.Script

/-! ### P2PKH -/

/-- Whatever the input script: a P2PKH output is spent only with a key that has the hash and a signature of that key. -/
theorem C82_p2pkh_needs_key_and_signature (s : Spend) (hs : s.OK) (h : Bytes) (hh : h.length = 20) (hp : opsData s.prevout = p2pkh h)
    (hc : connect s = some none) :
    ∃ key sig, s.hash160 key = h ∧ Signed s false (covered (p2pkh h) [sig]) key sig := by
  have hv := C52_accepted_is_valid s hs hc
  obtain ⟨h1, h2⟩ := p2pkh_shape hh
  rw [verify_bare (by rw [hp]; exact h1) (by rw [hp]; exact h2)] at hv
  obtain ⟨_, t1, t2, _, he2, ha⟩ := hv
  rw [p2pkh_ops hs hh hp] at he2
  obtain ⟨key, sig, rest, _, _, hk, hsg, _⟩ := (eval_keyhash_legacy hs hh _ t2).1 ⟨he2, ha⟩
  exact ⟨key, sig, hk, hsg⟩

/-- The usual input script - signature, key - spends a P2PKH output exactly if the key has the hash and the signature is
valid. -/
theorem C82_p2pkh (s : Spend) (hs : s.OK) (h : Bytes) (hh : h.length = 20) (hp : opsData s.prevout = p2pkh h) (key sig : Bytes)
    (hk : key.length ≤ 520) (hg : sig.length ≤ 520) (hi : opsData s.ops = pushBytes sig ++ pushBytes key) (hw : s.witness = []) :
    connect s = some none ↔ s.hash160 key = h ∧ Signed s false (covered (p2pkh h) [sig]) key sig := by
  obtain ⟨h1, h2⟩ := p2pkh_shape hh
  have hd : ∀ d ∈ [sig, key], d.length ≤ 520 := by
    intro d hd
    simp only [List.mem_cons, List.not_mem_nil, or_false] at hd
    rcases hd with rfl | rfl <;> assumption
  have hops : s.ops = [sig, key].map po := pos_of hs hd (by rw [hi]; simp)
  have hpre := p2pkh_ops hs hh hp
  have hl : ([sig, key].flatMap pushBytes).length ≤ 10000 := by
    have := pushBytes_length sig hg
    have := pushBytes_length key hk
    simp only [List.flatMap_cons, List.flatMap_nil, List.append_nil, List.length_append]
    omega
  rw [C52_exact_ordinary s hs (bare_ordinary (by rw [hops]; exact pos_noMultisig _) (by
    rw [hpre]; exact fun o ho => keyhash_noMultisig h hh o (List.dropLast_subset _ ho)) (by rw [hp]; exact h1) (by rw [hp]; exact h2)),
    verify_bare (by rw [hp]; exact h1) (by rw [hp]; exact h2), hpre, hops, eval_pos hd (by simp) hl]
  constructor
  · rintro ⟨_, t1, t2, he1, he2, ha⟩
    cases he1
    obtain ⟨key', sig', rest, hst, _, hk', hsg, _⟩ := (eval_keyhash_legacy hs hh _ t2).1 ⟨he2, ha⟩
    simp [start] at hst
    obtain ⟨rfl, rfl, _⟩ := hst
    exact ⟨hk', hsg⟩
  · rintro ⟨hk', hsg⟩
    refine ⟨hw, _, _, rfl, (eval_keyhash_legacy hs hh _ _).2 ⟨key, sig, [], by simp [start], by simp, hk', hsg, rfl⟩⟩

/-- Where the covered script is the whole script: no push in it is one of the signatures. -/
theorem C82_covered (script : Bytes) (sigs : List Bytes) (h : ∀ o ∈ parseOps script, ∀ d ∈ sigs, o.toData ≠ pushBytes d) :
    covered script sigs = parseOps script := by
  unfold covered
  rw [List.filter_eq_self]
  intro o ho
  simpa using h o ho

/-- The script a P2PKH signature covers is the script itself, unless the signature is the hash. -/
theorem C82_covered_p2pkh (h sig : Bytes) (hh : h.length = 20) (hne : sig ≠ h) (hg : sig.length ≤ 520) :
    covered (p2pkh h) [sig] = parseOps (p2pkh h) := by
  apply C82_covered
  intro o ho d hd
  rw [List.mem_singleton.1 hd]
  rw [show parseOps (p2pkh h) = toPayKeyHash h from keyhash_parse hh] at ho
  simp only [toPayKeyHash, List.mem_cons, List.not_mem_nil, or_false] at ho
  rcases ho with rfl | rfl | rfl | rfl | rfl
  · exact plain_not_push _ (by decide) sig hg
  · exact plain_not_push _ (by decide) sig hg
  · intro hx
    have h1 := (po_spec (d := h) (by omega)).2
    unfold po at h1
    rw [h1] at hx
    exact hne (pushBytes_inj (by omega) hg hx).symm
  · exact plain_not_push _ (by decide) sig hg
  · exact plain_not_push _ (by decide) sig hg

/-! ### P2PK -/

theorem C82_p2pk (s : Spend) (hs : s.OK) (key sig : Bytes) (hp : opsData s.prevout = p2pk key)
    (hk : key.length ≤ 520) (hg : sig.length ≤ 520) (hi : opsData s.ops = pushBytes sig) (hw : s.witness = []) :
    connect s = some none ↔ Signed s false (covered (p2pk key) [sig]) key sig := by
  have hd : ∀ d ∈ [sig], d.length ≤ 520 := by simpa using hg
  have hops : s.ops = [sig].map po := pos_of hs hd (by rw [hi]; simp)
  have hok : OpsOK [po key, { code := 172 }] ∧ opsData [po key, { code := 172 }] = p2pk key := by
    constructor
    · apply Machine.opsOK_of
      intro o ho
      simp only [List.mem_cons, List.not_mem_nil, or_false] at ho
      rcases ho with rfl | rfl
      · exact (po_spec hk).1
      · exact plain_consistent _ (by decide)
    · simp only [opsData, List.flatMap_cons, List.flatMap_nil, List.append_nil, (po_spec hk).2]
      rfl
  have hpre : s.prevout = [po key, { code := 172 }] := opsOK_injective hs.prevout hok.1 hs.prevoutSize (hp.trans hok.2.symm)
  have hparse : parseOps (p2pk key) = [po key, { code := 172 }] := by
    rw [← hok.2, parseOps_of hok.1]; rw [hok.2, ← hp]; exact hs.prevoutSize
  obtain ⟨b, tl, hb, hb78, hbc⟩ := pushBytes_head key
  have h1 : ¬ IsP2SH (p2pk key) := by
    rintro ⟨h', _, he⟩
    unfold p2pk at he
    rw [hb] at he
    simp at he
    rw [he.1] at hb78
    simp at hb78
  have h2 : program? (p2pk key) = none := by
    unfold p2pk
    rw [hb]
    unfold program?
    split
    · rename_i v n p heq
      simp only [List.cons_append, List.cons.injEq] at heq
      obtain ⟨rfl, htl⟩ := heq
      split_ifs with g1 g2 g3
      · rcases hbc with hbc | ⟨hbc, rfl⟩
        · rw [g2] at hbc; simp at hbc
        · rw [g2] at hbc
          simp at hbc
          subst hbc
          simp at htl
          rw [htl.2] at g1
          simp at g1
      · omega
      · rfl
      · rfl
    · rfl
  have hsz : (p2pk key).length ≤ 10000 := by
    have := pushBytes_length key hk
    simp only [p2pk, List.length_append, List.length_cons, List.length_nil]; omega
  rw [C52_exact_ordinary s hs (bare_ordinary (by rw [hops]; exact pos_noMultisig _) (by
    rw [hpre]
    intro o ho
    simp only [List.dropLast_cons_cons, List.dropLast_singleton, List.mem_singleton] at ho
    exact pos_noMultisig [key] o (by simpa using ho)) (by rw [hp]; exact h1) (by rw [hp]; exact h2)),
    verify_bare (by rw [hp]; exact h1) (by rw [hp]; exact h2), hpre, hops, eval_pos hd (by simp) (by
      have := pushBytes_length sig hg; simp; omega)]
  have hcov : scriptCode (s.legacyEnv [po key, { code := 172 }]) [sig] (start [] 0) = covered (p2pk key) [sig] := by
    rw [filter_legacy s _ _ _ rfl]
    · unfold covered; rw [hparse]
    · intro o ho
      simp only [List.mem_cons, List.not_mem_nil, or_false] at ho
      rcases ho with rfl | rfl
      · rw [(po_spec hk).2]
        exact fun h => plain_not_push 171 (by decide) key hk (by rw [h]; rfl)
      · decide
  have heval : eval (s.legacyEnv [po key, { code := 172 }]) (start [sig] 0) =
      match checkEcdsa (s.legacyEnv [po key, { code := 172 }]) (covered (p2pk key) [sig]) sig key with
      | none => .fail
      | some b => .done { start [encodeBool b] 0 with nops := 1 } := by
    rw [eval_steps (e := s.legacyEnv [po key, { code := 172 }]) rfl legacy_witness_ok (by
      show (opsData [po key, { code := 172 }]).length ≤ _
      rw [hok.2]; exact hsz), ← hcov]
    simp only [show (s.legacyEnv [po key, { code := 172 }]).ops = [po key, { code := 172 }] from rfl, steps, Option.bind_eq_bind]
    rw [step_po rfl hk rfl (by simp [start]) (by simp [start])]
    simp only [Option.bind_some]
    rw [step_of rfl rfl (by simp) (by decide) rfl]
    have hcnt : ∀ t : State, counted (s.legacyEnv [po key, { code := 172 }]) { code := 172 } t = { t with nops := t.nops + 1 } := by
      intro t; unfold counted; rw [if_pos]; rfl
    rw [hcnt, if_neg (by simp [start])]
    have hex : ∀ (i : Nat) (t : State), execute (s.legacyEnv [po key, { code := 172 }]) i { code := 172 } t =
        (checkSig (s.legacyEnv [po key, { code := 172 }]) t).bind fun r => some { r.2 with stack := encodeBool r.1 :: r.2.stack } := by
      intro i t
      unfold execute
      simp
    rw [hex]
    unfold checkSig
    simp only [start]
    rw [if_neg (by show ¬ (false = true); simp)]
    have hq : ∀ (x : List Bytes) (k : Nat), scriptCode (s.legacyEnv [po key, { code := 172 }]) [sig] { stack := x, nops := k, budget := ((0 : Nat) : Int) } =
            scriptCode (s.legacyEnv [po key, { code := 172 }]) [sig] { stack := [], budget := ((0 : Nat) : Int) } := fun _ _ => rfl
    rw [hq]
    cases checkEcdsa (s.legacyEnv [po key, { code := 172 }]) (scriptCode (s.legacyEnv [po key, { code := 172 }]) [sig]
      { stack := [], budget := ((0 : Nat) : Int) }) sig key with
    | none => rfl
    | some b => rfl
  have hsg := legacy_signed (s := s) [po key, { code := 172 }] (covered (p2pk key) [sig]) sig key
  constructor
  · rintro ⟨_, t1, t2, he1, he2, ha⟩
    cases he1
    rw [show (start [sig].reverse 0).stack = [sig] from rfl, heval] at he2
    cases hc : checkEcdsa (s.legacyEnv [po key, { code := 172 }]) (covered (p2pk key) [sig]) sig key with
    | none => rw [hc] at he2; cases he2
    | some b =>
      rw [hc] at he2
      cases he2
      cases b with
      | false => cases ha
      | true => exact hsg.1 hc
  · intro h
    refine ⟨hw, _, { start ([1] :: []) 0 with nops := 1 }, rfl, ?_, ?_⟩
    · rw [show (start [sig].reverse 0).stack = [sig] from rfl, heval, hsg.2 h]
      rfl
    · rfl

/-! ### P2SH -/

/-- Whatever the input script: with BIP16, a P2SH output is spent only with a redeem script that has the hash. -/
theorem C82_p2sh_needs_redeem (s : Spend) (hs : s.OK) (h16 : s.flags.bip16 = true) (h : Bytes) (hh : h.length = 20)
    (hp : opsData s.prevout = p2sh h) (hc : connect s = some none) :
    ∃ r, Redeems s r ∧ s.hash160 r = h ∧ ∃ rest t, eval (s.legacyEnv (parseOps r)) (start rest 0) = .done t ∧ accepts t.stack = true := by
  have hv := C52_accepted_is_valid s hs hc
  unfold verify at hv
  split at hv
  · rename_i t1 he1
    split at hv
    · rename_i t2 he2
      simp only [Bool.and_eq_true] at hv
      rw [if_pos ⟨h16, by rw [hp]; exact p2sh_is hh⟩] at hv
      obtain ⟨hv1, hv2⟩ := hv
      rw [p2sh_ops hs hh hp] at he2
      obtain ⟨r, rest, hst, _, rfl⟩ := (eval_p2sh hh t1.stack (done_small (by simp [start]) he1) t2).1 he2
      have hk : s.hash160 r = h := by
        by_contra hne
        rw [show (s.hash160 r == h) = false by simpa using hne] at hv1
        cases hv1
      rw [hst] at hv2
      simp only [Bool.and_eq_true] at hv2
      refine ⟨r, ⟨h16, by rw [hp]; exact p2sh_is hh, t1, he1, by rw [hst]; rfl⟩, hk, rest, ?_⟩
      cases he3 : eval (s.legacyEnv (parseOps r)) (start rest 0) with
      | fail => rw [he3] at hv2; cases hv2.2
      | reserved => rw [he3] at hv2; cases hv2.2
      | done t =>
        rw [he3] at hv2
        simp only [Bool.and_eq_true] at hv2
        exact ⟨t, rfl, hv2.2.1⟩
    · cases hv
  · cases hv

/-! ### P2WPKH -/

theorem C82_p2wpkh (s : Spend) (hs : s.OK) (h141 : s.flags.bip141 = true) (h143 : s.flags.bip143 = true) (h : Bytes) (hh : h.length = 20)
    (hp : opsData s.prevout = p2wpkh h) :
    connect s = some none ↔ opsData s.ops = [] ∧ truthy h = true ∧ ∃ sig key, s.witness = [sig, key] ∧ sig.length ≤ 520 ∧ key.length ≤ 520 ∧
      s.hash160 key = h ∧ Signed s true (parseOps (p2pkh h)) key sig := by
  have ho : opsData s.prevout = [0x00, UInt8.ofNat h.length] ++ h := by rw [hp, hh]; rfl
  rw [← segwit20 h141 h143 hh, ← verify_native hs h141 (.inl hh) ho]
  constructor
  · exact C52_accepted_is_valid s hs
  · intro hv
    have hi := ((verify_native hs h141 (.inl hh) ho).1 hv).1
    have hops : s.ops = [] := opsOK_injective hs.ops .nil hs.opsSize (by rw [hi]; rfl)
    exact (C52_exact_ordinary s hs (native_ordinary hs (.inl hh) ho (by rw [hops]; intro o ho; cases ho) (fun h32 => by omega))).2 hv

theorem C82_p2sh_p2wpkh (s : Spend) (hs : s.OK) (h16 : s.flags.bip16 = true) (h141 : s.flags.bip141 = true) (h143 : s.flags.bip143 = true)
    (outer h : Bytes) (ho : outer.length = 20) (hh : h.length = 20) (hp : opsData s.prevout = p2sh outer) (hi : opsData s.ops = pushBytes (p2wpkh h)) :
    connect s = some none ↔ s.hash160 (p2wpkh h) = outer ∧ truthy h = true ∧ ∃ sig key, s.witness = [sig, key] ∧ sig.length ≤ 520 ∧ key.length ≤ 520 ∧
      s.hash160 key = h ∧ Signed s true (parseOps (p2pkh h)) key sig := by
  have hr : p2wpkh h = [0x00, UInt8.ofNat h.length] ++ h := by rw [hh]; rfl
  rw [hr] at hi ⊢
  obtain ⟨h1, h2, h3⟩ := verify_nested hs h16 h141 ho hp (.inl hh) hi
  have hparse : parseOps ([0x00, UInt8.ofNat h.length] ++ h) = nativeOps h := by
    rw [← (native_data (.inl hh)).2, parseOps_of (native_data (.inl hh)).1]
    rw [(native_data (.inl hh)).2]; simp only [List.length_append, List.length_cons, List.length_nil]; omega
  rw [← segwit20 h141 h143 hh, ← h1]
  exact C52_exact_ordinary s hs (p2sh_ordinary hs ho hp h2 h3 (by
    rw [hparse]
    exact fun o hm => pos_noMultisig [[], h] o (List.dropLast_subset _ hm)) (by
    intro p w hpr h32
    rw [native_program (.inl hh)] at hpr
    cases hpr
    omega))

/-! ### P2WSH -/

/-- Whatever the input: with BIP141, a P2WSH output is spent only by an empty input script and a witness that ends with a
script of that hash, which the elements before it satisfy and leave nothing. -/
theorem C82_p2wsh_needs_script (s : Spend) (hs : s.OK) (h141 : s.flags.bip141 = true) (h : Bytes) (hh : h.length = 32)
    (hp : opsData s.prevout = p2wsh h) (hc : connect s = some none) :
    opsData s.ops = [] ∧ ∃ st script t, s.witness = st ++ [script] ∧ s.sha256 script = h ∧
      eval (s.segwitEnv (parseOps script) st) (start st.reverse 0) = .done t ∧ acceptsClean t.stack = true := by
  have ho : opsData s.prevout = [0x00, UInt8.ofNat h.length] ++ h := by rw [hp, hh]; rfl
  obtain ⟨h1, _, h3⟩ := (verify_native hs h141 (.inr hh) ho).1 (C52_accepted_is_valid s hs hc)
  exact ⟨h1, (segwit32 hh).1 h3⟩

/-! ### Multisig -/

/-- Whatever the input script: an m-of-n output is spent only with m signatures that belong to m of the keys, in the order of
the keys. -/
theorem C82_multisig_needs_signatures (s : Spend) (hs : s.OK) (m : Nat) (keys : List Bytes) (hm : 1 ≤ m) (hmn : m ≤ keys.length)
    (hn : keys.length ≤ 16) (hk : ∀ k ∈ keys, k.length ≤ 520) (hp : opsData s.prevout = Spec.multisig m keys) (hc : connect s = some none) :
    ∃ sigs : List Bytes, sigs.length = m ∧ Matched s false (covered (Spec.multisig m keys) sigs) keys sigs := by
  have hv := C52_accepted_is_valid s hs hc
  obtain ⟨h1, h2⟩ := multisig_shape hm hmn hn
  obtain ⟨hok, hod⟩ := multisigOps'_ok hm hmn hn hk
  have hpre : s.prevout = multisigOps' m keys := opsOK_injective hs.prevout hok hs.prevoutSize (hp.trans hod.symm)
  rw [verify_bare (by rw [hp]; exact h1) (by rw [hp]; exact h2), hpre] at hv
  obtain ⟨_, t1, t2, he1, he2, ha⟩ := hv
  obtain ⟨_, sigs, dummy, rest, _, hl, _, hmat, _⟩ := (eval_multisig (e := s.legacyEnv (multisigOps' m keys)) rfl legacy_witness_ok hm hmn hn hk rfl _
    (done_small (by simp [start]) he1) t2).1 ⟨he2, ha⟩
  refine ⟨sigs.reverse, by simpa using hl, ?_⟩
  rw [← matched_legacy hm hmn hn hk, List.reverse_reverse]
  exact hmat

/-- The usual input script - a dummy element and the signatures - spends a bare m-of-n output exactly if the signatures
belong to m of the keys, in order. -/
theorem C82_multisig (s : Spend) (hs : s.OK) (m : Nat) (keys : List Bytes) (hm : 1 ≤ m) (hmn : m ≤ keys.length)
    (hn : keys.length ≤ 16) (hk : ∀ k ∈ keys, k.length ≤ 520) (hp : opsData s.prevout = Spec.multisig m keys) (dummy : Bytes) (sigs : List Bytes)
    (hl : sigs.length = m) (hd : ∀ d ∈ dummy :: sigs, d.length ≤ 520) (hi : opsData s.ops = (dummy :: sigs).flatMap pushBytes) (hw : s.witness = []) :
    connect s = some none ↔ (s.flags.bip147 = true → dummy = []) ∧ Matched s false (covered (Spec.multisig m keys) sigs) keys sigs := by
  obtain ⟨h1, h2⟩ := multisig_shape hm hmn hn
  obtain ⟨hok, hod⟩ := multisigOps'_ok hm hmn hn hk
  have hpre : s.prevout = multisigOps' m keys := opsOK_injective hs.prevout hok hs.prevoutSize (hp.trans hod.symm)
  have hops : s.ops = (dummy :: sigs).map po := pos_of hs hd hi
  have hsz := pushes_length _ hd
  rw [C52_exact_ordinary s hs (bare_ordinary (by rw [hops]; exact pos_noMultisig _) (by rw [hpre]; exact multisig_last m keys hmn hn)
    (by rw [hp]; exact h1) (by rw [hp]; exact h2)), verify_bare (by rw [hp]; exact h1) (by rw [hp]; exact h2), hpre, hops,
    eval_pos hd (by simp; omega) (by simp only [List.length_cons] at hsz; omega)]
  rw [← matched_legacy hm hmn hn hk]
  have hst : (start (dummy :: sigs).reverse 0).stack = sigs.reverse ++ dummy :: [] := by simp [start]
  have hev := eval_multisig (e := s.legacyEnv (multisigOps' m keys)) rfl legacy_witness_ok hm hmn hn hk rfl (sigs.reverse ++ dummy :: []) (by simp; omega)
  constructor
  · rintro ⟨_, t1, t2, he1, he2, ha⟩
    cases he1
    rw [hst] at he2
    obtain ⟨_, sg, du, rest, hq, hl', h7, hmat, _⟩ := (hev t2).1 ⟨he2, ha⟩
    obtain ⟨hq1, hq2⟩ := List.append_inj hq (by simp; omega)
    cases hq2
    cases hq1
    exact ⟨h7, hmat⟩
  · rintro ⟨h7, hmat⟩
    refine ⟨hw, _, { start ([1] :: []) 0 with nops := 1 + keys.length }, rfl, ?_⟩
    rw [hst]
    exact (hev _).2 ⟨by simp; omega, sigs.reverse, dummy, [], rfl, by simpa using hl, h7, hmat, rfl⟩

/-- The same for the m-of-n script in P2SH. -/
theorem C82_multisig_p2sh (s : Spend) (hs : s.OK) (h16 : s.flags.bip16 = true) (h : Bytes) (hh : h.length = 20) (hp : opsData s.prevout = p2sh h)
    (m : Nat) (keys : List Bytes) (hm : 1 ≤ m) (hmn : m ≤ keys.length) (hn : keys.length ≤ 16) (hk : ∀ k ∈ keys, k.length ≤ 520)
    (hr : (Spec.multisig m keys).length ≤ 520) (dummy : Bytes) (sigs : List Bytes)
    (hl : sigs.length = m) (hd : ∀ d ∈ dummy :: sigs, d.length ≤ 520)
    (hi : opsData s.ops = (dummy :: sigs).flatMap pushBytes ++ pushBytes (Spec.multisig m keys)) (hw : s.witness = []) :
    connect s = some none ↔ s.hash160 (Spec.multisig m keys) = h ∧ (s.flags.bip147 = true → dummy = []) ∧
      Matched s false (covered (Spec.multisig m keys) sigs) keys sigs := by
  obtain ⟨h1, h2⟩ := multisig_shape hm hmn hn
  have hsz := pushes_length _ hd
  have hsz2 := pushBytes_length _ hr
  obtain ⟨hv, hred, hno⟩ := verify_p2sh hs h16 hh hp hd hr (by simp only [List.length_cons]; omega) (by
    simp only [List.length_append, List.length_cons] at hsz ⊢; omega) hi
  rw [C52_exact_ordinary s hs (p2sh_ordinary hs hh hp hred hno (by rw [multisig_parse hm hmn hn hk]; exact multisig_last m keys hmn hn) (by
    intro p w hpr; rw [h2] at hpr; cases hpr)), hv, h2, ite_self, hw, multisig_parse hm hmn hn hk, ← matched_legacy hm hmn hn hk]
  have hev := eval_multisig (e := s.legacyEnv (multisigOps' m keys)) rfl legacy_witness_ok hm hmn hn hk rfl (sigs.reverse ++ dummy :: []) (by simp; omega)
  have hst : (dummy :: sigs).reverse = sigs.reverse ++ dummy :: [] := by simp
  rw [hst]
  constructor
  · rintro ⟨hkk, ⟨t, ht⟩, _⟩
    obtain ⟨_, sg, du, rest, hq, hl', h7, hmat, _⟩ := (hev t).1 ht
    obtain ⟨hq1, hq2⟩ := List.append_inj hq (by simp; omega)
    cases hq2
    cases hq1
    exact ⟨hkk, h7, hmat⟩
  · rintro ⟨hkk, h7, hmat⟩
    exact ⟨hkk, ⟨_, (hev _).2 ⟨by simp; omega, sigs.reverse, dummy, [], rfl, by simpa using hl, h7, hmat, rfl⟩⟩, rfl⟩

theorem segwit_multisig (s : Spend) (h141 : s.flags.bip141 = true) (h143 : s.flags.bip143 = true) (h : Bytes) (hh : h.length = 32)
    (m : Nat) (keys : List Bytes) (hm : 1 ≤ m) (hmn : m ≤ keys.length) (hn : keys.length ≤ 16) (hk : ∀ k ∈ keys, k.length ≤ 520)
    (dummy : Bytes) (sigs : List Bytes) (hl : sigs.length = m) (hd : ∀ d ∈ dummy :: sigs, d.length ≤ 520)
    (hw : s.witness = (dummy :: sigs) ++ [Spec.multisig m keys]) :
    segwit s h = true ↔ s.sha256 (Spec.multisig m keys) = h ∧ (s.flags.bip147 = true → dummy = []) ∧
      Matched s true (parseOps (Spec.multisig m keys)) keys sigs := by
  rw [segwit32 hh, ← matched_segwit h143 hm hmn hn hk (dummy :: sigs)]
  have hwe : ((s.segwitEnv (multisigOps' m keys) (dummy :: sigs)).flags.bip141 &&
      ((s.segwitEnv (multisigOps' m keys) (dummy :: sigs)).witness.getD []).any (fun x => decide (x.length > 520))) = false := by
    show (s.flags.bip141 && (dummy :: sigs).any (fun x => decide (x.length > 520))) = false
    rw [h141, Bool.true_and, List.any_eq_false]
    intro d hm
    have := hd d hm
    simp only [decide_eq_true_eq]
    omega
  have hev := eval_multisig (e := s.segwitEnv (multisigOps' m keys) (dummy :: sigs)) rfl hwe hm hmn hn hk rfl (sigs.reverse ++ dummy :: []) (by simp; omega)
  have hst : (dummy :: sigs).reverse = sigs.reverse ++ dummy :: [] := by simp
  constructor
  · rintro ⟨st, script, t, hw', hs, he, ha⟩
    rw [hw] at hw'
    obtain ⟨rfl, hq⟩ := List.append_inj' hw' rfl
    cases hq
    rw [multisig_parse hm hmn hn hk, hst] at he
    have ha' : accepts t.stack = true := by
      unfold acceptsClean at ha
      split at ha
      · rename_i a heq; rw [heq]; exact ha
      · cases ha
    obtain ⟨_, sg, du, rest, hq, hl', h7, hmat, _⟩ := (hev t).1 ⟨he, ha'⟩
    obtain ⟨hq1, hq2⟩ := List.append_inj hq (by simp; omega)
    cases hq2
    cases hq1
    exact ⟨hs, h7, hmat⟩
  · rintro ⟨hkk, h7, hmat⟩
    have := (hev { start ([1] :: []) 0 with nops := 1 + keys.length }).2 ⟨by simp; omega, sigs.reverse, dummy, [], rfl, by simpa using hl, h7, hmat, rfl⟩
    refine ⟨dummy :: sigs, _, { start ([1] :: []) 0 with nops := 1 + keys.length }, hw, hkk, ?_, ?_⟩
    · rw [multisig_parse hm hmn hn hk, hst]
      exact this.1
    · rfl

theorem multisig_witness_last {s : Spend} {m : Nat} {keys : List Bytes} (hm : 1 ≤ m) (hmn : m ≤ keys.length) (hn : keys.length ≤ 16)
    (hk : ∀ k ∈ keys, k.length ≤ 520) {l : List Bytes} (hw : s.witness = l ++ [Spec.multisig m keys]) :
    ∀ w, s.witness.getLast? = some w → LastMultisig (parseOps w) := by
  intro w h
  rw [hw, List.getLast?_concat] at h
  cases h
  rw [multisig_parse hm hmn hn hk]
  exact multisig_last m keys hmn hn

/-- The same for the m-of-n script in P2WSH. -/
theorem C82_multisig_p2wsh (s : Spend) (hs : s.OK) (h141 : s.flags.bip141 = true) (h143 : s.flags.bip143 = true) (h : Bytes) (hh : h.length = 32)
    (hp : opsData s.prevout = p2wsh h)
    (m : Nat) (keys : List Bytes) (hm : 1 ≤ m) (hmn : m ≤ keys.length) (hn : keys.length ≤ 16) (hk : ∀ k ∈ keys, k.length ≤ 520)
    (dummy : Bytes) (sigs : List Bytes) (hl : sigs.length = m) (hd : ∀ d ∈ dummy :: sigs, d.length ≤ 520)
    (hi : opsData s.ops = []) (hw : s.witness = (dummy :: sigs) ++ [Spec.multisig m keys]) :
    connect s = some none ↔ truthy h = true ∧ s.sha256 (Spec.multisig m keys) = h ∧ (s.flags.bip147 = true → dummy = []) ∧
      Matched s true (parseOps (Spec.multisig m keys)) keys sigs := by
  have ho : opsData s.prevout = [0x00, UInt8.ofNat h.length] ++ h := by rw [hp, hh]; rfl
  have hops : s.ops = [] := opsOK_injective hs.ops .nil hs.opsSize (by rw [hi]; rfl)
  rw [C52_exact_ordinary s hs (native_ordinary hs (.inr hh) ho (by rw [hops]; intro o ho; cases ho)
    (fun _ => multisig_witness_last hm hmn hn hk hw)), verify_native hs h141 (.inr hh) ho,
    segwit_multisig s h141 h143 h hh m keys hm hmn hn hk dummy sigs hl hd hw]
  exact ⟨fun h => h.2, fun h => ⟨hi, h⟩⟩

/-- The same for the m-of-n script in P2WSH in P2SH. -/
theorem C82_multisig_p2sh_p2wsh (s : Spend) (hs : s.OK) (h16 : s.flags.bip16 = true) (h141 : s.flags.bip141 = true) (h143 : s.flags.bip143 = true)
    (outer h : Bytes) (ho : outer.length = 20) (hh : h.length = 32) (hp : opsData s.prevout = p2sh outer)
    (m : Nat) (keys : List Bytes) (hm : 1 ≤ m) (hmn : m ≤ keys.length) (hn : keys.length ≤ 16) (hk : ∀ k ∈ keys, k.length ≤ 520)
    (dummy : Bytes) (sigs : List Bytes) (hl : sigs.length = m) (hd : ∀ d ∈ dummy :: sigs, d.length ≤ 520)
    (hi : opsData s.ops = pushBytes (p2wsh h)) (hw : s.witness = (dummy :: sigs) ++ [Spec.multisig m keys]) :
    connect s = some none ↔ s.hash160 (p2wsh h) = outer ∧ truthy h = true ∧ s.sha256 (Spec.multisig m keys) = h ∧ (s.flags.bip147 = true → dummy = []) ∧
      Matched s true (parseOps (Spec.multisig m keys)) keys sigs := by
  have hr : p2wsh h = [0x00, UInt8.ofNat h.length] ++ h := by rw [hh]; rfl
  rw [hr] at hi ⊢
  obtain ⟨h1, h2, h3⟩ := verify_nested hs h16 h141 ho hp (.inr hh) hi
  have hparse : parseOps ([0x00, UInt8.ofNat h.length] ++ h) = nativeOps h := by
    rw [← (native_data (.inr hh)).2, parseOps_of (native_data (.inr hh)).1]
    rw [(native_data (.inr hh)).2]; simp only [List.length_append, List.length_cons, List.length_nil]; omega
  rw [C52_exact_ordinary s hs (p2sh_ordinary hs ho hp h2 h3 (by
    rw [hparse]
    exact fun o hm => pos_noMultisig [[], h] o (List.dropLast_subset _ hm)) (by
    intro p w _ _
    exact multisig_witness_last hm hmn hn hk hw w)), h1,
    segwit_multisig s h141 h143 h hh m keys hm hmn hn hk dummy sigs hl hd hw]


/-! ### Examples

In the toy cryptography of C52 a signature is the key followed by the hash type byte, HASH160 is 20 zero bytes and SHA256 is 32
bytes 1. -/

theorem pos_consistent {ds : List Bytes} (hd : ∀ d ∈ ds, d.length ≤ 520) : ∀ o ∈ ds.map po, o.Consistent := by
  intro o ho
  obtain ⟨d, hm, rfl⟩ := List.mem_map.1 ho
  exact (po_spec (hd d hm)).1

def toyHash20 : Bytes := List.replicate 20 0
def toyKeys : List Bytes := [[2, 1], [2, 2], [2, 3]]

theorem toyMultisig_consistent : ∀ o ∈ multisigOps' 2 toyKeys, o.Consistent := by
  intro o ho
  rcases mem_multisigOps' ho with rfl | ⟨d, hd, rfl⟩ | rfl | rfl
  · exact plain_consistent _ (by decide)
  · exact (po_spec (by
      have : ∀ k ∈ toyKeys, k.length ≤ 520 := by decide
      exact this d hd)).1
  · exact plain_consistent _ (by decide)
  · exact plain_consistent _ (by decide)

/-- A P2PKH spend that meets the hypotheses of `C82_p2pkh` and is accepted; with another signature it is not. -/
example : let s := toySpend allFlags ([[2, 7, 1], [2, 7]].map po) (toPayKeyHash toyHash20) []
    s.OK ∧ opsData s.prevout = p2pkh toyHash20 ∧ opsData s.ops = pushBytes [2, 7, 1] ++ pushBytes [2, 7] ∧ s.witness = [] ∧
    connect s = some none ∧
    connect (toySpend allFlags ([[2, 8, 1], [2, 7]].map po) (toPayKeyHash toyHash20) []) = some (some .stack_false) := by
  refine ⟨toySpend_ok _ _ _ _ rfl (pos_consistent (by decide)) (by
    intro o ho
    exact (keyhash_ok (p := toyHash20) rfl).1.allConsistent (by decide) o ho) (by decide) (by decide) (by decide), by decide, by decide, rfl,
    by decide +kernel, by decide +kernel⟩

/-- A bare 2-of-3 spend that meets the hypotheses of `C82_multisig` and is accepted; with the signatures in the wrong order it
is not. -/
example : let s := toySpend allFlags ([[], [2, 1, 1], [2, 3, 1]].map po) (multisigOps' 2 toyKeys) []
    s.OK ∧ opsData s.prevout = Spec.multisig 2 toyKeys ∧ opsData s.ops = [[], [2, 1, 1], [2, 3, 1]].flatMap pushBytes ∧ s.witness = [] ∧
    connect s = some none ∧
    connect (toySpend allFlags ([[], [2, 3, 1], [2, 1, 1]].map po) (multisigOps' 2 toyKeys) []) = some (some .stack_false) := by
  refine ⟨toySpend_ok _ _ _ _ rfl (pos_consistent (by decide)) toyMultisig_consistent (by decide) (by decide) (by decide), by decide, by decide, rfl,
    by decide +kernel, by decide +kernel⟩

/-- The same 2-of-3 in P2WSH, meeting the hypotheses of `C82_multisig_p2wsh`. -/
example : let s := toySpend allFlags [] p2wshOut [[], [2, 1, 1], [2, 3, 1], Spec.multisig 2 toyKeys]
    s.OK ∧ opsData s.prevout = p2wsh (List.replicate 32 1) ∧ truthy (List.replicate 32 1) = true ∧ connect s = some none ∧
    connect (toySpend allFlags [] p2wshOut [[1], [2, 1, 1], [2, 3, 1], Spec.multisig 2 toyKeys]) = some (some .op_check_multisig_verify9) := by
  refine ⟨toySpend_ok _ _ _ _ rfl (by simp) ?_ (by decide) (by decide) (by decide), by decide, by decide +kernel, by decide +kernel, by decide +kernel⟩
  exact pos_consistent (ds := [[], List.replicate 32 1]) (by decide)

/-- A redeem script of the right hash, meeting the hypotheses of `C82_p2sh_needs_redeem` and `C82_multisig_p2sh`. -/
example : let s := toySpend allFlags ([[], [2, 1, 1], [2, 3, 1], Spec.multisig 2 toyKeys].map po) p2shOut []
    s.OK ∧ s.flags.bip16 = true ∧ opsData s.prevout = p2sh toyHash20 ∧ connect s = some none := by
  refine ⟨toySpend_ok _ _ _ _ rfl (pos_consistent (by decide)) p2shOut_consistent (by decide) (by decide) (by decide), rfl, by decide, by decide +kernel⟩

end Verif
