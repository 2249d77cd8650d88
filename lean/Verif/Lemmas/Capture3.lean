import Verif.Lemmas.Capture2
/-! Capture of a multisig, and of whole programs without BIP342. -/
namespace Verif.Capture
open Verif Verif.Machine Verif.Spec.Script Verif.Spec.Batch

theorem verifyGroup_short (V : Bytes → Bytes → Bytes → Bool) (d : Bytes) : ∀ (keys sigs : List Bytes), keys.length < sigs.length →
    Batch.verifyGroup V d keys sigs = false
  | [], [], h => by simp at h
  | _ :: _, [], h => by simp at h
  | [], _ :: _, _ => rfl
  | k :: ks, s :: ss, h => by
    unfold Batch.verifyGroup
    rw [if_neg (by simp only [List.length_cons] at h; omega)]

/-- A turn of the loop over keys and signatures. -/
theorem verifyGroup_cons (V : Bytes → Bytes → Bytes → Bool) (d : Bytes) (k s : Bytes) (ks ss : List Bytes) :
    Batch.verifyGroup V d (k :: ks) (s :: ss) = if V k d s then Batch.verifyGroup V d ks ss else Batch.verifyGroup V d ks (s :: ss) := by
  by_cases h : ks.length + 1 ≥ ss.length + 1
  · rw [Batch.verifyGroup, if_pos h]
  · rw [Batch.verifyGroup, if_neg h, verifyGroup_short V d ks ss (by omega), verifyGroup_short V d ks (s :: ss) (by simp only [List.length_cons]; omega)]
    simp

theorem verifyGroup_nil (V : Bytes → Bytes → Bytes → Bool) (d : Bytes) (ks : List Bytes) : Batch.verifyGroup V d ks [] = true := by
  cases ks <;> simp [Batch.verifyGroup]

/-! ## Parsing -/

theorem parseLoop_some {c : Ctx} {b : UInt8} {e : Bytes} {es : List Bytes} {x : Option UInt8} {sigs : List Bytes}
    (h : parseLoop c (some b) (e :: es) = some (x, sigs)) :
    e ≠ [] ∧ e.getLastD 0 = b ∧ ∃ s ss, sigs = s :: ss ∧ c.env.decodeSig e.dropLast c.env.flags.bip66 = some s ∧
      parseLoop c (some b) es = some (x, ss) := by
  rw [parseLoop] at h
  split at h
  · cases h
  · rename_i hne
    dsimp only at h
    split at h
    · cases h
    · rename_i hb
      simp only [Option.any_some, bne_iff_ne, ne_eq, Decidable.not_not] at hb
      subst hb
      cases hd : c.env.decodeSig e.dropLast c.env.flags.bip66 with
      | none => rw [hd] at h; cases h
      | some s =>
        rw [hd] at h
        dsimp only at h
        cases hp : parseLoop c (some (e.getLastD 0)) es with
        | none => rw [hp] at h; cases h
        | some r =>
          rw [hp] at h
          simp only [Option.map_some, Option.some.injEq, Prod.mk.injEq] at h
          obtain ⟨h1, h2⟩ := h
          exact ⟨hne, rfl, s, r.2, h2.symm, rfl, by rw [← h1]⟩

theorem parseSignatures_some {c : Ctx} {es : List Bytes} {b : UInt8} {sigs : List Bytes} (h : parseSignatures c es = some (b, sigs)) :
    es ≠ [] ∧ ∃ x, parseLoop c (some b) es = some (x, sigs) := by
  unfold parseSignatures at h
  cases es with
  | nil => simp [parseLoop] at h
  | cons e es =>
    refine ⟨by simp, ?_⟩
    split at h
    · rename_i b' s' hp
      cases h
      rw [parseLoop] at hp
      split at hp
      · cases hp
      · rename_i hne
        dsimp only at hp
        -- the byte that comes out is the one that went in
        have out : ∀ (es : List Bytes) (b : UInt8) (x : Option UInt8) (ss : List Bytes), parseLoop c (some b) es = some (x, ss) → x = some b := by
          intro es
          induction es with
          | nil => intro b x ss h; simp [parseLoop] at h; exact h.1.symm
          | cons e es ih =>
            intro b x ss h
            obtain ⟨-, -, s, ss', -, -, h2⟩ := parseLoop_some h
            exact ih b x ss' h2
        rw [if_neg (by simp)] at hp
        have hb : e.getLastD 0 = b := by
          split at hp
          · cases hp
          · cases hq : parseLoop c (some (e.getLastD 0)) es with
            | none => rw [hq] at hp; cases hp
            | some r =>
              rw [hq] at hp
              have := out es _ r.1 r.2 hq
              simp only [Option.map_some, Option.some.injEq, Prod.mk.injEq] at hp
              rw [hp.1] at this
              exact (Option.some.inj this).symm
        refine ⟨some b, ?_⟩
        rw [parseLoop, if_neg hne]
        dsimp only
        rw [hb] at hp ⊢
        rw [if_neg (by simp)]
        exact hp
    · cases h

theorem parseLoop_sizes {c : Ctx} (hc : c.Crypto) : ∀ {es : List Bytes} {b : UInt8} {x : Option UInt8} {sigs : List Bytes},
    parseLoop c (some b) es = some (x, sigs) → sigs.length = es.length ∧ ∀ s ∈ sigs, s.length = 64
  | [], b, x, sigs, h => by simp [parseLoop] at h; obtain ⟨-, rfl⟩ := h; simp
  | e :: es, b, x, sigs, h => by
    obtain ⟨-, -, s, ss, rfl, h1, h2⟩ := parseLoop_some h
    obtain ⟨h3, h4⟩ := parseLoop_sizes hc h2
    refine ⟨by simp [h3], ?_⟩
    intro y hy
    rcases List.mem_cons.1 hy with rfl | hy
    · exact hc.decode _ _ _ h1
    · exact h4 y hy

theorem compressKeys_some {c : Ctx} (hc : c.Crypto) {k : Bytes} {ks keys : List Bytes} (h : compressKeys c (k :: ks) = some keys) :
    ∃ k' ks', keys = k' :: ks' ∧ k'.length = 33 ∧ (∀ d s, c.env.verifyEcdsa k d s = c.env.verifyEcdsa k' d s) ∧
      compressKeys c ks = some ks' := by
  rw [compressKeys] at h
  split at h
  · cases h
  · rename_i k' hk
    cases hks : compressKeys c ks with
    | none => rw [hks] at h; cases h
    | some ks' =>
      rw [hks] at h
      simp only [Option.map_some, Option.some.injEq] at h
      obtain ⟨h1, h2⟩ := toCompressed_some hc hk
      exact ⟨k', ks', h.symm, h1, h2, rfl⟩

theorem compressKeys_sizes {c : Ctx} (hc : c.Crypto) : ∀ {ks keys : List Bytes}, compressKeys c ks = some keys →
    keys.length = ks.length ∧ ∀ k ∈ keys, k.length = 33
  | [], keys, h => by simp [compressKeys] at h; subst h; simp
  | k :: ks, keys, h => by
    obtain ⟨k', ks', rfl, h1, -, h2⟩ := compressKeys_some hc h
    obtain ⟨h3, h4⟩ := compressKeys_sizes hc h2
    refine ⟨by simp [h3], ?_⟩
    intro y hy
    rcases List.mem_cons.1 hy with rfl | hy
    · exact h1
    · exact h4 y hy

/-! ## The loop -/

/-- The inline loop over what was parsed comes to the verdict. -/
theorem multisigLoop_eq {c : Ctx} (hc : c.Crypto) (sub : List Op) (b : UInt8) (d : Bytes) (hs : c.env.sighash sub b = some d) :
    ∀ (points ends keys sigs : List Bytes) (x : Option UInt8) (s : St (List Val)), compressKeys c points = some keys →
      parseLoop c (some b) ends = some (x, sigs) → (s.cache.set = true → s.cache.flags = b ∧ s.cache.hash = d) →
      ∃ r ca, (multisigLoop c.env sub points ends : M (List Val) _) s = some (some r, { s with cache := ca }) ∧
        (r = [] ↔ Batch.verifyGroup c.env.verifyEcdsa d keys sigs = true)
  | [], ends, keys, sigs, x, s, hk, hp, hca => by
    refine ⟨ends, s.cache, by unfold multisigLoop; rfl, ?_⟩
    simp [compressKeys] at hk
    subst hk
    obtain ⟨h1, -⟩ := parseLoop_sizes hc hp
    cases sigs with
    | nil =>
      have : ends = [] := List.eq_nil_of_length_eq_zero h1.symm
      simp [this, Batch.verifyGroup]
    | cons s ss =>
      constructor
      · rintro rfl; simp at h1
      · intro h; simp [Batch.verifyGroup] at h
  | p :: points, [], keys, sigs, x, s, hk, hp, hca => by
    refine ⟨[], s.cache, by unfold multisigLoop; rfl, ?_⟩
    simp [parseLoop] at hp
    obtain ⟨-, rfl⟩ := hp
    simp [verifyGroup_nil]
  | p :: points, e :: ends, keys, sigs, x, s, hk, hp, hca => by
    obtain ⟨hne, hb, sg, sgs, rfl, hd, hp'⟩ := parseLoop_some hp
    obtain ⟨k', ks', rfl, -, hv, hk'⟩ := compressKeys_some hc hk
    -- the hash that is in the cache after the check of it
    have hcache : ∃ ca : Cache, ca.set = true ∧ ca.flags = b ∧ ca.hash = d ∧
        ((do if !(← cached b) then setHash c.env sub b : M (List Val) Unit) s) = some ((), { s with cache := ca }) := by
      simp only [mbind, cached, Option.bind_some]
      cases hset : (s.cache.set && s.cache.flags == b) with
      | true =>
        rw [Bool.and_eq_true] at hset
        obtain ⟨h1, h2⟩ := hca hset.1
        exact ⟨s.cache, hset.1, h1, h2, rfl⟩
      | false =>
        refine ⟨⟨true, b, d⟩, rfl, rfl, rfl, ?_⟩
        simp only [Bool.not_false, if_true, setHash, hs, Option.getD_some]
    obtain ⟨ca, c1, c2, c3, c4⟩ := hcache
    have hsplit : (ecdsaSplit e : M (List Val) (Bytes × UInt8)) s = some ((e.dropLast, b), s) := by
      unfold ecdsaSplit
      rw [if_neg hne, hb]
      rfl
    have hstep : (multisigLoop c.env sub (p :: points) (e :: ends) : M (List Val) _) s =
        (if c.env.verifyEcdsa p d sg then multisigLoop c.env sub points ends else multisigLoop c.env sub points (e :: ends))
          { s with cache := ca } := by
      rw [multisigLoop, if_neg hne, mbind, hsplit]
      simp only [Option.bind_some, hd]
      have : ∀ k : M (List Val) (Option (List Bytes)),
          (do if !(← cached b) then setHash c.env sub b
              k : M (List Val) (Option (List Bytes))) = ((do if !(← cached b) then setHash c.env sub b : M (List Val) Unit) >>= fun _ => k) := by
        intro k
        rw [bind_assoc]
        refine bind_congr fun a => ?_
        cases a <;> simp
      rw [this, mbind, c4]
      simp only [Option.bind_some, mbind]
      have : (cachedHash : M (List Val) Bytes) { s with cache := ca } = some (d, { s with cache := ca }) := by
        unfold cachedHash
        rw [if_pos c1, c3]
      rw [this]
      rfl
    rw [hstep, verifyGroup_cons, ← hv]
    cases c.env.verifyEcdsa p d sg with
    | true =>
      simp only [if_true]
      obtain ⟨r, ca', h1, h2⟩ := multisigLoop_eq hc sub b d hs points ends ks' sgs x { s with cache := ca } hk' hp' (fun _ => ⟨c2, c3⟩)
      exact ⟨r, ca', h1, h2⟩
    | false =>
      simp only [Bool.false_eq_true, if_false]
      obtain ⟨r, ca', h1, h2⟩ := multisigLoop_eq hc sub b d hs points (e :: ends) ks' (sg :: sgs) x { s with cache := ca } hk' hp
        (fun _ => ⟨c2, c3⟩)
      exact ⟨r, ca', h1, h2⟩

/-- The attempt to capture, and what follows of it. -/
theorem tryMultisig_cpt {c : Ctx} (hc : c.Crypto) (points ends : List Bytes) (h16 : points.length ≤ 16) (hle : ends.length ≤ points.length)
    (s : St (List Val)) (cap : Cap) :
    let rest : M (List Val) Res := (do
      let sub ← subscript c.env ends
      uncache
      match ← multisigLoop c.env sub points ends with
      | none => return some .op_check_multisig_decode_signature
      | some [] => return none
      | some (_ :: _) => return some .op_check_multisig_mismatch)
    CptV c.env .op_check_multisig_mismatch cap
      ((do if ← tryMultisig c points ends then return none else lift rest : MC Res) (s, cap)) (rest s) := by
  intro rest
  have inl : CptV c.env .op_check_multisig_mismatch cap (((Pure.pure false : MC Bool) >>= fun r => if r then Pure.pure none else lift rest) (s, cap))
      (rest s) := .inl rfl
  rw [bind_eq]
  unfold tryMultisig
  dsimp only
  split
  · exact inl
  split
  · exact inl
  rw [if_neg (show ¬ (_ ∨ _) by unfold Batch.multisigMaximum; omega)]
  cases hp : parseSignatures c ends with
  | none => exact inl
  | some x =>
    obtain ⟨b, sigs⟩ := x
    dsimp only
    cases hk : compressKeys c points with
    | none => exact inl
    | some keys =>
      dsimp only
      have hsub : ∃ sub, subscript c.env ends s = some (sub, s) := by
        unfold subscript
        dsimp only
        split
        · exact ⟨_, rfl⟩
        · split
          · exact ⟨_, rfl⟩
          · exact ⟨_, rfl⟩
      obtain ⟨sub, hsub⟩ := hsub
      rw [hsub]
      dsimp only
      cases hh : c.env.sighash sub b with
      | none => exact inl
      | some d =>
        dsimp only
        cases hl : cap.log.appendMultisig d keys sigs with
        | none => exact inl
        | some log' =>
          right
          obtain ⟨hne, y, hq⟩ := parseSignatures_some hp
          obtain ⟨s1, s2⟩ := parseLoop_sizes hc hq
          obtain ⟨k1, k2⟩ := compressKeys_sizes hc hk
          have hpos : 1 ≤ ends.length := by
            cases ends with
            | nil => exact absurd rfl hne
            | cons => simp
          obtain ⟨r, ca, h1, h2⟩ := multisigLoop_eq hc sub b d hh points ends keys sigs y
            { s with cache := { s.cache with set := false } } hk hq (by intro h; cases h)
          refine ⟨false, ⟨d, keys, sigs⟩, log', s, ca, ⟨⟨?_, ?_, ?_, hc.sighash _ _ _ hh, k2, s2⟩, by simp⟩, hl, rfl, ?_⟩
          · show 1 ≤ sigs.length; omega
          · show sigs.length ≤ keys.length; omega
          · show keys.length ≤ 16; omega
          · show rest s = _
            have e1 : rest s = (if r = [] then some (none, { s with cache := ca }) else
                some (some .op_check_multisig_mismatch, { s with cache := ca })) := by
              show (subscript c.env ends >>= _) s = _
              rw [mbind, hsub]
              simp only [Option.bind_some, mbind, uncache]
              clear h2
              rw [h1]
              cases r with
              | nil => rw [if_pos rfl]; rfl
              | cons a l => rw [if_neg (by simp)]; rfl
            rw [e1]
            unfold verdict
            by_cases hr : r = []
            · rw [if_pos hr, if_pos (h2.1 hr)]
            · rw [if_neg hr, if_neg (fun h => hr (h2.2 h))]

theorem popChunksLoop_length : ∀ (n : Nat) (s s' : St (List Val)) (l : List Bytes), popChunksLoop n s = some (l, s') → l.length = n
  | 0, s, s', l, h => by
    simp only [popChunksLoop, mpure, Option.some.injEq, Prod.mk.injEq] at h
    rw [← h.1]; rfl
  | n + 1, s, s', l, h => by
    simp only [popChunksLoop, mbind] at h
    cases h1 : (popChunk : M (List Val) Bytes) s with
    | none => rw [h1] at h; cases h
    | some r =>
      rw [h1] at h
      simp only [Option.bind_some] at h
      cases h2 : (popChunksLoop n : M (List Val) (List Bytes)) r.2 with
      | none => rw [h2] at h; cases h
      | some q =>
        rw [h2] at h
        simp only [Option.bind_some, mpure, Option.some.injEq, Prod.mk.injEq] at h
        rw [← h.1, List.length_cons, popChunksLoop_length n _ _ _ h2]

theorem popChunks_length (n : Nat) (s s' : St (List Val)) (l : List Bytes) (h : popChunks n s = some (some l, s')) : l.length = n := by
  unfold popChunks at h
  rw [mbind] at h
  simp only [stackSize_eq, Option.bind_some] at h
  split at h
  · cases h
  · rw [mbind] at h
    cases h2 : (popChunksLoop n : M (List Val) (List Bytes)) s with
    | none => rw [h2] at h; cases h
    | some q =>
      rw [h2] at h
      simp only [Option.bind_some, mpure, Option.some.injEq, Prod.mk.injEq] at h
      rw [← h.1]
      exact popChunksLoop_length _ _ _ _ h2

/-- With a number of at most 16 on top. -/
theorem popIndex32_le (s s' : St (List Val)) (n : Nat) (p : List Val) (hs : s.primary = .int n :: p) (hn : n ≤ 16) (r : Nat)
    (h : popIndex32 s = some (some r, s')) : r ≤ 16 := by
  unfold popIndex32 popSigned32 at h
  rw [mbind, mbind] at h
  simp only [isStackEmpty_eq, Option.bind_some, hs, List.length_cons] at h
  have e0 : ((p.length + 1 == 0) = true) = False := by simp
  simp only [e0, if_false] at h
  have e1 : (popSigned32_ : M (List Val) (Option Int)) s = some ((Val.int n).toSigned 4 32, { s with primary := p }) := by
    unfold popSigned32_
    simp only [mbind, Machine.top, StackImpl.top, hs, Machine.drop, StackImpl.drop, mpure, List.head?_cons, Option.map_some, Option.bind_some]
  rw [e1] at h
  simp only [Option.bind_some] at h
  cases h2 : (Val.int n).toSigned 4 32 with
  | none => rw [h2] at h; cases h
  | some v =>
    have hv : v = n := by
      unfold Val.toSigned Num.integerFromInteger at h2
      dsimp only at h2
      split at h2 <;> simp at h2 <;> omega
    rw [h2] at h
    dsimp only at h
    split at h
    · cases h
    · rw [mbind] at h
      simp only [stackSize_eq, Option.bind_some] at h
      split at h
      · simp only [mpure, Option.some.injEq, Prod.mk.injEq] at h
        rw [← h.1, hv]
        simpa using hn
      · cases h

theorem opCheckMultisigVerify_cpt {c : Ctx} (hc : c.Crypto) (h3 : c.env.flags.bip342 = false) (s : St (List Val)) (cap : Cap)
    (n : Nat) (p : List Val) (hs : s.primary = .int n :: p) (hn : n ≤ 16) :
    CptV c.env .op_check_multisig_mismatch cap (opCheckMultisigVerify c (s, cap)) (Machine.opCheckMultisigVerify c.env s) := by
  unfold opCheckMultisigVerify Machine.opCheckMultisigVerify
  simp only [h3, Bool.false_eq_true, if_false]
  refine CptV.bind fun count s1 h1 => ?_
  cases count with
  | none => exact .pure
  | some count =>
  have h16 := popIndex32_le s s1 n p hs hn count h1
  dsimp only
  rw [if_neg (by omega), if_neg (by omega)]
  refine CptV.bind fun b s2 _ => ?_
  by_cases hb : (!b) = true
  · rw [if_pos hb, if_pos hb]; exact .pure
  rw [if_neg hb, if_neg hb]
  refine CptV.bind fun keys s3 h4 => ?_
  cases keys with
  | none => exact .pure
  | some keys =>
  have hkl := popChunks_length _ _ _ _ h4
  refine CptV.bind fun m s4 _ => ?_
  cases m with
  | none => exact .pure
  | some m =>
  dsimp only
  by_cases hm : m > keys.length
  · rw [if_pos hm, if_pos hm]; exact .pure
  rw [if_neg hm, if_neg hm]
  refine CptV.bind fun ends s5 h5 => ?_
  cases ends with
  | none => exact .pure
  | some ends =>
  have hel := popChunks_length _ _ _ _ h5
  refine CptV.bind fun e s6 _ => ?_
  by_cases he : e = true
  · rw [if_pos he, if_pos he]; exact .pure
  rw [if_neg he, if_neg he]
  refine CptV.bind fun d s7 _ => ?_
  by_cases hd : (d && c.env.flags.bip147) = true
  · rw [if_pos hd, if_pos hd]; exact .pure
  rw [if_neg hd, if_neg hd]
  have := tryMultisig_cpt hc keys ends (by omega) (by omega) s7 cap
  dsimp only at this
  simp only [lift_bind] at this
  have hm : ∀ a : Option (List Bytes), lift (match a with
        | none => pure (some Err.op_check_multisig_decode_signature)
        | some [] => pure none
        | some (_ :: _) => pure (some Err.op_check_multisig_mismatch) : M (List Val) Res) = (match a with
        | none => pure (some Err.op_check_multisig_decode_signature)
        | some [] => pure none
        | some (_ :: _) => pure (some Err.op_check_multisig_mismatch) : MC Res) := by
    intro a
    rcases a with _ | _ | _ <;> rfl
  simp only [hm] at this
  exact this

theorem opCheckMultisig_cpt {c : Ctx} (hc : c.Crypto) (h3 : c.env.flags.bip342 = false) (s : St (List Val)) (cap : Cap)
    (n : Nat) (p : List Val) (hs : s.primary = .int n :: p) (hn : n ≤ 16) :
    Cpt c.env cap (opCheckMultisig c (s, cap)) (Machine.opCheckMultisig c.env s) := by
  unfold opCheckMultisig Machine.opCheckMultisig
  simp only [h3, Bool.false_eq_true, if_false]
  rw [bind_eq, mbind]
  rcases opCheckMultisigVerify_cpt hc h3 s cap n p hs hn with h | ⟨single, g, log', s', ca, h1, h2, h4, h5⟩
  · refine .inl ?_
    rw [h]
    cases hx : Machine.opCheckMultisigVerify c.env s with
    | none => rfl
    | some r =>
      simp only [attach, Option.map_some, Option.bind_some]
      have : ∀ (x : M (List Val) Res) (y : MC Res), y = lift x → y (r.2, cap) = Option.map (fun r => (r.1, r.2, cap)) (x r.2) := by
        rintro x _ rfl; rfl
      apply this
      simp only [lift_ite, lift_bind, lift_pure]
  · refine .inr ⟨single, g, log', s', ca, s'.primary, none, h1, h2, ?_, ?_⟩
    · rw [h4]
      simp only [Option.bind_some]
      rw [if_neg (by decide), if_neg (fun h => absurd h.2 (by decide))]
      rfl
    · rw [h5]
      simp only [Option.bind_some]
      have e0 : ∀ v : Bool, multisigFatal (if v then none else some Err.op_check_multisig_mismatch) = false := by decide
      have e1 : ∀ v : Bool, (if v then none else some Err.op_check_multisig_mismatch) ≠ some Err.op_check_multisig_decode_signature := by decide
      have e2 : ∀ v : Bool, ((if v then none else some Err.op_check_multisig_mismatch) == none) = v := by decide
      rw [e0, if_neg (by decide), if_neg (fun h => e1 _ h.2), e2]
      rfl

end Verif.Capture
