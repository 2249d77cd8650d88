import Verif.Lemmas.Machine3
/-! Multisig, locktime, sequence and CHECKSIGADD handlers. -/
namespace Verif.Machine
open Verif Verif.Num Verif.Spec Verif.Spec.Script

theorem cached_eq (f : UInt8) (s : St (List Val)) : cached f s = some (s.cache.set && s.cache.flags == f, s) := rfl

/-- The cache holds the hash of the subscript. -/
def CacheOK (e : Env) (sub : List Op) (c : Cache) : Prop := c.set = true → e.sighash sub c.flags = some c.hash

/-- Cache lookup or computation yields the signature hash. -/
theorem hash_step (e : Env) (sub : List Op) (f : UInt8) (h : Bytes) (s : St (List Val)) (hc : CacheOK e sub s.cache)
    (hh : e.sighash sub f = some h) (k : Bytes → M (List Val) (Option (List Bytes))) :
    ∃ c', CacheOK e sub c' ∧ (do
      if !(← cached f) then setHash e sub f
      let hash ← cachedHash
      k hash) s = k h { s with cache := c' } := by
  obtain ⟨p, al, co, ne, no, bu, o, ca⟩ := s
  simp only [mbind, cached_eq, Option.bind_some]
  by_cases hset : (ca.set && ca.flags == f) = true
  · refine ⟨ca, hc, ?_⟩
    rw [hset]
    simp only [Bool.and_eq_true, beq_iff_eq] at hset
    have h2 := hc hset.1
    simp only [hset.2, hh, Option.some.injEq] at h2
    simp only [Bool.not_true, Bool.false_eq_true, if_false, mpure, mbind, cachedHash, hset.1, if_true, Option.bind_some, h2]
  · have hs2 : (ca.set && ca.flags == f) = false := by simpa using hset
    refine ⟨⟨true, f, h⟩, fun _ => hh, ?_⟩
    rw [hs2]
    simp only [Bool.not_false, if_true, mbind, setHash, hh, Option.getD_some, Option.bind_some, cachedHash]

/-- Without BIP66 a signature that does not decode matches no key. -/
theorem multisig_undecodable (e : Env) (sub : List Op) (sig : Bytes) (sigs : List Bytes) (hne : sig ≠ [])
    (h66 : e.flags.bip66 = false) (hd : e.decodeSig sig.dropLast false = none) (keys : List Bytes) :
    multisig e sub (sig :: sigs) keys = some false := by
  induction keys with
  | nil => rfl
  | cons k ks ih =>
    rw [multisig]
    split
    · rfl
    · simp [checkEcdsa, hne, h66, hd, ih]

theorem multisigLoop_ref (e : Env) (sub : List Op) (htot : ∀ f, (e.sighash sub f).isSome = true) (keys : List Bytes) :
    ∀ (sigs : List Bytes) (s : St (List Val)), CacheOK e sub s.cache →
    ∃ r c', multisigLoop e sub keys sigs s = some (r, { s with cache := c' }) ∧
      match r with
      | some [] => multisig e sub sigs keys = some true ∧ sigs.length ≤ keys.length
      | some (_ :: _) => multisig e sub sigs keys = some false
      | none => multisig e sub sigs keys ≠ some true ∧ (e.flags.bip66 = false → multisig e sub sigs keys = some false) := by
  induction keys with
  | nil =>
    intro sigs s hc
    refine ⟨some sigs, s.cache, by rw [multisigLoop]; rfl, ?_⟩
    cases sigs with
    | nil => exact ⟨rfl, Nat.le_refl _⟩
    | cons a l => rfl
  | cons key keys ih =>
    intro sigs s hc
    cases sigs with
    | nil => exact ⟨some [], s.cache, rfl, rfl, Nat.zero_le _⟩
    | cons sig sigs =>
      have combine : ∀ (sigs' : List Bytes) (c' : Cache) (r : Option (List Bytes)), CacheOK e sub c' →
          multisigLoop e sub (key :: keys) (sig :: sigs) s = multisigLoop e sub keys sigs' { s with cache := c' } →
          sigs.length ≤ sigs'.length →
          (multisig e sub (sig :: sigs) (key :: keys) = if keys.length < sigs.length then some false else multisig e sub sigs' keys) →
          ((sigs' = sigs) ∨ (sigs' = sig :: sigs)) →
          ∃ r c', multisigLoop e sub (key :: keys) (sig :: sigs) s = some (r, { s with cache := c' }) ∧
            match r with
            | some [] => multisig e sub (sig :: sigs) (key :: keys) = some true ∧ (sig :: sigs).length ≤ (key :: keys).length
            | some (_ :: _) => multisig e sub (sig :: sigs) (key :: keys) = some false
            | none => multisig e sub (sig :: sigs) (key :: keys) ≠ some true ∧
              (e.flags.bip66 = false → multisig e sub (sig :: sigs) (key :: keys) = some false) := by
        intro sigs' c' _ hc' h1 hl h2 h3
        obtain ⟨r, c2, k1, k2⟩ := ih sigs' { s with cache := c' } hc'
        refine ⟨r, c2, by rw [h1, k1], ?_⟩
        rw [h2]
        by_cases hlt : keys.length < sigs.length
        · rw [if_pos hlt]
          match r, k2 with
          | some [], k2 => exact absurd k2.2 (by omega)
          | some (_ :: _), _ => rfl
          | none, k2 => exact ⟨by simp, fun _ => rfl⟩
        · rw [if_neg hlt]
          match r, k2 with
          | some [], k2 => exact ⟨k2.1, by simp; omega⟩
          | some (_ :: _), k2 => exact k2
          | none, k2 => exact k2
      by_cases hne : sig = []
      · refine combine (sig :: sigs) s.cache none hc ?_ (by simp) ?_ (.inr rfl)
        · rw [multisigLoop, if_pos hne]
        · rw [multisig]; simp [checkEcdsa, hne]
      · cases hd : e.decodeSig sig.dropLast e.flags.bip66 with
        | none =>
          refine ⟨none, s.cache, ?_, ?_⟩
          · rw [multisigLoop, if_neg hne]
            simp only [mbind, ecdsaSplit, hne, if_false, mpure, Option.bind_some, hd]
          · cases h66 : e.flags.bip66
            · rw [h66] at hd
              simp [multisig_undecodable e sub sig sigs hne h66 hd]
            · refine ⟨?_, fun h => by cases h⟩
              rw [multisig]
              rw [h66] at hd
              split
              · simp
              · simp [checkEcdsa, hne, hd, h66]
        | some sg =>
          obtain ⟨h, hh⟩ := Option.isSome_iff_exists.1 (htot (sig.getLastD 0))
          obtain ⟨c', hc', hk⟩ := hash_step e sub (sig.getLastD 0) h s hc hh
            (fun hash => if e.verifyEcdsa key hash sg then multisigLoop e sub keys sigs else multisigLoop e sub keys (sig :: sigs))
          have hm : multisigLoop e sub (key :: keys) (sig :: sigs) s =
              (if e.verifyEcdsa key h sg = true then multisigLoop e sub keys sigs else multisigLoop e sub keys (sig :: sigs)) { s with cache := c' } := by
            rw [← hk, multisigLoop, if_neg hne]
            simp only [mbind, ecdsaSplit, hne, if_false, mpure, Option.bind_some, hd]
          have hs : multisig e sub (sig :: sigs) (key :: keys) = if keys.length < sigs.length then some false
              else if e.verifyEcdsa key h sg = true then multisig e sub sigs keys else multisig e sub (sig :: sigs) keys := by
            rw [multisig]; simp [checkEcdsa, hne, hd, -List.getLastD_eq_getLast?, hh]
          cases hv : e.verifyEcdsa key h sg
          · rw [hv] at hm hs
            exact combine (sig :: sigs) c' none hc' hm (by simp) hs (.inr rfl)
          · rw [hv] at hm hs
            exact combine sigs c' none hc' hm (by simp) hs (.inl rfl)

theorem popChunksLoop_eq (n : Nat) : ∀ (p : List Val) (al co ne no bu o ca), n ≤ p.length →
    popChunksLoop (S := List Val) n ⟨p, al, co, ne, no, bu, o, ca⟩ = some ((chunks p).take n, ⟨p.drop n, al, co, ne, no, bu, o, ca⟩) := by
  induction n with
  | zero => intros; rfl
  | succ n ih =>
    intro p al co ne no bu o ca h
    rcases p with _ | ⟨a, p⟩
    · simp at h
    · simp only [popChunksLoop, mbind, popChunk_mk, Option.bind_some, ih p al co ne no bu o ca (by simpa using h), mpure]
      simp

theorem popChunks_eq (n : Nat) (p : List Val) (al co ne no bu o ca) (h : n ≤ p.length) :
    popChunks (S := List Val) n ⟨p, al, co, ne, no, bu, o, ca⟩ = some (some ((chunks p).take n), ⟨p.drop n, al, co, ne, no, bu, o, ca⟩) := by
  simp only [popChunks, mbind, stackSize_mk, Option.bind_some]
  rw [if_neg (by omega)]
  simp only [mbind, popChunksLoop_eq n p al co ne no bu o ca h, Option.bind_some, mpure]

/-- popIndex32 followed by the bound check against popCounted. -/
theorem popCounted_cons (limit : Nat) (a : Bytes) (p : List Bytes) :
    (∃ n : Nat, index a p = some n ∧ n < p.length ∧
      popCounted limit (a :: p) = if n > limit then none else some (p.take n, p.drop n)) ∨
    (index a p = none ∧ (popCounted limit (a :: p) = none ∨ popCounted limit (a :: p) = some (p, []))) := by
  simp only [index, popCounted]
  cases num 4 a with
  | none => right; simp
  | some n =>
    simp only [Option.bind_eq_bind, Option.bind_some]
    by_cases h : 0 ≤ n ∧ n < p.length
    · left
      refine ⟨n.toNat, by rw [if_pos h], by omega, ?_⟩
      by_cases hl : n.toNat > limit
      · rw [if_pos hl, if_pos (by omega)]
      · rw [if_neg hl, if_neg (by omega)]
    · right
      refine ⟨by rw [if_neg h], ?_⟩
      by_cases hl : n < 0 ∨ n > limit ∨ n.toNat > p.length
      · left; rw [if_pos hl]
      · right
        rw [if_neg hl]
        have : n.toNat = p.length := by omega
        rw [this]; simp

theorem popIndex_nil (al co ne no bu o ca) :
    popIndex32 (S := List Val) ⟨[], al, co, ne, no, bu, o, ca⟩ = some (none, ⟨[], al, co, ne, no, bu, o, ca⟩) := rfl

/-- op_check_multisig_verify against the specification. -/
theorem checkMultisig_ref (e : Env) (hops : ∀ o ∈ e.ops, o.Consistent) (h342 : e.flags.bip342 = false)
    (htot : ∀ sub f, (e.sighash sub f).isSome = true) (s : St (List Val)) (t : State) (hr : Rel e s t) :
    ∃ r s', opCheckMultisigVerify e s = some (r, s') ∧ (∀ v ∈ s'.primary ++ s'.alternate, v ∈ s.primary ++ s.alternate) ∧
      match r with
      | none => ∃ t', checkMultisig e t = some (true, t') ∧ Rel e s' t'
      | some .op_check_multisig_mismatch => ∃ t', checkMultisig e t = some (false, t') ∧ Rel e s' t'
      | some .op_check_multisig_decode_signature =>
          (e.flags.bip66 = true ∧ ∀ t', checkMultisig e t ≠ some (true, t')) ∨ ∃ t', checkMultisig e t = some (false, t') ∧ Rel e s' t'
      | some err => checkMultisig e t = none ∧ multisigFatal (some err) = true := by
  obtain ⟨p, al, co, ne, no, bu, o, ca⟩ := s
  have hs := hr.stack
  unfold checkMultisig opCheckMultisigVerify
  rw [h342]
  simp only [Bool.false_eq_true, if_false, ← hs]
  rcases p with _ | ⟨c, p⟩
  · refine ⟨_, _, rfl, fun v hv => hv, ?_⟩
    simp [popCounted, multisigFatal]
  simp only [chunks, List.map, mbind, popIndex_cons, Option.bind_some]
  have hsub1 : ∀ (q : List Val), q <:+ p → ∀ v ∈ q ++ al, v ∈ (c :: p) ++ al := by
    intro q hq v hv
    simp at hv ⊢
    rcases hv with hv | hv
    · exact .inr (.inl (hq.subset hv))
    · exact .inr (.inr hv)
  rcases popCounted_cons 20 c.toChunk (List.map Val.toChunk p) with ⟨n, i1, i2, i3⟩ | ⟨i1, i2⟩
  swap
  · rw [i1]
    refine ⟨_, _, rfl, hsub1 p (List.suffix_refl _), ?_⟩
    rcases i2 with i2 | i2 <;> rw [i2] <;> simp [multisigFatal, popCounted]
  rw [i1, i3]
  have hnl : n < p.length := by simpa using i2
  simp only
  by_cases hn20 : n > 20
  · rw [if_pos hn20, if_pos hn20]
    refine ⟨_, _, rfl, hsub1 p (List.suffix_refl _), ?_⟩
    simp [multisigFatal]
  rw [if_neg hn20, if_neg hn20]
  simp only [mbind, opsIncrementKeys, h342, Bool.false_eq_true, if_false, Option.bind_some, Option.bind_eq_bind]
  have hkl : ((List.map Val.toChunk p).take n).length = n := by simp; omega
  have hno : no = t.nops := hr.nops
  rw [hkl]
  by_cases h201 : t.nops + n > 201
  · have : no + n > 201 := by omega
    simp only [this, h201, decide_true, Bool.not_true, Bool.not_false, if_true]
    refine ⟨_, _, rfl, hsub1 p (List.suffix_refl _), ?_⟩
    simp [multisigFatal]
  have h201' : ¬ no + n > 201 := by omega
  simp only [h201, h201', decide_false, Bool.not_false, Bool.not_true, Bool.false_eq_true, if_false, mbind,
    popChunks_eq n p al co ne (no + n) bu o ca (by omega), Option.bind_some, chunks]
  -- signatures
  have hdrop : (List.map Val.toChunk p).drop n = List.map Val.toChunk (p.drop n) := by rw [List.map_drop]
  rw [hdrop]
  have hpos : 0 < (p.drop n).length := by simp; omega
  have hsuf : p.drop n <:+ p := List.drop_suffix n p
  generalize p.drop n = q at *
  rcases q with _ | ⟨d, q⟩
  · simp at hpos
  simp only [popIndex_cons, List.map, chunks, Option.bind_some]
  have hsufq : q <:+ p := (List.suffix_cons d q).trans hsuf
  rcases popCounted_cons n d.toChunk (List.map Val.toChunk q) with ⟨m, j1, j2, j3⟩ | ⟨j1, j2⟩
  swap
  · rw [j1]
    refine ⟨_, _, rfl, hsub1 q hsufq, ?_⟩
    rcases j2 with j2 | j2 <;> rw [j2] <;> simp [multisigFatal]
  rw [j1, j3]
  have hml : m < q.length := by simpa using j2
  simp only [hkl]
  by_cases hmn : m > n
  · rw [if_pos hmn, if_pos hmn]
    refine ⟨_, _, rfl, hsub1 q hsufq, ?_⟩
    simp [multisigFatal]
  rw [if_neg hmn, if_neg hmn]
  simp only [mbind, popChunks_eq m q al co ne (no + n) bu o ca (by omega), Option.bind_some, chunks]
  have hdrop2 : (List.map Val.toChunk q).drop m = List.map Val.toChunk (q.drop m) := by rw [List.map_drop]
  rw [hdrop2]
  have hpos2 : 0 < (q.drop m).length := by simp; omega
  have hsuf2 : q.drop m <:+ p := (List.drop_suffix m q).trans hsufq
  generalize q.drop m = w at *
  rcases w with _ | ⟨x, w⟩
  · simp at hpos2
  have hsufw : w <:+ p := (List.suffix_cons x w).trans hsuf2
  simp only [isStackEmpty_mk, Option.bind_some, Bool.false_eq_true, if_false, mbind, List.map]
  rw [show popStrictBool (S := List Val) ⟨x :: w, al, co, ne, no + n, bu, o, ca⟩ = some (x.toStrictBool, ⟨w, al, co, ne, no + n, bu, o, ca⟩) from rfl]
  simp only [Option.bind_some, toStrictBool_eq]
  generalize hX : x.toChunk = X
  by_cases h147 : e.flags.bip147 = true ∧ X ≠ []
  · have hb : (!(X == []) && e.flags.bip147) = true := by simp [h147.1, h147.2]
    rw [if_pos h147, hb]
    refine ⟨_, _, rfl, hsub1 w hsufw, ?_⟩
    simp [multisigFatal]
  have hb : (!(X == []) && e.flags.bip147) = false := by
    cases h1 : e.flags.bip147
    · simp
    · by_cases h2 : X = []
      · simp [h2]
      · exact absurd ⟨h1, h2⟩ h147
  rw [if_neg h147, hb]
  have hr2 : Rel e ⟨w, al, co, ne, no + n, bu, o, ca⟩ { t with nops := t.nops + n, stack := List.map Val.toChunk w } :=
    ⟨rfl, hr.alt, hr.cond, hr.neg, by show no + n = _; rw [hno], hr.sep, hr.budget, hr.cache⟩
  simp only [Bool.false_eq_true, if_false, mbind]
  rw [subscript_eq e hops _ ⟨w, al, co, ne, no + n, bu, o, ca⟩ { t with nops := t.nops + n } hr.sep]
  simp only [Option.bind_some, uncache]
  generalize hsc : scriptCode e (List.take m (List.map Val.toChunk q)) { t with nops := t.nops + n } = sc
  have hsc' : scriptCode e (List.take m (List.map Val.toChunk q))
      { t with nops := t.nops + n, stack := c.toChunk :: List.map Val.toChunk p } = sc := hsc
  simp only [hsc']
  obtain ⟨r, c', k1, k2⟩ := multisigLoop_ref e sc (htot sc) (List.take n (List.map Val.toChunk p)) (List.take m (List.map Val.toChunk q))
    ⟨w, al, co, ne, no + n, bu, o, { ca with set := false }⟩ (by intro h; cases h)
  rw [k1]
  simp only [Option.bind_some]
  have hr3 : ∀ c, Rel e ⟨w, al, co, ne, no + n, bu, o, c⟩ { t with nops := t.nops + n, stack := List.map Val.toChunk w } := by
    intro c
    refine ⟨rfl, hr.alt, hr.cond, hr.neg, by show no + n = _; rw [hno], hr.sep, hr.budget, fun h => ?_⟩
    rw [h342] at h; cases h
  match r, k2 with
  | some [], k2 =>
    refine ⟨_, _, rfl, hsub1 w hsufw, _, ?_, hr3 c'⟩
    simp only [k2.1, Option.bind_some, Option.pure_def]
  | some (_ :: _), k2 =>
    refine ⟨_, _, rfl, hsub1 w hsufw, _, ?_, hr3 c'⟩
    simp only [k2, Option.bind_some, Option.pure_def]
  | none, k2 =>
    refine ⟨_, _, rfl, hsub1 w hsufw, ?_⟩
    cases h66 : e.flags.bip66
    · right
      refine ⟨_, ?_, hr3 c'⟩
      have : multisig e sc (List.take m (List.map Val.toChunk q)) (List.take n (List.map Val.toChunk p)) = some false := k2.2 h66
      simp only [this, Option.bind_some, Option.pure_def]
    · refine .inl ⟨rfl, fun t' => ?_⟩
      have := k2.1
      cases hm : multisig e sc (List.take m (List.map Val.toChunk q)) (List.take n (List.map Val.toChunk p)) with
      | none => simp only [Option.bind_none]; simp
      | some b =>
        rw [hm] at this
        cases b
        · simp
        · exact absurd rfl this

end Verif.Machine
