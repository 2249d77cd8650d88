import Verif.Lemmas.Ecdsa
import Verif.Lemmas.ToyEcdsa
import Verif.Model.Sign
import Verif.Model.Secp
import Verif.Props.Der
import Verif.Props.Sighash
import Verif.Props.Spend
/-!
# C83: a signature made by the library is accepted by its own verification

libsecp256k1 is any `Curve` with any `Ecdsa` (Spec/Secp.lean, Spec/Ecdsa.lean).
-/
namespace Verif.Sign
open Verif Verif.Sighash Verif.Spec Verif.Spec.Script
variable {P : Type} [AddCommGroup P] (C : Curve P) (L : Ecdsa C)

/-- The two encodings of the public key of a secret. -/
def IsKeyOf (secret key : Bytes) : Prop := Ec.secretToPublic C secret = some key ∨ Ec.secretToUncompressed C secret = some key

/-! ### The scheme -/

/-- Verification is the textbook one: any of the two values of `s` is accepted, although libsecp256k1 takes the smaller only. -/
theorem C83_verify_exact (key hash : Bytes) (r s : Nat) :
    verifySignature C L key hash (r, s) = true ↔ ∃ q, C.parse key = some q ∧ Verifies C L.x q (beNat hash) r s := by
  unfold verifySignature
  cases hq : C.parse key with
  | none => simp
  | some q =>
    have e : (∃ q', some q = some q' ∧ Verifies C L.x q' (beNat hash) r s) ↔ Verifies C L.x q (beNat hash) r s :=
      ⟨fun ⟨q', h, h'⟩ => by cases h; exact h', fun h => ⟨q, rfl, h⟩⟩
    rw [e]
    unfold normalize
    dsimp only
    by_cases h : C.order < 2 * s
    · rw [if_pos h, L.verify_iff]
      constructor
      · rintro ⟨_, hv⟩
        have := verifies_flip C L.x L.x_neg hv
        obtain ⟨_, _, h3, _⟩ := hv
        rwa [Nat.sub_sub_self (by omega)] at this
      · intro hv
        exact ⟨by omega, verifies_flip C L.x L.x_neg hv⟩
    · rw [if_neg h, L.verify_iff]
      exact ⟨fun h => h.2, fun hv => ⟨by omega, hv⟩⟩

/-- A signature is malleable (BIP62 is not active): with `(r, s)` also `(r, n - s)` is valid, for the same key and digest. -/
theorem C83_malleable (key hash : Bytes) (r s : Nat) (h : verifySignature C L key hash (r, s) = true) :
    verifySignature C L key hash (r, C.order - s) = true := by
  rw [C83_verify_exact] at h ⊢
  obtain ⟨q, hq, hv⟩ := h
  exact ⟨q, hq, verifies_flip C L.x L.x_neg hv⟩

/-- The normal form has the smaller `s`, is its own normal form, and verifies exactly as the signature does. -/
theorem C83_normalize (r s : Nat) (hs : s < C.order) :
    2 * (normalize C (r, s)).2.2 ≤ C.order ∧ (normalize C (r, s)).2.1 = r ∧ normalize C (normalize C (r, s)).2 = (false, (normalize C (r, s)).2) ∧
    ((normalize C (r, s)).1 = true ↔ (normalize C (r, s)).2 ≠ (r, s)) ∧
    (0 < s → normalize C (r, C.order - s) = (!(normalize C (r, s)).1, (normalize C (r, s)).2) ∨ 2 * s = C.order) ∧
    ∀ key hash, verifySignature C L key hash (normalize C (r, s)).2 = verifySignature C L key hash (r, s) := by
  have hidem : normalize C (normalize C (r, s)).2 = (false, (normalize C (r, s)).2) := by
    unfold normalize
    by_cases h : C.order < 2 * s
    · simp only [if_pos h]
      rw [if_neg (by omega)]
    · simp only [if_neg h]
  refine ⟨?_, ?_, hidem, ?_, ?_, ?_⟩
  · unfold normalize
    split
    · dsimp only at *; omega
    · dsimp only at *; omega
  · unfold normalize; split <;> rfl
  · unfold normalize
    split
    · rename_i h
      dsimp only at h
      simp only [true_iff, ne_eq, Prod.mk.injEq, true_and]
      omega
    · simp
  · intro h0
    unfold normalize
    dsimp only
    by_cases h : C.order < 2 * s
    · rw [if_pos h, if_neg (by omega)]
      exact .inl rfl
    · by_cases h2 : 2 * s = C.order
      · exact .inr h2
      · rw [if_neg h, if_pos (by omega), Nat.sub_sub_self (by omega)]
        exact .inl rfl
  · intro key hash
    unfold verifySignature
    rw [hidem]

/-- The key of a secret parses to the point of the secret. -/
theorem key_parse {secret key : Bytes} (h : IsKeyOf C secret key) :
    C.parse key = some (beNat secret • C.generator) ∧ 0 < beNat secret ∧ beNat secret < C.order ∧ key.length ≤ 65 ∧ key ≠ [] := by
  have hne : 0 < beNat secret → beNat secret < C.order → beNat secret • C.generator ≠ 0 := by
    intro h0 h1 hz
    have := Nat.le_of_dvd h0 ((C.cyclic _).1 hz)
    omega
  have hv : ∀ {s}, Ec.verifySecret C s = true → 0 < beNat s ∧ beNat s < C.order := by
    intro s h
    simpa [Ec.verifySecret] using h
  rcases h with h | h
  · unfold Ec.secretToPublic at h
    split at h
    · rename_i hs
      cases h
      obtain ⟨a, b⟩ := hv hs
      obtain ⟨y, x, e, _, hx⟩ := C.compressed_form (beNat secret • C.generator)
      exact ⟨C.parse_compressed _ (hne a b), a, b, by rw [e]; simp [hx], by rw [e]; simp⟩
    · cases h
  · unfold Ec.secretToUncompressed at h
    split at h
    · rename_i hs
      cases h
      obtain ⟨a, b⟩ := hv hs
      obtain ⟨x, e, hx⟩ := C.uncompressed_form (beNat secret • C.generator)
      exact ⟨C.parse_uncompressed _ (hne a b), a, b, by rw [e]; simp [hx], by rw [e]; simp⟩
    · cases h

/-- A valid secret signs every digest, what it makes verifies with its public key (in both encodings), and it has the smaller `s`. An
invalid secret signs nothing. -/
theorem C83_signature_verifies (secret hash : Bytes) :
    (Ec.verifySecret C secret = true → ∃ r s, L.sign secret hash = some (r, s) ∧ r < C.order ∧ 2 * s ≤ C.order ∧
      ∀ key, IsKeyOf C secret key → verifySignature C L key hash (r, s) = true) ∧
    (Ec.verifySecret C secret = false → L.sign secret hash = none) := by
  constructor
  · intro h
    simp only [Ec.verifySecret, Bool.and_eq_true, decide_eq_true_eq] at h
    obtain ⟨r, s, h1, h2, h3⟩ := L.sign_valid secret hash h.1 h.2
    have hr : r < C.order := by
      obtain ⟨k, _, _, hr, _⟩ := h3
      rw [hr]; exact Nat.mod_lt _ C.prime.pos
    refine ⟨r, s, h1, hr, h2, fun key hk => ?_⟩
    rw [C83_verify_exact]
    exact ⟨_, (key_parse C hk).1, (verifies_iff C L.x L.x_neg _ _ _ _).2 h3⟩
  · intro h
    apply L.sign_invalid
    simpa [Ec.verifySecret] using h

/-! ### Endorsements -/

theorem encode_length (r s : Nat) (hr : r < Der.order) (hs : s < Der.order) : (Der.Spec.encode r s).length ≤ 72 ∧ Der.Spec.encode r s ≠ [] := by
  have h256 : Der.order ≤ 256 ^ 32 := by decide
  have l1 := (Der.encodeInteger_spec r).2.2 32 (by omega)
  have l2 := (Der.encodeInteger_spec s).2.2 32 (by omega)
  unfold Der.Spec.encode
  constructor
  · simp only [List.length_append, List.length_cons, List.length_nil]
    omega
  · simp

/-- An endorsement is created for every valid secret, input of the transaction and hash type, unless there is no hash (taproot, single
without an output); it is the strict DER encoding of a signature with the smaller `s` and the hash type, at most 73 bytes; the
signature verifies for the hash of the transaction, and `check_signature` accepts it with the key of the secret. -/
theorem C83_endorsement (H T : Bytes → Bytes) (t : Tx) (ps : List Prevout) (secret : Bytes) (sub : List Op) (i : Nat) (value : UInt64)
    (sh : UInt8) (v : Version) (f : Forks) (c : Cache) (e : Bytes) :
    createEndorsement C L H T t ps secret sub i value sh v f c = some e ↔
      i < t.inputs.length ∧ Ec.verifySecret C secret = true ∧ ∃ hash r s,
        (signatureHash H T t ps ⟨i, sub, 0, value, none, v, sh, f.bip143, f.bip342⟩ c).1 = some hash ∧
        L.sign secret hash = some (r, s) ∧ e = Der.Spec.encode r s ++ [sh] := by
  unfold createEndorsement
  by_cases hi : i ≥ t.inputs.length
  · rw [if_pos hi]
    constructor
    · intro h; cases h
    · intro h; omega
  rw [if_neg hi]
  cases hh : (signatureHash H T t ps ⟨i, sub, 0, value, none, v, sh, f.bip143, f.bip342⟩ c).1 with
  | none => simp
  | some hash =>
    dsimp only
    cases hv : Ec.verifySecret C secret with
    | false =>
      rw [(C83_signature_verifies C L secret hash).2 hv]
      simp
    | true =>
      obtain ⟨r, s, h1, h2, h3, -⟩ := (C83_signature_verifies C L secret hash).1 hv
      rw [h1]
      have hn := C.prime.one_lt
      have hl := encode_length r s (lt_of_lt_of_le h2 L.order_le) (lt_of_lt_of_le (by omega) L.order_le)
      have he : encodeSignature C L (r, s) = some (Der.Spec.encode r s) := by
        unfold encodeSignature
        rw [L.der_eq r s h2 (by omega)]
        exact if_neg (by omega)
      dsimp only
      rw [he]
      constructor
      · intro h
        cases h
        exact ⟨by omega, rfl, hash, r, s, rfl, h1, rfl⟩
      · rintro ⟨_, _, hash', r', s', q1, q2, rfl⟩
        cases q1
        rw [h1] at q2
        cases q2
        rfl

/-- What an endorsement is. -/
theorem C83_endorsement_verifies (H T : Bytes → Bytes) (t : Tx) (ps : List Prevout) (secret : Bytes) (sub : List Op) (i : Nat) (value : UInt64)
    (sh : UInt8) (v : Version) (f : Forks) (c : Cache) (e : Bytes)
    (he : createEndorsement C L H T t ps secret sub i value sh v f c = some e) :
    e.length ≤ 73 ∧ ∃ r s, e = Der.Spec.encode r s ++ [sh] ∧ r < C.order ∧ 2 * s ≤ C.order ∧
      (∀ strict, Der.decodeSignature e.dropLast strict = .ok (r, s)) ∧ e.getLastD 0 = sh ∧
      ∀ key, IsKeyOf C secret key → checkSignature C L H T t ps (r, s) key sub i value sh v f c = true := by
  obtain ⟨hi, hv, hash, r, s, hh, h1, rfl⟩ := (C83_endorsement C L H T t ps secret sub i value sh v f c e).1 he
  obtain ⟨r', s', q1, h2, h3, h4⟩ := (C83_signature_verifies C L secret hash).1 hv
  rw [h1] at q1
  cases q1
  have hn := C.prime.one_lt
  have hr := lt_of_lt_of_le h2 L.order_le
  have hs : s < Der.order := lt_of_lt_of_le (by omega) L.order_le
  have hl := encode_length r s hr hs
  refine ⟨by simp only [List.length_append, List.length_singleton]; omega, r, s, rfl, h2, h3, fun strict => ?_, by simp [List.getLastD_eq_getLast?], fun key hk => ?_⟩
  · rw [List.dropLast_concat]
    exact Der.C28_encode r s hr hs strict
  · unfold checkSignature
    rw [if_neg (by have := (key_parse C hk).2.2.2.2; simp only [ge_iff_le, not_or, not_le]; exact ⟨hi, this⟩), hh]
    exact h4 key hk

/-! ### The transaction that is signed -/

/-- Two transactions with the same version, locktime, outputs, and previous outputs and sequences of the inputs: the input scripts and
the witnesses may differ. -/
def SameSkeleton (t u : Tx) : Prop :=
  t.version = u.version ∧ t.locktime = u.locktime ∧ t.outputs = u.outputs ∧
    t.inputs.map (fun i => (i.point, i.sequence)) = u.inputs.map (fun i => (i.point, i.sequence))

theorem flatMap_skeleton {a b : List Input} (h : a.map (fun i => (i.point, i.sequence)) = b.map (fun i => (i.point, i.sequence)))
    (g : Point → UInt32 → Bytes) : a.flatMap (fun i => g i.point i.sequence) = b.flatMap (fun i => g i.point i.sequence) := by
  have e : ∀ l : List Input, l.flatMap (fun i => g i.point i.sequence) = (l.map (fun i => (i.point, i.sequence))).flatMap (fun p => g p.1 p.2) := by
    intro l; rw [List.flatMap_map]
  rw [e, e, h]

theorem get_skeleton {a b : List Input} (h : a.map (fun i => (i.point, i.sequence)) = b.map (fun i => (i.point, i.sequence))) (i : Nat) :
    (a[i]?).map (fun i => (i.point, i.sequence)) = (b[i]?).map (fun i => (i.point, i.sequence)) := by
  rw [← List.getElem?_map, h, List.getElem?_map]

theorem writeInputs_skeleton {t u : Tx} (h : SameSkeleton t u) (g : Point → UInt32 → Bytes) (i : Nat) (sub : List Op) (f : UInt8) :
    writeInputs (fun i => g i.point i.sequence) t i sub f = writeInputs (fun i => g i.point i.sequence) u i sub f := by
  obtain ⟨-, -, -, hm⟩ := h
  have hl : t.inputs.length = u.inputs.length := by simpa using congrArg List.length hm
  unfold writeInputs
  dsimp only
  rw [hl]
  rw [flatMap_skeleton (a := t.inputs.take i) (b := u.inputs.take i) (by rw [List.map_take, List.map_take, hm]) g,
    flatMap_skeleton (a := t.inputs.drop (i + 1)) (b := u.inputs.drop (i + 1)) (by rw [List.map_drop, List.map_drop, hm]) g]
  congr 2
  have hg := get_skeleton hm i
  cases h1 : t.inputs[i]? <;> cases h2 : u.inputs[i]? <;> rw [h1, h2] at hg <;> simp at hg
  simp only [signed, hg.1, hg.2]

theorem unversioned_skeleton {t u : Tx} (h : SameSkeleton t u) (H : Bytes → Bytes) (i : Nat) (sub : List Op) (f : UInt8) :
    unversioned H t i sub f = unversioned H u i sub f := by
  have hz := writeInputs_skeleton h (fun p _ => p.toData ++ emptyScript ++ zeroSequence) i sub f
  have hq := writeInputs_skeleton h (fun p s => p.toData ++ emptyScript ++ writeU32 s) i sub f
  have hz : writeInputs otherZero t i sub f = writeInputs otherZero u i sub f := hz
  have hq : writeInputs otherSeq t i sub f = writeInputs otherSeq u i sub f := hq
  obtain ⟨h1, h2, h3, -⟩ := h
  have e1 : hashSingle t i sub f = hashSingle u i sub f := by unfold hashSingle singleOutputs; rw [hz, h1, h2, h3]
  have e2 : hashNone t i sub f = hashNone u i sub f := by unfold hashNone; rw [hz, h1, h2]
  have e3 : hashAll t i sub f = hashAll u i sub f := by unfold hashAll; rw [hq, h1, h2, h3]
  unfold unversioned
  rw [e1, e2, e3]
  unfold outputOverflow
  rw [h3]

/-- The hash a signature of an input covers (other than of a taproot input) does not depend on input scripts and witnesses, nor on
what the caches of the transactions hold. -/
theorem C83_hash_skeleton {H T : Bytes → Bytes} {t u : Tx} {ps qs : List Prevout} {c d : Cache} (h : SameSkeleton t u) (ht : Warm H t ps c) (hu : Warm H u qs d)
    (i : Nat) (hi : i < t.inputs.length) (h32 : i < 2 ^ 32) (sub : List Op) (value : UInt64) (v : Version) (hv : v ≠ .taproot) (f : UInt8) (b143 x y : Bool) :
    (signatureHash H T t ps ⟨i, sub, 0, value, none, v, f, b143, x⟩ c).1 = (signatureHash H T u qs ⟨i, sub, 0, value, none, v, f, b143, y⟩ d).1 := by
  have hl : t.inputs.length = u.inputs.length := by simpa using congrArg List.length h.2.2.2
  have hb : (v == Version.taproot) = false := by cases v <;> first | rfl | exact absurd rfl hv
  unfold signatureHash
  dsimp only
  rw [hb, Bool.and_false, Bool.and_false]
  by_cases g : (b143 && v == Version.segwit) = true
  · simp only [if_pos g]
    have e1 : t.inputs[i]? = some t.inputs[i] := List.getElem?_eq_getElem hi
    have e2 : u.inputs[i]? = some (u.inputs[i]'(by omega)) := List.getElem?_eq_getElem (by omega)
    rw [(C39_v0 ht i _ e1 h32 _ _ _).1, (C39_v0 hu i _ e2 h32 _ _ _).1]
    have hg := get_skeleton h.2.2.2 i
    rw [e1, e2] at hg
    simp only [Option.map_some, Option.some.injEq, Prod.mk.injEq] at hg
    have f1 := flatMap_skeleton h.2.2.2 (fun p _ => p.toData)
    have f2 := flatMap_skeleton h.2.2.2 (fun _ s => writeU32 s)
    unfold Spec.Sighash.bip143
    rw [h.1, h.2.1, f1, f2, hg.1, hg.2]
    simp only [h.2.2.1]
  · simp only [if_neg g]
    rw [unversioned_skeleton h]
    rfl

/-- An endorsement created on the transaction is a signature in the sense of C82 for the input of the signed transaction. -/
theorem signed_of (K : Crypto) (flags : Machine.Flags) {t u : Tx} {ps qs : List Prevout} {c d : Cache} (h : SameSkeleton t u)
    (ht : Warm K.sha256 t ps c) (hu : Warm K.sha256 u qs d) {i : Nat} (h32 : i < 2 ^ 32) {inp : Input} {prev : Output} {sub : List Op} {secret key e : Bytes}
    (hk : IsKeyOf C secret key) {value : UInt64} {sh : UInt8} (v0 : Bool) (hval : v0 = true → value = prev.value) {b342 : Bool}
    (he : createEndorsement C L K.sha256 K.tapSighash t ps secret sub i value sh (if v0 then .segwit else .unversioned) ⟨flags.bip143, b342⟩ c = some e) :
    e.length ≤ 73 ∧ Signed (txSpend C L K flags u qs i inp prev d) v0 sub key e := by
  have hver : (if v0 = true then Version.segwit else .unversioned) ≠ .taproot := by cases v0 <;> simp
  obtain ⟨hi, hv, hash, r, s, hh, hsg, hE⟩ := (C83_endorsement C L _ _ _ _ _ _ _ _ _ _ _ _ e).1 he
  obtain ⟨hlen, r', s', hE', hr, hs, hdec, hlast, -⟩ := C83_endorsement_verifies C L _ _ _ _ _ _ _ _ _ _ _ _ e he
  obtain ⟨r2, s2, q, _, _, hver2⟩ := (C83_signature_verifies C L secret hash).1 hv
  rw [hsg] at q
  cases q
  have hn := C.prime.one_lt
  have hs1 : s < Der.order := by
    obtain ⟨a, b, w, _, hb, _⟩ := (C83_signature_verifies C L secret hash).1 hv
    rw [hsg] at w
    cases w
    exact lt_of_lt_of_le (by omega) L.order_le
  have hr1 : r < Der.order := by
    obtain ⟨a, b, w, hb, _, _⟩ := (C83_signature_verifies C L secret hash).1 hv
    rw [hsg] at w
    cases w
    exact lt_of_lt_of_le hb L.order_le
  have hrs : (r', s') = (r, s) := by
    have h1 := hdec true
    rw [hE, List.dropLast_concat, Der.C28_encode r s hr1 hs1] at h1
    cases h1
    rfl
  cases hrs
  have hord : Der.order ≤ 256 ^ 32 := by decide
  refine ⟨hlen, by rw [hE]; simp, beBytes 32 r ++ beBytes 32 s, hash, ?_, ?_, ?_⟩
  · show packSignature (Der.decodeSignature e.dropLast _) = _
    rw [hdec]; rfl
  · show (signatureHash K.sha256 K.tapSighash u qs ⟨i, sub, 0, prev.value, none, if v0 then .segwit else .unversioned, e.getLastD 0, flags.bip143, flags.bip342⟩ d).1 = _
    rw [hlast, ← hh]
    rw [← C83_hash_skeleton h ht hu i hi h32 sub prev.value _ hver sh flags.bip143 b342]
    cases v0 with
    | true => rw [hval rfl]
    | false => unfold signatureHash; simp
  · show verifySignature C L key hash (beNat ((beBytes 32 r ++ beBytes 32 s).take 32), beNat ((beBytes 32 r ++ beBytes 32 s).drop 32)) = true
    rw [List.take_append_of_le_length (by simp), List.take_of_length_le (by simp), List.drop_append_of_le_length (by simp),
      List.drop_of_length_le (by simp), List.nil_append, Der.beNat_beBytes (by omega), Der.beNat_beBytes (by omega)]
    exact hver2 key hk

/-! ### Signing and spending

A transaction `t` is signed with the secrets of the keys, and the endorsements are put into the input of a transaction `u` that is
otherwise the same. -/

variable (K : Crypto) (flags : Machine.Flags) {t u : Tx} {ps qs : List Prevout} {c d : Cache} {i : Nat} {inp : Input} {prev : Output}

/-- P2PKH: an endorsement by the owner of the key hash, and the key, spend the output (unless the endorsement is, byte for byte, the
key hash). -/
theorem C83_p2pkh (h : SameSkeleton t u) (ht : Warm K.sha256 t ps c) (hu : Warm K.sha256 u qs d) (h32 : i < 2 ^ 32)
    (hs : (txSpend C L K flags u qs i inp prev d).OK) (secret key e : Bytes) (hk : IsKeyOf C secret key)
    (hp : opsData prev.script.ops = p2pkh (K.hash160 key)) (value : UInt64) (sh : UInt8) (b342 : Bool)
    (he : createEndorsement C L K.sha256 K.tapSighash t ps secret (parseOps (p2pkh (K.hash160 key))) i value sh .unversioned ⟨flags.bip143, b342⟩ c = some e)
    (hne : e ≠ K.hash160 key) (hi : opsData inp.script.ops = pushBytes e ++ pushBytes key) (hw : inp.witness.stack = []) :
    connect (txSpend C L K flags u qs i inp prev d) = some none := by
  obtain ⟨hl, hsg⟩ := signed_of C L K flags (inp := inp) (prev := prev) h ht hu h32 hk false (by simp) he
  have h20 : (K.hash160 key).length = 20 := hs.hash160 key
  refine (C82_p2pkh _ hs (K.hash160 key) h20 hp key e (by have := (key_parse C hk).2.2.2.1; omega) (by omega) hi hw).2 ⟨rfl, ?_⟩
  rw [C82_covered_p2pkh _ _ h20 hne (by omega)]
  exact hsg

/-- P2PK. -/
theorem C83_p2pk (h : SameSkeleton t u) (ht : Warm K.sha256 t ps c) (hu : Warm K.sha256 u qs d) (h32 : i < 2 ^ 32)
    (hs : (txSpend C L K flags u qs i inp prev d).OK) (secret key e : Bytes) (hk : IsKeyOf C secret key)
    (hp : opsData prev.script.ops = p2pk key) (value : UInt64) (sh : UInt8) (b342 : Bool)
    (he : createEndorsement C L K.sha256 K.tapSighash t ps secret (parseOps (p2pk key)) i value sh .unversioned ⟨flags.bip143, b342⟩ c = some e)
    (hne : e ≠ key) (hi : opsData inp.script.ops = pushBytes e) (hw : inp.witness.stack = []) :
    connect (txSpend C L K flags u qs i inp prev d) = some none := by
  obtain ⟨hl, hsg⟩ := signed_of C L K flags (inp := inp) (prev := prev) h ht hu h32 hk false (by simp) he
  have hkl := (key_parse C hk).2.2.2.1
  refine (C82_p2pk _ hs key e hp (by omega) (by omega) hi hw).2 ?_
  rw [C82_covered]
  · exact hsg
  · intro o ho d' hd
    rw [List.mem_singleton.1 hd]
    have hok : OpsOK [po key, { code := 172 }] ∧ opsData [po key, { code := 172 }] = p2pk key := by
      constructor
      · apply Machine.opsOK_of
        intro o ho
        simp only [List.mem_cons, List.not_mem_nil, or_false] at ho
        rcases ho with rfl | rfl
        · exact (po_spec (by omega)).1
        · exact plain_consistent _ (by decide)
      · simp only [opsData, List.flatMap_cons, List.flatMap_nil, List.append_nil, (po_spec (d := key) (by omega)).2]
        rfl
    rw [← hok.2, parseOps_of hok.1 (by rw [hok.2]; have := hs.prevoutSize; have e : opsData (txSpend C L K flags u qs i inp prev d).prevout = p2pk key := hp; rw [e] at this; exact this)] at ho
    simp only [List.mem_cons, List.not_mem_nil, or_false] at ho
    rcases ho with rfl | rfl
    · rw [(po_spec (by omega)).2]
      exact fun hx => hne (pushBytes_inj (by omega) (by omega) hx).symm
    · exact plain_not_push _ (by decide) e (by omega)

/-- P2WPKH, with the value of the output; the hash of the key is not zero. -/
theorem C83_p2wpkh (h : SameSkeleton t u) (ht : Warm K.sha256 t ps c) (hu : Warm K.sha256 u qs d) (h32 : i < 2 ^ 32)
    (hs : (txSpend C L K flags u qs i inp prev d).OK) (h141 : flags.bip141 = true) (h143 : flags.bip143 = true)
    (secret key e : Bytes) (hk : IsKeyOf C secret key) (hz : truthy (K.hash160 key) = true)
    (hp : opsData prev.script.ops = p2wpkh (K.hash160 key)) (sh : UInt8) (b342 : Bool)
    (he : createEndorsement C L K.sha256 K.tapSighash t ps secret (parseOps (p2pkh (K.hash160 key))) i prev.value sh .segwit ⟨flags.bip143, b342⟩ c = some e)
    (hi : opsData inp.script.ops = []) (hw : inp.witness.stack = [e, key]) :
    connect (txSpend C L K flags u qs i inp prev d) = some none := by
  obtain ⟨hl, hsg⟩ := signed_of C L K flags (inp := inp) (prev := prev) h ht hu h32 hk true (fun _ => rfl) he
  have hkl := (key_parse C hk).2.2.2.1
  exact (C82_p2wpkh _ hs h141 h143 _ (hs.hash160 key) hp).2 ⟨hi, hz, e, key, hw, by omega, by omega, rfl, hsg⟩

/-- P2WPKH in P2SH. -/
theorem C83_p2sh_p2wpkh (h : SameSkeleton t u) (ht : Warm K.sha256 t ps c) (hu : Warm K.sha256 u qs d) (h32 : i < 2 ^ 32)
    (hs : (txSpend C L K flags u qs i inp prev d).OK) (h16 : flags.bip16 = true) (h141 : flags.bip141 = true) (h143 : flags.bip143 = true)
    (secret key e : Bytes) (hk : IsKeyOf C secret key) (hz : truthy (K.hash160 key) = true)
    (hp : opsData prev.script.ops = p2sh (K.hash160 (p2wpkh (K.hash160 key)))) (sh : UInt8) (b342 : Bool)
    (he : createEndorsement C L K.sha256 K.tapSighash t ps secret (parseOps (p2pkh (K.hash160 key))) i prev.value sh .segwit ⟨flags.bip143, b342⟩ c = some e)
    (hi : opsData inp.script.ops = pushBytes (p2wpkh (K.hash160 key))) (hw : inp.witness.stack = [e, key]) :
    connect (txSpend C L K flags u qs i inp prev d) = some none := by
  obtain ⟨hl, hsg⟩ := signed_of C L K flags (inp := inp) (prev := prev) h ht hu h32 hk true (fun _ => rfl) he
  have hkl := (key_parse C hk).2.2.2.1
  exact (C82_p2sh_p2wpkh _ hs h16 h141 h143 _ _ (hs.hash160 _) (hs.hash160 key) hp hi).2 ⟨rfl, hz, e, key, hw, by omega, by omega, rfl, hsg⟩

/-- Endorsements of the script by the secrets of some of the keys, in the order of the keys, each with its own hash type. -/
def Endorsed (t : Tx) (ps : List Prevout) (c : Cache) (sub : List Op) (i : Nat) (value : UInt64) (v : Version) (f : Forks) (keys es : List Bytes) : Prop :=
  ∃ chosen : List Bytes, chosen.Sublist keys ∧ List.Forall₂ (fun e key => ∃ secret sh, IsKeyOf C secret key ∧
    createEndorsement C L K.sha256 K.tapSighash t ps secret sub i value sh v f c = some e) es chosen

theorem matched_of (h : SameSkeleton t u) (ht : Warm K.sha256 t ps c) (hu : Warm K.sha256 u qs d) (h32 : i < 2 ^ 32) {sub : List Op}
    (v0 : Bool) {value : UInt64} (hval : v0 = true → value = prev.value) {b342 : Bool} {keys es : List Bytes}
    (he : Endorsed C L K t ps c sub i value (if v0 then .segwit else .unversioned) ⟨flags.bip143, b342⟩ keys es) :
    (∀ e ∈ es, e.length ≤ 73) ∧ Matched (txSpend C L K flags u qs i inp prev d) v0 sub keys es := by
  obtain ⟨chosen, hsub, hf⟩ := he
  refine ⟨?_, chosen, hsub, hf.imp fun e key ⟨secret, sh, hk, hc⟩ => (signed_of C L K flags h ht hu h32 hk v0 hval hc).2⟩
  intro e he
  clear hsub
  induction hf with
  | nil => cases he
  | cons h1 _ ih =>
    rcases List.mem_cons.1 he with rfl | hm
    · obtain ⟨secret, sh, hk, hc⟩ := h1
      exact (signed_of C L K flags (inp := inp) (prev := prev) h ht hu h32 hk v0 hval hc).1
    · exact ih hm

/-- m-of-n in P2WSH: m endorsements by owners of the keys, in the order of the keys, spend the output. -/
theorem C83_multisig_p2wsh (h : SameSkeleton t u) (ht : Warm K.sha256 t ps c) (hu : Warm K.sha256 u qs d) (h32 : i < 2 ^ 32)
    (hs : (txSpend C L K flags u qs i inp prev d).OK) (h141 : flags.bip141 = true) (h143 : flags.bip143 = true)
    (m : Nat) (keys es : List Bytes) (hm : 1 ≤ m) (hmn : m ≤ keys.length) (hn : keys.length ≤ 16) (hk : ∀ k ∈ keys, k.length ≤ 520)
    (hz : truthy (K.sha256 (Spec.multisig m keys)) = true) (hp : opsData prev.script.ops = p2wsh (K.sha256 (Spec.multisig m keys))) (b342 : Bool)
    (he : Endorsed C L K t ps c (parseOps (Spec.multisig m keys)) i prev.value .segwit ⟨flags.bip143, b342⟩ keys es) (hl : es.length = m)
    (hi : opsData inp.script.ops = []) (hw : inp.witness.stack = [] :: es ++ [Spec.multisig m keys]) :
    connect (txSpend C L K flags u qs i inp prev d) = some none := by
  obtain ⟨h1, h2⟩ := matched_of C L K flags (inp := inp) (prev := prev) h ht hu h32 true (fun _ => rfl) he
  refine (C82_multisig_p2wsh _ hs h141 h143 _ (hs.sha256 _) hp m keys hm hmn hn hk [] es hl ?_ hi hw).2 ⟨hz, rfl, fun _ => rfl, h2⟩
  intro d hd
  rcases List.mem_cons.1 hd with rfl | hd
  · simp
  · have := h1 d hd; omega

/-- Bare m-of-n: no endorsement is, byte for byte, one of the keys. -/
theorem C83_multisig (h : SameSkeleton t u) (ht : Warm K.sha256 t ps c) (hu : Warm K.sha256 u qs d) (h32 : i < 2 ^ 32)
    (hs : (txSpend C L K flags u qs i inp prev d).OK)
    (m : Nat) (keys es : List Bytes) (hm : 1 ≤ m) (hmn : m ≤ keys.length) (hn : keys.length ≤ 16) (hk : ∀ k ∈ keys, k.length ≤ 520)
    (hp : opsData prev.script.ops = Spec.multisig m keys) (value : UInt64) (b342 : Bool) (hd : ∀ e ∈ es, e ∉ keys)
    (he : Endorsed C L K t ps c (parseOps (Spec.multisig m keys)) i value .unversioned ⟨flags.bip143, b342⟩ keys es) (hl : es.length = m)
    (hi : opsData inp.script.ops = ([] :: es).flatMap pushBytes) (hw : inp.witness.stack = []) :
    connect (txSpend C L K flags u qs i inp prev d) = some none := by
  obtain ⟨h1, h2⟩ := matched_of C L K flags (inp := inp) (prev := prev) h ht hu h32 false (by simp) he
  refine (C82_multisig _ hs m keys hm hmn hn hk hp [] es hl ?_ hi hw).2 ⟨fun _ => rfl, ?_⟩
  · intro d hd
    rcases List.mem_cons.1 hd with rfl | hd
    · simp
    · have := h1 d hd; omega
  · rw [C82_covered]
    · exact h2
    · intro o ho e hee
      have hel := h1 e hee
      rw [multisig_parse hm hmn hn hk] at ho
      have small : ∀ k, k ≤ 16 → (79 : UInt8) ≤ UInt8.ofNat (80 + k) := by
        intro k hk
        rw [UInt8.le_iff_toNat_le, UInt8.toNat_ofNat', Nat.mod_eq_of_lt (by omega)]
        show 79 ≤ 80 + k
        omega
      rcases mem_multisigOps' ho with rfl | ⟨k, hkk, rfl⟩ | rfl | rfl
      · exact plain_not_push _ (small m (by omega)) e (by omega)
      · rw [(po_spec (hk k hkk)).2]
        exact fun hx => hd e hee (pushBytes_inj (hk k hkk) (by omega) hx ▸ hkk)
      · exact plain_not_push _ (small _ hn) e (by omega)
      · exact plain_not_push _ (by decide) e (by omega)

/-! ### Example

With the curve and the ECDSA of Lemmas/ToyEcdsa.lean and constant hash functions, a transaction with one input that spends a P2PKH output is
signed and accepted. -/

def toyCrypto : Crypto where
  rmd160 := fun _ => List.replicate 20 1
  sha1 := fun _ => List.replicate 20 1
  sha256 := fun _ => List.replicate 32 1
  hash160 := fun _ => List.replicate 20 1
  hash256 := fun _ => List.replicate 32 1
  leafHash := fun _ _ => List.replicate 32 1
  branchHash := fun _ _ => List.replicate 32 2
  tweakHash := fun _ _ => List.replicate 32 3
  tapSighash := fun _ => List.replicate 32 4
  verifySchnorr := fun _ _ _ => false
  verifyCommitment := fun _ _ _ _ => false

/-- The input, before and after it is signed. -/
def toyInput (ops : List Op) (w : List Bytes) : Input :=
  { point := { hash := ⟨List.replicate 32 9, rfl⟩, index := 0 }, script := Script.ofOps ops, witness := Witness.ofStack w, sequence := 5 }
def toyTx (inp : Input) : Tx := { version := 2, inputs := [inp], outputs := [{ value := 7, script := Script.ofOps [] }], locktime := 0, segregated := false }
def toyPrev : Output := { value := 9, script := Script.ofOps (toPayKeyHash (List.replicate 20 1)) }
def toySecret : Bytes := List.replicate 31 0 ++ [5]
def toyKey : Bytes := Toy.curve.compressed (beNat toySecret • Toy.curve.generator)

theorem toyKey_of : IsKeyOf Toy.curve toySecret toyKey := .inl (if_pos (by decide))

/-- The hypotheses of `C83_p2pkh` are met. -/
example : ∃ e, createEndorsement Toy.curve Toy.ecdsa toyCrypto.sha256 toyCrypto.tapSighash (toyTx (toyInput [] [])) [] toySecret
      (parseOps (p2pkh (toyCrypto.hash160 toyKey))) 0 0 1 .unversioned ⟨allFlags.bip143, true⟩ {} = some e ∧
    connect (txSpend Toy.curve Toy.ecdsa toyCrypto allFlags (toyTx (toyInput [po e, po toyKey] [])) [] 0 (toyInput [po e, po toyKey] []) toyPrev {}) = some none := by
  obtain ⟨r, s, hsg, -⟩ := (C83_signature_verifies Toy.curve Toy.ecdsa toySecret
    (unversioned toyCrypto.sha256 (toyTx (toyInput [] [])) 0 (parseOps (p2pkh (toyCrypto.hash160 toyKey))) 1)).1 (by decide)
  have he : createEndorsement Toy.curve Toy.ecdsa toyCrypto.sha256 toyCrypto.tapSighash (toyTx (toyInput [] [])) [] toySecret
      (parseOps (p2pkh (toyCrypto.hash160 toyKey))) 0 0 1 .unversioned ⟨allFlags.bip143, true⟩ {} = some (Der.Spec.encode r s ++ [1]) :=
    (C83_endorsement _ _ _ _ _ _ _ _ _ _ _ _ _ _ _).2 ⟨by decide, by decide, _, r, s, rfl, hsg, rfl⟩
  refine ⟨_, he, ?_⟩
  have hlen := (C83_endorsement_verifies _ _ _ _ _ _ _ _ _ _ _ _ _ _ _ he).1
  have hkl := (key_parse _ toyKey_of).2.2.2.1
  generalize hE : Der.Spec.encode r s ++ [1] = e at *
  have hd : ∀ x ∈ [e, toyKey], x.length ≤ 520 := by
    intro x hx
    simp only [List.mem_cons, List.not_mem_nil, or_false] at hx
    rcases hx with rfl | rfl <;> omega
  have hdata : opsData [po e, po toyKey] = pushBytes e ++ pushBytes toyKey := by
    have := (pos_ok hd).2
    simpa using this
  have hl : (pushBytes e ++ pushBytes toyKey).length < 1000 := by
    have h1 := pushBytes_length e (by omega)
    have h2 := pushBytes_length toyKey (by omega)
    rw [List.length_append]
    omega
  refine C83_p2pkh Toy.curve Toy.ecdsa toyCrypto allFlags (t := toyTx (toyInput [] [])) ⟨rfl, rfl, rfl, rfl⟩ (warm_empty _ _ _) (warm_empty _ _ _) (by decide) ?_ toySecret toyKey e toyKey_of ?_
    0 1 true he ?_ hdata rfl
  · exact {
      ops := (pos_ok hd).1
      opsSize := by show (opsData [po e, po toyKey]).length < 2 ^ 63; rw [hdata]; omega
      prevout := (keyhash_ok (show (List.replicate 20 1 : Bytes).length = 20 from rfl)).1
      prevoutSize := (keyhash_ok (show (List.replicate 20 1 : Bytes).length = 20 from rfl)).2
      witness := by show ((Witness.ofStack []).toData true).length < 2 ^ 63; decide
      rmd160 := fun _ => rfl
      sha1 := fun _ => rfl
      sha256 := fun _ => rfl
      hash160 := fun _ => rfl
      hash256 := fun _ => rfl
      total := fun v sub f => by cases v <;> rfl
      tap := fun _ => rfl }
  · decide
  · rintro rfl
    have := congrArg List.head? hE
    simp [Der.Spec.encode, toyCrypto] at this

end Verif.Sign
