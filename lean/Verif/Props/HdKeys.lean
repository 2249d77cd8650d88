import Verif.Model.HdKeys
import Verif.Spec.Bip32
import Verif.Lemmas.Sha
import Verif.Props.Mac
import Verif.Props.Hash
import Verif.Props.Der
import Verif.Props.Radix
import Verif.Lemmas.ToyCurve
/-!
# C62: hierarchical deterministic keys are those of BIP32
-/
namespace Verif.Ec
open Verif
variable {P : Type} [AddCommGroup P] [DecidableEq P] {C : Curve P}

/-! ## Curve -/
theorem mod_smul (C : Curve P) (k : Nat) : (k % C.order) • C.generator = k • C.generator := by
  conv_rhs => rw [← Nat.div_add_mod k C.order, add_nsmul, (C.cyclic (C.order * (k / C.order))).2 (Nat.dvd_mul_right _ _), zero_add]

theorem smul_zero_iff (C : Curve P) (k : Nat) : k • C.generator = 0 ↔ k % C.order = 0 := by
  rw [C.cyclic, Nat.dvd_iff_mod_eq_zero]

theorem verify_iff (C : Curve P) (s : Bytes) : verifySecret C s = true ↔ 0 < beNat s ∧ beNat s < C.order := by
  simp [verifySecret]

theorem valid_smul (C : Curve P) {k : Nat} (h0 : 0 < k) (h1 : k < C.order) : k • C.generator ≠ 0 := by
  rw [Ne, smul_zero_iff, Nat.mod_eq_of_lt h1]; omega

theorem compressed_length (C : Curve P) (p : P) : (C.compressed p).length = 33 := by
  obtain ⟨s, x, e, _, h⟩ := C.compressed_form p
  rw [e]; simp [h]

theorem parse_null (C : Curve P) : C.parse (List.replicate 33 0) = none := by
  cases h : C.parse (List.replicate 33 0) with
  | none => rfl
  | some p =>
    have := C.parse_33 _ _ h (by simp)
    obtain ⟨s, x, e, hs, _⟩ := C.compressed_form p
    rw [e] at this
    injection this with h1 _
    rcases hs with hs | hs <;> rw [hs] at h1 <;> simp at h1

end Verif.Ec

namespace Verif.Hd
open Verif Verif.Ec Verif.Spec
open Verif.Sha (Build)
variable {P : Type} [AddCommGroup P] [DecidableEq P] {C : Curve P} {b : Build}

/-! ## Extended keys -/

/-- The object holds the extended private key `(k, c)`. -/
structure Holds (C : Curve P) (x : Private) (k : Nat) (c : Bytes) : Prop where
  valid : x.pub.valid = true
  pos : 0 < k
  lt : k < C.order
  secret : x.secret = Bip32.ser256 k
  point : x.pub.point = Bip32.serP C (Bip32.point C k)
  chain : x.pub.chain = c
  size : c.length = 32

/-- The object holds the extended public key `(K, c)`. -/
structure HoldsPublic (C : Curve P) (x : Public) (K : P) (c : Bytes) : Prop where
  valid : x.valid = true
  ne : K ≠ 0
  point : x.point = Bip32.serP C K
  chain : x.chain = c
  size : c.length = 32

theorem lt256 (C : Curve P) {k : Nat} (h : k < C.order) : k < 256 ^ 32 := by
  have h1 : (256 : Nat) ^ 32 = 2 ^ 256 := by decide
  have := C.small
  omega

theorem hmac_eq (data key : Bytes) (hd : data.length ≤ 100000) (hk : key.length ≤ 100000) :
    hmac512 b data key = Bip32.hmacSha512 key data := by
  have := Hmac.C59_hmac (Hash.Standard.sha512 (b := b)) true key data (by omega) (by omega)
  exact this

theorem hmac_length (key data : Bytes) : (Bip32.hmacSha512 key data).length = 64 :=
  Hmac.hmac_length (Hash.Standard.sha512 (b := ⟨false, 0, []⟩)) key data

theorem fingerprint_eq (p : P) : fingerprint b (C.compressed p) = UInt32.ofNat (Spec.Hash.beVal (Bip32.fingerprint C p)) := by
  have := (HashFn.C58_functions b true (C.compressed p) (by rw [compressed_length]; decide)).2.2.2.2.2.2.1
  unfold fingerprint
  rw [this, Sha.beVal_eq]
  rfl

theorem make_holds {k : Nat} {c : Bytes} (h0 : 0 < k) (h1 : k < C.order) (hc : c.length = 32) (l : Lineage) :
    Holds C (Private.make C (beBytes 32 k) c l) k c ∧ (Private.make C (beBytes 32 k) c l).pub.lineage = l := by
  have hb : beNat (beBytes 32 k) = k := Der.beNat_beBytes (lt256 C h1)
  have hv : verifySecret C (beBytes 32 k) = true := by rw [verify_iff, hb]; exact ⟨h0, h1⟩
  have e : Private.make C (beBytes 32 k) c l = ⟨⟨true, C.compressed (k • C.generator), c, l⟩, beBytes 32 k⟩ := by
    unfold Private.make Public.fromSecret secretToPublic
    rw [if_pos hv, hb]
  rw [e]
  exact ⟨⟨rfl, h0, h1, (Sha.beRep_eq _ _).symm, rfl, rfl, hc⟩, rfl⟩

/-- Deriving a child of an extended private key is BIP32's `CKDpriv`; the child records the depth, the parent's fingerprint and its
index. -/
theorem C62_private (x : Private) (k : Nat) (c : Bytes) (h : Holds C x k c) (hd : x.pub.lineage.depth ≠ 255) (i : UInt32) :
    match Bip32.ckdPriv C k c i.toNat with
    | none => x.derive C b i = Private.none
    | some (k', c') => Holds C (x.derive C b i) k' c' ∧ (x.derive C b i).pub.lineage =
        ⟨x.pub.lineage.prefixes, x.pub.lineage.depth + 1, UInt32.ofNat (Spec.Hash.beVal (Bip32.fingerprint C (Bip32.point C k))), i⟩ := by
  obtain ⟨hv, h0, h1, hs, hp, hc, hl⟩ := h
  have hsec : x.secret = beBytes 32 k := by rw [hs]; exact Sha.beRep_eq _ _
  have hbk : beNat (beBytes 32 k) = k := Der.beNat_beBytes (lt256 C h1)
  have hvs' : verifySecret C (beBytes 32 k) = true := (verify_iff C _).2 (by rw [hbk]; exact ⟨h0, h1⟩)
  have hpt : x.pub.point = C.compressed (k • C.generator) := hp
  have hdata : (if 2 ^ 31 ≤ i.toNat then [0] ++ x.secret ++ beBytes 4 i.toNat else x.pub.point ++ beBytes 4 i.toNat) =
      (if 2 ^ 31 ≤ i.toNat then 0 :: Bip32.ser256 k ++ Bip32.ser32 i.toNat else
        Bip32.serP C (Bip32.point C k) ++ Bip32.ser32 i.toNat) := by
    have e : Bip32.ser32 i.toNat = beBytes 4 i.toNat := Sha.beRep_eq _ _
    rw [hs, hp, e]
    simp only [List.cons_append, List.nil_append]
  have hlen : (if 2 ^ 31 ≤ i.toNat then 0 :: Bip32.ser256 k ++ Bip32.ser32 i.toNat else
        Bip32.serP C (Bip32.point C k) ++ Bip32.ser32 i.toNat).length ≤ 100000 := by
    have e1 : (Bip32.ser256 k).length = 32 := by unfold Bip32.ser256; rw [Sha.beRep_eq]; simp
    have e2 : (Bip32.ser32 i.toNat).length = 4 := by unfold Bip32.ser32; rw [Sha.beRep_eq]; simp
    have e3 : (Bip32.serP C (Bip32.point C k)).length = 33 := compressed_length C _
    split <;> simp [e1, e2, e3]
  unfold Bip32.ckdPriv Private.derive
  dsimp only
  rw [hdata, hc, hmac_eq _ _ hlen (by omega)]
  generalize (if 2 ^ 31 ≤ i.toNat then 0 :: Bip32.ser256 k ++ Bip32.ser32 i.toNat else
        Bip32.serP C (Bip32.point C k) ++ Bip32.ser32 i.toNat) = data
  have hI := hmac_length c data
  generalize Bip32.hmacSha512 c data = I at hI ⊢
  unfold Bip32.parse256 addSecret
  rw [Sha.beVal_eq, hsec, hbk]
  have hdrop : (I.drop 32).length = 32 := by simp [hI]
  by_cases hcase : C.order ≤ beNat (I.take 32) ∨ (beNat (I.take 32) + k) % C.order = 0
  · simp only [if_pos hcase]
    rw [if_neg]
    rintro ⟨_, h2, h3⟩
    rcases hcase with hcase | hcase
    · omega
    · rw [Nat.add_comm] at h3; exact h3 hcase
  · have hn := hcase
    simp only [if_neg hcase]
    have hlt : beNat (I.take 32) < C.order := by
      rcases Nat.lt_or_ge (beNat (I.take 32)) C.order with h | h
      · exact h
      · exact absurd (.inl h) hcase
    have hne : (k + beNat (I.take 32)) % C.order ≠ 0 := fun e => hcase (.inr (by rw [Nat.add_comm]; exact e))
    rw [if_pos ⟨hvs', hlt, hne⟩]
    dsimp only
    rw [if_neg hd]
    have hpos : 0 < C.order := C.prime.pos
    obtain ⟨m1, m2⟩ := make_holds (C := C) (k := (k + beNat (I.take 32)) % C.order) (by omega) (Nat.mod_lt _ hpos) hdrop
      ⟨x.pub.lineage.prefixes, x.pub.lineage.depth + 1, fingerprint b x.pub.point, i⟩
    refine ⟨?_, ?_⟩
    · rw [Nat.add_comm (beNat (I.take 32)) k]; exact m1
    · rw [m2, hpt, fingerprint_eq]; rfl

/-- Deriving a child of an extended public key is BIP32's `CKDpub`. -/
theorem C62_public (x : Public) (K : P) (c : Bytes) (h : HoldsPublic C x K c) (hd : x.lineage.depth ≠ 255) (i : UInt32) :
    match Bip32.ckdPub C K c i.toNat with
    | none => x.derive C b i = Public.none
    | some (K', c') => HoldsPublic C (x.derive C b i) K' c' ∧ (x.derive C b i).lineage =
        ⟨x.lineage.prefixes, x.lineage.depth + 1, UInt32.ofNat (Spec.Hash.beVal (Bip32.fingerprint C K)), i⟩ := by
  obtain ⟨hv, h0, hp, hc, hl⟩ := h
  unfold Bip32.ckdPub Public.derive
  by_cases hi : 2 ^ 31 ≤ i.toNat
  · simp only [if_pos hi]
  · simp only [if_neg hi]
    have hdata : x.point ++ beBytes 4 i.toNat = Bip32.serP C K ++ Bip32.ser32 i.toNat := by
      rw [hp]; unfold Bip32.ser32; rw [Sha.beRep_eq]
    have hlen : (Bip32.serP C K ++ Bip32.ser32 i.toNat).length ≤ 100000 := by
      have e2 : (Bip32.ser32 i.toNat).length = 4 := by unfold Bip32.ser32; rw [Sha.beRep_eq]; simp
      have e3 : (Bip32.serP C K).length = 33 := compressed_length C _
      simp [e2, e3]
    rw [hdata, hc, hmac_eq _ _ hlen (by omega)]
    generalize Bip32.serP C K ++ Bip32.ser32 i.toNat = data
    have hI := hmac_length c data
    generalize Bip32.hmacSha512 c data = I at hI ⊢
    unfold Bip32.parse256 addPoint
    rw [Sha.beVal_eq, hp]
    unfold Bip32.serP Bip32.point
    rw [C.parse_compressed K h0]
    dsimp only
    by_cases hcase : C.order ≤ beNat (I.take 32) ∨ beNat (I.take 32) • C.generator + K = 0
    · simp only [if_pos hcase]
      rw [if_neg]
      rintro ⟨h2, h3⟩
      rcases hcase with hcase | hcase
      · omega
      · rw [add_comm] at h3; exact h3 hcase
    · simp only [if_neg hcase]
      have hlt : beNat (I.take 32) < C.order := by
        rcases Nat.lt_or_ge (beNat (I.take 32)) C.order with h | h
        · exact h
        · exact absurd (.inl h) hcase
      have hne : K + beNat (I.take 32) • C.generator ≠ 0 := fun e => hcase (.inr (by rw [add_comm]; exact e))
      rw [if_pos ⟨hlt, hne⟩]
      dsimp only
      rw [if_neg hd]
      refine ⟨⟨rfl, by rwa [add_comm] at hne, by rw [add_comm]; rfl, rfl, by simp [hI]⟩, ?_⟩
      rw [fingerprint_eq]

/-- No key has a child at the greatest depth. -/
theorem C62_depth (i : UInt32) : (∀ x : Private, x.pub.lineage.depth = 255 → x.derive C b i = Private.none) ∧
    (∀ x : Public, x.lineage.depth = 255 → x.derive C b i = Public.none) := by
  refine ⟨fun x h => ?_, fun x h => ?_⟩
  · unfold Private.derive
    dsimp only
    split
    · rfl
    · rw [if_pos h]
  · unfold Public.derive
    split
    · rfl
    · dsimp only
      split
      · rfl
      · first | rfl | rw [if_pos h]

theorem verify_false (C : Curve P) {s : Bytes} (h : beNat s = 0 ∨ C.order ≤ beNat s) : ¬ verifySecret C s = true := fun hv => by
  have := (verify_iff C s).1 hv
  omega

theorem beBytes_beNat' {s : Bytes} (h : s.length = 32) : beBytes 32 (beNat s) = s := by
  refine Der.beNat_inj (by simp [h]) ?_
  refine Der.beNat_beBytes ?_
  have := Der.beNat_lt s
  rwa [h] at this

theorem fromPrivate_invalid (C : Curve P) {s c : Bytes} {p : UInt64} (h : ¬ verifySecret C s = true) :
    Private.fromPrivate C s c p = ⟨Public.none, s⟩ := by
  unfold Private.fromPrivate; exact if_neg h

theorem fromPrivate_valid (C : Curve P) {s c : Bytes} {p : UInt64} (h : verifySecret C s = true) :
    Private.fromPrivate C s c p = Private.make C s c ⟨p, 0, 0, 0⟩ := by
  unfold Private.fromPrivate; exact if_pos h

theorem make_holds' {s c : Bytes} (hs : s.length = 32) (hv : verifySecret C s = true) (hc : c.length = 32) (l : Lineage) :
    Holds C (Private.make C s c l) (beNat s) c ∧ (Private.make C s c l).pub.lineage = l := by
  have h := (verify_iff C s).1 hv
  have := make_holds (C := C) (k := beNat s) h.1 h.2 hc l
  have e := beBytes_beNat' hs
  generalize beBytes 32 (beNat s) = t at e this
  subst e
  exact this

/-- The master key is generated as in BIP32. -/
theorem C62_master (seed : Bytes) (prefixes : UInt64) (hs : seed.length ≤ 100000) :
    match Bip32.master C seed with
    | none => (Private.fromEntropy C b seed prefixes).pub = Public.none
    | some (k, c) => Holds C (Private.fromEntropy C b seed prefixes) k c ∧
        (Private.fromEntropy C b seed prefixes).pub.lineage = ⟨prefixes, 0, 0, 0⟩ := by
  have hkey : seedKey.length ≤ 100000 := by simp [seedKey]
  have he : hmac512 b seed seedKey = Bip32.hmacSha512 seedKey seed := hmac_eq seed seedKey hs hkey
  have hI := hmac_length seedKey seed
  have e1 : Private.fromEntropy C b seed prefixes = Private.fromPrivate C ((Bip32.hmacSha512 seedKey seed).take 32)
      ((Bip32.hmacSha512 seedKey seed).drop 32) prefixes := by
    unfold Private.fromEntropy; rw [he]
  have e2 : Bip32.master C seed = (if Spec.Hash.beVal ((Bip32.hmacSha512 seedKey seed).take 32) = 0 ∨
      C.order ≤ Spec.Hash.beVal ((Bip32.hmacSha512 seedKey seed).take 32) then none
      else some (Spec.Hash.beVal ((Bip32.hmacSha512 seedKey seed).take 32), (Bip32.hmacSha512 seedKey seed).drop 32)) := by
    have hk : seedKey = Bip32.seedKey := rfl
    rw [hk]
    unfold Bip32.master Bip32.parse256
    exact rfl
  rw [e1, e2]
  clear e1 e2 he
  generalize Bip32.hmacSha512 seedKey seed = I at hI ⊢
  rw [Sha.beVal_eq]
  have hlen : (I.take 32).length = 32 := by simp [hI]
  have hlen2 : (I.drop 32).length = 32 := by simp [hI]
  generalize I.take 32 = l at hlen ⊢
  generalize I.drop 32 = r at hlen2 ⊢
  clear hI
  by_cases h : beNat l = 0 ∨ C.order ≤ beNat l
  · have e := fromPrivate_invalid C (c := r) (p := prefixes) (verify_false C h)
    simp only [if_pos h, e]
  · have hv : verifySecret C l = true := (verify_iff C _).2 (by omega)
    have e := fromPrivate_valid C (c := r) (p := prefixes) hv
    simp only [if_neg h, e]
    exact make_holds' hlen hv hlen2 _

/-! ## From private to public keys -/

/-- What is read at an offset of a concatenation. -/
theorem slice {a c r : Bytes} {n m : Nat} (ha : a.length = n) (hc : c.length = m) : ((a ++ (c ++ r)).drop n).take m = c := by
  subst ha; subst hc
  simp

theorem word_slice {a r : Bytes} {n : Nat} (w : UInt32) (ha : a.length = n) : word (a ++ (beBytes 4 w.toNat ++ r)) n = w := by
  unfold word
  rw [slice ha (by simp), Der.beNat_beBytes (by have := w.toNat_lt; simp only [Nat.reducePow] at *; omega)]
  exact UInt32.ofNat_toNat

theorem headD_slice {a r : Bytes} {n : Nat} (v : UInt8) (ha : a.length = n) : ((a ++ ([v] ++ r)).drop n).headD 0 = v := by
  subst ha; simp

theorem payload_sum (x : Public) (t : Bytes) (hc : x.chain.length = 32) (hp : x.point.length = 33) :
    word (x.payload ++ t) 0 = publicPrefix x.lineage.prefixes ∧ ((x.payload ++ t).drop 4).headD 0 = x.lineage.depth ∧
    word (x.payload ++ t) 5 = x.lineage.parent ∧ word (x.payload ++ t) 9 = x.lineage.child ∧
    ((x.payload ++ t).drop 13).take 32 = x.chain ∧ ((x.payload ++ t).drop 45).take 33 = x.point := by
  have e : x.payload ++ t = beBytes 4 (publicPrefix x.lineage.prefixes).toNat ++ ([x.lineage.depth] ++
      (beBytes 4 x.lineage.parent.toNat ++ (beBytes 4 x.lineage.child.toNat ++ (x.chain ++ (x.point ++ t))))) := by
    simp [Public.payload]
  refine ⟨?_, ?_, ?_, ?_, ?_, ?_⟩
  · rw [e]; exact word_slice (a := []) _ rfl
  · rw [e]; exact headD_slice _ (by simp)
  · rw [e, ← List.append_assoc]; exact word_slice _ (by simp)
  · rw [e, ← List.append_assoc, ← List.append_assoc]; exact word_slice _ (by simp)
  · rw [e, ← List.append_assoc, ← List.append_assoc, ← List.append_assoc]; exact slice (by simp) hc
  · rw [e, ← List.append_assoc, ← List.append_assoc, ← List.append_assoc, ← List.append_assoc]; exact slice (by simp [hc]) hp

theorem private_sum (x : Private) (t : Bytes) (hc : x.pub.chain.length = 32) (hp : x.secret.length = 32) :
    word (x.payload ++ t) 0 = privatePrefix x.pub.lineage.prefixes ∧ ((x.payload ++ t).drop 4).headD 0 = x.pub.lineage.depth ∧
    word (x.payload ++ t) 5 = x.pub.lineage.parent ∧ word (x.payload ++ t) 9 = x.pub.lineage.child ∧
    ((x.payload ++ t).drop 13).take 32 = x.pub.chain ∧ ((x.payload ++ t).drop 45).headD 0 = 0 ∧
    ((x.payload ++ t).drop 46).take 32 = x.secret := by
  have e : x.payload ++ t = beBytes 4 (privatePrefix x.pub.lineage.prefixes).toNat ++ ([x.pub.lineage.depth] ++
      (beBytes 4 x.pub.lineage.parent.toNat ++ (beBytes 4 x.pub.lineage.child.toNat ++ (x.pub.chain ++ ([0] ++ (x.secret ++ t)))))) := by
    simp [Private.payload]
  refine ⟨?_, ?_, ?_, ?_, ?_, ?_, ?_⟩
  · rw [e]; exact word_slice (a := []) _ rfl
  · rw [e]; exact headD_slice _ (by simp)
  · rw [e, ← List.append_assoc]; exact word_slice _ (by simp)
  · rw [e, ← List.append_assoc, ← List.append_assoc]; exact word_slice _ (by simp)
  · rw [e, ← List.append_assoc, ← List.append_assoc, ← List.append_assoc]; exact slice (by simp) hc
  · rw [e, ← List.append_assoc, ← List.append_assoc, ← List.append_assoc, ← List.append_assoc]; exact headD_slice _ (by simp [hc])
  · rw [e, ← List.append_assoc, ← List.append_assoc, ← List.append_assoc, ← List.append_assoc, ← List.append_assoc]
    exact slice (by simp [hc]) hp

/-- The public key without the private prefix, as an `hd_public` reads it. -/
def neuter (x : Public) : Public := { x with lineage := { x.lineage with prefixes := (publicPrefix x.lineage.prefixes).toUInt64 } }

theorem fromKey_toKey (x : Public) (t : Bytes) (hv : x.valid = true) (hc : x.chain.length = 32) (hp : x.point.length = 33) :
    Public.fromKey (x.payload ++ t) (publicPrefix x.lineage.prefixes) = neuter x := by
  obtain ⟨h1, h2, h3, h4, h5, h6⟩ := payload_sum x t hc hp
  unfold Public.fromKey
  rw [h1, h2, h3, h4, h5, h6, if_neg (fun h => h rfl)]
  cases x
  cases hv
  rfl

theorem toPublic_valid (x : Private) (hv : x.pub.valid = true) (hc : x.pub.chain.length = 32) (hp : x.pub.point.length = 33) :
    x.toPublic b = neuter x.pub := by
  unfold Private.toPublic
  rw [if_pos hv]
  exact fromKey_toKey _ _ hv hc hp

theorem toPublic_invalid (x : Private) (h : x.pub = Public.none) : x.toPublic b = Public.none := by
  unfold Private.toPublic
  rw [h]; rfl

/-- The objects a caller can have: an extended private key, or no key at all. -/
def Good (C : Curve P) (x : Private) : Prop :=
  (∃ k c, Holds C x k c) ∨ (x.pub = Public.none ∧ ¬ verifySecret C x.secret = true)

theorem good_none (C : Curve P) : Good C Private.none := by
  refine .inr ⟨rfl, verify_false C (.inl ?_)⟩
  exact (by decide : beNat (List.replicate 32 0) = 0)

theorem good_make (C : Curve P) {s c : Bytes} (hs : s.length = 32) (hc : c.length = 32) (l : Lineage) :
    Good C (Private.make C s c l) := by
  by_cases hv : verifySecret C s = true
  · exact .inl ⟨_, _, (make_holds' hs hv hc l).1⟩
  · refine .inr ⟨?_, hv⟩
    unfold Private.make Public.fromSecret secretToPublic
    rw [if_neg hv]

/-- BIP32: for a non-hardened index the two derivation functions agree. -/
theorem Bip32_agree (k : Nat) (c : Bytes) (i : Nat) (h : i < 2 ^ 31) :
    Bip32.ckdPub C (Bip32.point C k) c i = (Bip32.ckdPriv C k c i).map fun p => (Bip32.point C p.1, p.2) := by
  unfold Bip32.ckdPub Bip32.ckdPriv
  have hi : ¬ 2 ^ 31 ≤ i := by omega
  simp only [if_neg hi]
  generalize Bip32.hmacSha512 c _ = I
  have e : Bip32.point C (Bip32.parse256 (I.take 32)) + Bip32.point C k =
      Bip32.point C ((Bip32.parse256 (I.take 32) + k) % C.order) := by
    unfold Bip32.point
    rw [mod_smul, add_nsmul]
  have e0 : Bip32.point C (Bip32.parse256 (I.take 32)) + Bip32.point C k = 0 ↔
      (Bip32.parse256 (I.take 32) + k) % C.order = 0 := by
    rw [e]
    unfold Bip32.point
    rw [smul_zero_iff, Nat.mod_mod]
  simp only [e0]
  simp only [e]
  split <;> rfl

theorem neuter_derive (x : Public) (i : UInt32) : (neuter x).derive C b i = neuter (x.derive C b i) := by
  unfold Public.derive
  by_cases hi : 2 ^ 31 ≤ i.toNat
  · simp only [if_pos hi]; decide
  · simp only [if_neg hi]
    show (match addPoint C x.point ((hmac512 b (x.point ++ beBytes 4 i.toNat) x.chain).take 32) with
      | Option.none => Public.none
      | some child => if x.lineage.depth = 255 then Public.none else _) = _
    cases addPoint C x.point ((hmac512 b (x.point ++ beBytes 4 i.toNat) x.chain).take 32) with
    | none => rfl
    | some child =>
      dsimp only
      split <;> rfl

theorem holds_public {x : Private} {k : Nat} {c : Bytes} (h : Holds C x k c) : HoldsPublic C x.pub (Bip32.point C k) c :=
  ⟨h.valid, valid_smul C h.pos h.lt, h.point, h.chain, h.size⟩

theorem holds_toPublic {x : Private} {k : Nat} {c : Bytes} (h : Holds C x k c) : x.toPublic b = neuter x.pub :=
  toPublic_valid x h.valid (by rw [h.chain]; exact h.size) (by rw [h.point]; exact compressed_length C _)

theorem none_derive (i : UInt32) : Public.none.derive C b i = Public.none := by
  unfold Public.derive
  by_cases hi : 2 ^ 31 ≤ i.toNat
  · rw [if_pos hi]
  · rw [if_neg hi]
    have : ∀ s, addPoint C Public.none.point s = none := fun s => by
      unfold addPoint
      have : C.parse Public.none.point = none := parse_null C
      rw [this]
    dsimp only
    rw [this]

/-- One step. -/
theorem derive_good (x : Private) (h : Good C x) (i : UInt32) : Good C (x.derive C b i) ∧
    (i.toNat < 2 ^ 31 → (x.derive C b i).toPublic b = (x.toPublic b).derive C b i) := by
  rcases h with ⟨k, c, h⟩ | ⟨h1, h2⟩
  · rw [holds_toPublic h]
    by_cases hd : x.pub.lineage.depth = 255
    · have e1 := (C62_depth (C := C) (b := b) i).1 x hd
      have e2 := (C62_depth (C := C) (b := b) i).2 (neuter x.pub) hd
      rw [e1, e2]
      exact ⟨good_none C, fun _ => rfl⟩
    · have hp := C62_private (b := b) x k c h hd i
      have hq := C62_public (b := b) x.pub (Bip32.point C k) c (holds_public h) hd i
      rw [neuter_derive]
      by_cases hi : i.toNat < 2 ^ 31
      · rw [Bip32_agree k c i.toNat hi] at hq
        cases hc : Bip32.ckdPriv C k c i.toNat with
        | none =>
          simp only [hc, Option.map_none] at hp hq
          rw [hp, hq]
          exact ⟨good_none C, fun _ => rfl⟩
        | some p =>
          obtain ⟨k', c'⟩ := p
          simp only [hc, Option.map_some] at hp hq
          refine ⟨.inl ⟨k', c', hp.1⟩, fun _ => ?_⟩
          rw [holds_toPublic hp.1]
          refine congrArg neuter ?_
          have a1 := hp.1.valid
          have a2 := hp.1.point
          have a3 := hp.1.chain
          have a4 := hp.2
          have b1 := hq.1.valid
          have b2 := hq.1.point
          have b3 := hq.1.chain
          have b4 := hq.2
          generalize (x.derive C b i).pub = u at a1 a2 a3 a4 ⊢
          generalize x.pub.derive C b i = v at b1 b2 b3 b4 ⊢
          cases u; cases v
          dsimp only at a1 a2 a3 a4 b1 b2 b3 b4
          rw [a1, a2, a3, a4, b1, b2, b3, b4]
      · refine ⟨?_, fun h => absurd h hi⟩
        cases hc : Bip32.ckdPriv C k c i.toNat with
        | none => simp only [hc] at hp; rw [hp]; exact good_none C
        | some p => obtain ⟨k', c'⟩ := p; simp only [hc] at hp; exact .inl ⟨k', c', hp.1⟩
  · have e : x.derive C b i = Private.none := by
      unfold Private.derive
      dsimp only
      have : ∀ s, addSecret C x.secret s = none := fun s => by
        unfold addSecret
        rw [if_neg]
        exact fun h => h2 h.1
      rw [this]
    rw [e, toPublic_invalid x h1, none_derive]
    exact ⟨good_none C, fun _ => rfl⟩

/-- Every constructor gives an extended private key or no key: from entropy, from a secret and chain code, from a serialised key and
from text; and so does every derivation. -/
theorem C62_constructed (C : Curve P) (b : Build) :
    (∀ seed prefixes, seed.length ≤ 100000 → Good C (Private.fromEntropy C b seed prefixes)) ∧
    (∀ s c prefixes, s.length = 32 → c.length = 32 → Good C (Private.fromPrivate C s c prefixes)) ∧
    (∀ key prefixes, key.length = 82 → Good C (Private.fromKey C key prefixes)) ∧
    (∀ text prefixes, Good C (Private.fromString C text prefixes)) ∧
    (∀ text prefix_, Good C (Private.fromStringPublic C text prefix_)) ∧
    (∀ x, Good C x → ∀ i, Good C (x.derive C b i)) := by
  have hfp : ∀ s c prefixes, s.length = 32 → c.length = 32 → Good C (Private.fromPrivate C s c prefixes) := fun s c p hs hc => by
    by_cases hv : verifySecret C s = true
    · rw [fromPrivate_valid C hv]; exact good_make C hs hc _
    · rw [fromPrivate_invalid C hv]; exact .inr ⟨rfl, hv⟩
  have hk : ∀ key prefixes, key.length = 82 → Good C (Private.fromKey C key prefixes) := fun key p hl => by
    unfold Private.fromKey
    split
    · exact good_none C
    · split
      · exact good_none C
      · exact good_make C (by simp [hl]) (by simp [hl]) _
  have hd : ∀ text key, decodeKey text = some key → key.length = 82 := fun text key h => by
    unfold decodeKey at h
    split at h
    · split at h
      · injection h with h; subst h; assumption
      · cases h
    · cases h
  refine ⟨?_, hfp, hk, ?_, ?_, fun x h i => (derive_good x h i).1⟩
  · intro seed p hs
    have he : hmac512 b seed seedKey = Bip32.hmacSha512 seedKey seed := hmac_eq seed seedKey hs (by simp [seedKey])
    unfold Private.fromEntropy
    rw [he]
    have hI := hmac_length seedKey seed
    generalize Bip32.hmacSha512 seedKey seed = I at hI ⊢
    exact hfp _ _ _ (by simp [hI]) (by simp [hI])
  · intro text p
    unfold Private.fromString
    cases h : decodeKey text with
    | none => exact good_none C
    | some key => exact hk _ _ (hd _ _ h)
  · intro text p
    unfold Private.fromStringPublic
    cases h : decodeKey text with
    | none => exact good_none C
    | some key => exact hk _ _ (hd _ _ h)

/-- A watch-only wallet sees the keys of the spending wallet: along any path of non-hardened indices, deriving privately and
publishing the result is the same as publishing and deriving publicly. -/
theorem C62_path (x : Private) (h : Good C x) (path : List UInt32) (hp : ∀ i ∈ path, i.toNat < 2 ^ 31) :
    (path.foldl (fun y i => y.derive C b i) x).toPublic b = path.foldl (fun y i => y.derive C b i) (x.toPublic b) := by
  induction path generalizing x with
  | nil => rfl
  | cons i r ih =>
    simp only [List.foldl_cons]
    obtain ⟨h1, h2⟩ := derive_good (b := b) x h i
    rw [ih _ h1 (fun j hj => hp j (List.mem_cons_of_mem _ hj)), h2 (hp i List.mem_cons_self)]

/-- A public key has no hardened children, and `derive_public` of a private key is its derived key made public. -/
theorem C62_hardened (i : UInt32) : (2 ^ 31 ≤ i.toNat → ∀ x : Public, x.derive C b i = Public.none) ∧
    (∀ x, Good C x → i.toNat < 2 ^ 31 → Private.derivePublic C b x i = (x.toPublic b).derive C b i) := by
  refine ⟨fun h x => ?_, fun x hx hi => (derive_good x hx i).2 hi⟩
  unfold Public.derive
  rw [if_pos h]

/-! ## Text -/
theorem bitcoinHash_length (d : Bytes) (h : d.length ≤ 100000) : (HashFn.bitcoinHash b true d).length = 32 := by
  have := (HashFn.C58_functions b true d (by omega)).2.2.2.2.2.1
  rw [this]
  exact Hash.standard_length (Hash.Standard.sha256 (b := b)) _

theorem decodeKey_eq (d : Bytes) (h : d.length = 82) : decodeKey (Radix.encode58 d) = some d := by
  unfold decodeKey
  rw [Radix.C32_decode_encode]
  exact if_pos h

theorem toPrefixes_eq (p : UInt64) : toPrefixes (privatePrefix p) (publicPrefix p) = p := by
  unfold toPrefixes privatePrefix publicPrefix
  apply UInt64.toNat_inj.1
  have hp := p.toNat_lt
  simp only [UInt64.toNat_or, UInt64.toNat_shiftLeft, UInt32.toNat_toUInt64, UInt64.toNat_toUInt32, UInt64.toNat_shiftRight]
  have h32 : (32 : UInt64).toNat % 64 = 32 := rfl
  rw [h32, Nat.shiftRight_eq_div_pow]
  have h1 : p.toNat / 2 ^ 32 % 2 ^ 32 = p.toNat / 2 ^ 32 := Nat.mod_eq_of_lt (by omega)
  have h2 : (p.toNat / 2 ^ 32) <<< 32 % 2 ^ 64 = (p.toNat / 2 ^ 32) <<< 32 := by
    rw [Nat.shiftLeft_eq]
    exact Nat.mod_eq_of_lt (by omega)
  rw [h1, h2, ← Nat.shiftLeft_add_eq_or_of_lt (Nat.mod_lt _ (by decide)), Nat.shiftLeft_eq]
  omega

theorem public_key_length (x : Public) (hc : x.chain.length = 32) (hp : x.point.length = 33) : (x.toKey b).length = 82 := by
  have hl : x.payload.length = 78 := by simp [Public.payload, hc, hp]
  unfold Public.toKey insertChecksum
  have := bitcoinHash_length (b := b) x.payload (by omega)
  simp [hl, this]

theorem private_key_length (x : Private) (hc : x.pub.chain.length = 32) (hp : x.secret.length = 32) : (x.toKey b).length = 82 := by
  have hl : x.payload.length = 78 := by simp [Private.payload, hc, hp]
  unfold Private.toKey insertChecksum
  have := bitcoinHash_length (b := b) x.payload (by omega)
  simp [hl, this]

/-- The text of an extended private key is read back to the same key, given its prefixes or its public prefix. -/
theorem C62_private_text (x : Private) (k : Nat) (c : Bytes) (h : Holds C x k c) :
    Private.fromString C (x.encoded b) x.pub.lineage.prefixes = x ∧
    Private.fromStringPublic C (x.encoded b) (publicPrefix x.pub.lineage.prefixes) = x := by
  have hc : x.pub.chain.length = 32 := by rw [h.chain]; exact h.size
  have hs : x.secret = beBytes 32 k := by rw [h.secret]; exact Sha.beRep_eq _ _
  have hsl : x.secret.length = 32 := by rw [hs]; simp
  obtain ⟨h1, h2, h3, h4, h5, h6, h7⟩ := private_sum x ((HashFn.bitcoinHash b true x.payload).take 4) hc hsl
  have hk : Private.fromKey C (x.toKey b) x.pub.lineage.prefixes = x := by
    unfold Private.fromKey
    show (if word (x.payload ++ _) 0 ≠ _ then _ else _) = _
    unfold Private.toKey insertChecksum
    rw [h1, h2, h3, h4, h5, h6, h7]
    rw [if_neg (fun h => h rfl), if_neg (fun h => h rfl)]
    have hv : verifySecret C x.secret = true := (verify_iff C _).2 (by
      rw [hs, Der.beNat_beBytes (lt256 C h.lt)]; exact ⟨h.pos, h.lt⟩)
    obtain ⟨m1, m2⟩ := make_holds' (C := C) (s := x.secret) (c := x.pub.chain) hsl hv hc x.pub.lineage
    have hb : beNat x.secret = k := by rw [hs, Der.beNat_beBytes (lt256 C h.lt)]
    rw [hb] at m1
    have a1 := m1.valid
    have a2 := m1.point
    have a3 := m1.chain
    have hp := h.point
    have hv' := h.valid
    have e : (Private.make C x.secret x.pub.chain x.pub.lineage).secret = x.secret := rfl
    clear h1 h2 h3 h4 h5 h6 h7 m1 h
    change (Private.make C x.secret x.pub.chain x.pub.lineage) = x
    generalize Private.make C x.secret x.pub.chain x.pub.lineage = y at *
    cases x with | mk xp xs => cases y with | mk yp ys =>
    cases xp; cases yp
    dsimp only at *
    rw [e, a1, a2, a3, m2, hp, hv']
  have hd : decodeKey (x.encoded b) = some (x.toKey b) := decodeKey_eq _ (private_key_length x hc hsl)
  refine ⟨?_, ?_⟩
  · unfold Private.fromString
    rw [hd]
    exact hk
  · unfold Private.fromStringPublic
    rw [hd]
    unfold Private.fromKeyPublic
    dsimp only
    have : word (x.toKey b) 0 = privatePrefix x.pub.lineage.prefixes := h1
    rw [this, toPrefixes_eq]
    exact hk

/-- The text of an extended public key is read back to the same key, given its prefix or not. (An `hd_public` made from text has
prefixes below `2 ^ 32`; one made from an `hd_private` has none above after `to_public`.) -/
theorem C62_public_text (x : Public) (K : P) (c : Bytes) (h : HoldsPublic C x K c) (hp : x.lineage.prefixes.toNat < 2 ^ 32) :
    Public.fromString (x.encoded b) (some (publicPrefix x.lineage.prefixes)) = x ∧
    Public.fromString (x.encoded b) none = x := by
  have hc : x.chain.length = 32 := by rw [h.chain]; exact h.size
  have hl : x.point.length = 33 := by rw [h.point]; exact compressed_length C _
  have hd : decodeKey (x.encoded b) = some (x.toKey b) := decodeKey_eq _ (public_key_length x hc hl)
  have hk : Public.fromKey (x.toKey b) (publicPrefix x.lineage.prefixes) = x := by
    have := fromKey_toKey x ((HashFn.bitcoinHash b true x.payload).take 4) h.valid hc hl
    refine this.trans ?_
    unfold neuter
    have e : (publicPrefix x.lineage.prefixes).toUInt64 = x.lineage.prefixes := by
      unfold publicPrefix
      apply UInt64.toNat_inj.1
      simp only [UInt32.toNat_toUInt64, UInt64.toNat_toUInt32]
      exact Nat.mod_eq_of_lt hp
    rw [e]
  have h1 : word (x.toKey b) 0 = publicPrefix x.lineage.prefixes := (payload_sum x _ hc hl).1
  unfold Public.fromString
  rw [hd]
  refine ⟨hk, ?_⟩
  dsimp only [Option.getD]
  rw [h1]
  exact hk

omit [DecidableEq P] in
/-- The checksum of the text is not verified: keys which differ in nothing but the last four bytes are read alike. -/
theorem C62_checksum_counterexample (p t u : Bytes) (hp : p.length = 78) (ht : t.length = 4) (hu : u.length = 4) (prefixes : UInt64)
    (prefix_ : Option UInt32) :
    Private.fromString C (Radix.encode58 (p ++ t)) prefixes = Private.fromString C (Radix.encode58 (p ++ u)) prefixes ∧
    Public.fromString (Radix.encode58 (p ++ t)) prefix_ = Public.fromString (Radix.encode58 (p ++ u)) prefix_ := by
  have hs : ∀ n m (r : Bytes), n + m ≤ 78 → ((p ++ r).drop n).take m = (p.drop n).take m := fun n m r h => by
    rw [List.drop_append_of_le_length (by omega), List.take_append_of_le_length (by simp; omega)]
  have hh : ∀ n (r : Bytes), n < 78 → ((p ++ r).drop n).headD 0 = (p.drop n).headD 0 := fun n r h => by
    rw [List.drop_append_of_le_length (by omega)]
    have : p.drop n ≠ [] := by rw [Ne, List.drop_eq_nil_iff]; omega
    cases e : p.drop n with
    | nil => exact absurd e this
    | cons => rfl
  have hw : ∀ n (r : Bytes), n + 4 ≤ 78 → word (p ++ r) n = word p n := fun n r h => by unfold word; rw [hs n 4 r h]
  unfold Private.fromString Public.fromString
  rw [decodeKey_eq _ (by simp [hp, ht]), decodeKey_eq _ (by simp [hp, hu])]
  dsimp only
  unfold Private.fromKey Public.fromKey
  constructor
  · rw [hw 0 t (by omega), hw 5 t (by omega), hw 9 t (by omega), hh 4 t (by omega), hh 45 t (by omega), hs 46 32 t (by omega),
      hs 13 32 t (by omega), hw 0 u (by omega), hw 5 u (by omega), hw 9 u (by omega), hh 4 u (by omega), hh 45 u (by omega),
      hs 46 32 u (by omega), hs 13 32 u (by omega)]
  · rw [hw 0 t (by omega), hw 5 t (by omega), hw 9 t (by omega), hh 4 t (by omega), hs 45 33 t (by omega),
      hs 13 32 t (by omega), hw 0 u (by omega), hw 5 u (by omega), hw 9 u (by omega), hh 4 u (by omega), 
      hs 45 33 u (by omega), hs 13 32 u (by omega)]

/-! ## A concrete case -/

/-- The secret five, over an instance of the curve contract, is a key; its chain code is thirty-two bytes of seven. -/
def exampleKey : Private := Private.make Toy.curve (beBytes 32 5) (List.replicate 32 7) ⟨0x0488ade40488b21e, 0, 0, 0⟩
theorem example_holds : Holds Toy.curve exampleKey 5 (List.replicate 32 7) :=
  (make_holds (C := Toy.curve) (k := 5) (by decide) (by decide) (by decide) _).1

/-- `C62_private`, `C62_public`, `C62_path` and the text theorems apply to it. -/
example : Good Toy.curve exampleKey ∧ exampleKey.pub.lineage.depth ≠ 255 := ⟨.inl ⟨_, _, example_holds⟩, by
  rw [exampleKey, (make_holds (C := Toy.curve) (k := 5) (by decide) (by decide) (by decide) _).2]; decide⟩
example : (([1, 2, 3] : List UInt32).foldl (fun y i => y.derive Toy.curve Build.portable i) exampleKey).toPublic Build.portable =
    ([1, 2, 3] : List UInt32).foldl (fun y i => y.derive Toy.curve Build.portable i) (exampleKey.toPublic Build.portable) :=
  C62_path _ (.inl ⟨_, _, example_holds⟩) _ (by decide)
example : HoldsPublic Toy.curve exampleKey.pub (Bip32.point Toy.curve 5) (List.replicate 32 7) := holds_public example_holds

end Verif.Hd
