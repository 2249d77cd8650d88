import Verif.Model.Bip38
import Verif.Spec.Bip38
import Verif.Props.Wallet
import Verif.Props.Scrypt
import Verif.Props.Aes
import Verif.Props.Stealth
/-!
# C72: encrypted keys
-/
namespace Verif.Bip38
open Verif Verif.Ec Verif.Wallet Verif.Spec.Wallet
open Verif.Sha (Build)
open Verif.Stealth (secretToPublic_some secretToPublic_of)
open Verif.Spec.Bip38 (Owner addresshash flagbyte privateKey multipliedKey confirmation token)
variable {P : Type} [AddCommGroup P] [DecidableEq P] {C : Curve P} {b : Build} {normal : Bytes → Bytes}

/-! ## Sizes -/

theorem mulAdd_length (m base : Nat) : ∀ (l : List Nat) (c : Nat), (Radix.mulAdd m base l c).length = l.length
  | [], _ => rfl
  | _ :: l, _ => by simp [Radix.mulAdd, mulAdd_length m base l]

theorem pack_length (d : Bytes) : ∀ ix : List Nat, (d.foldl (fun ix b => Radix.packValue ix b.toNat) ix).length = ix.length := by
  induction d with
  | nil => intro ix; rfl
  | cons a d ih => intro ix; rw [List.foldl_cons, ih, Radix.packValue]; simp [mulAdd_length]

theorem encode58_length (d : Bytes) : (Radix.encode58 d).length ≤ 2 * d.length + 1 := by
  unfold Radix.encode58 Radix.fromNonzero
  have h1 : Radix.leadingZeros d ≤ d.length := (List.takeWhile_sublist _).length_le
  simp only [List.length_append, List.length_replicate, List.length_map]
  have h2 : ∀ l : List Nat, (l.dropWhile (· == 0)).length ≤ l.length := fun l => (List.dropWhile_sublist _).length_le
  refine Nat.le_trans (Nat.add_le_add_left (h2 _) _) ?_
  rw [pack_length, List.length_replicate]
  omega

theorem flat32 (f : Nat → Bytes) (h : ∀ i, (f i).length = 32) : ∀ n, ((List.range n).flatMap f).length = 32 * n
  | 0 => rfl
  | n + 1 => by rw [List.range_succ, List.flatMap_append, List.length_append, flat32 f h n]; simp [h]; omega

theorem derive_length (P S : Bytes) (n : Nat) : (Spec.Scrypt.derive P S n).length = n := by
  unfold Spec.Scrypt.derive Spec.Mac.pbkdf2
  rw [List.length_take, flat32 _ (fun i => ?_)]
  · omega
  · show (Spec.Mac.hmac Spec.Hash.sha256.digest 64 P _).length = 32
    exact Hmac.hmac_length (Hash.Standard.sha256 (b := Build.portable)) _ _

theorem scrypt_length (P S : Bytes) (w r p n : Nat) : (Spec.Bip38.scrypt P S w r p n).length = n := derive_length ..

theorem aesE_length (d k : Bytes) : (Aes.encrypt d k).length = 16 := by rw [Aes.encrypt_eq, Aes.add_length]
theorem aesD_length (d k : Bytes) (hk : k.length = 32) : (Aes.decrypt d k).length = 16 := by rw [Aes.decrypt_eq _ _ hk, Aes.add_length]

/-! ## Calls of scrypt -/

/-- The call gets the memory it asks for and each of its `p` blocks runs once. -/
def Run.Good (x : Run) (p : Nat) : Prop := x.memory = Scrypt.Memory.enough ∧ x.order.Perm (List.range p)

theorem token_eq {x : Run} (hx : x.Good 8) (d s : Bytes) (hd : d.length + 512 ≤ 2 ^ 61) (hs : s.length ≤ 100000) :
    scryptToken b x d s = Spec.Bip38.scrypt d s 16384 8 8 32 := by
  unfold scryptToken
  rw [hx.1]
  exact (Scrypt.C70_scrypt b x.quarter 16384 8 8 (by decide) (by decide) (by decide) (by decide) x.order hx.2 d s hd (by omega) 32).2

theorem private_eq {x : Run} (hx : x.Good 8) (d s : Bytes) (hd : d.length + 512 ≤ 2 ^ 61) (hs : s.length ≤ 100000) :
    scryptPrivate b x d s = Spec.Bip38.scrypt d s 16384 8 8 64 := by
  unfold scryptPrivate
  rw [hx.1]
  exact (Scrypt.C70_scrypt b x.quarter 16384 8 8 (by decide) (by decide) (by decide) (by decide) x.order hx.2 d s hd (by omega) 64).2

theorem pair_eq {x : Run} (hx : x.Good 1) (d s : Bytes) (hd : d.length ≤ 100000) (hs : s.length ≤ 100000) :
    scryptPair b x d s = Spec.Bip38.scrypt d s 1024 1 1 64 := by
  unfold scryptPair
  rw [hx.1]
  exact (Scrypt.C70_scrypt b x.quarter 1024 1 1 (by decide) (by decide) (by decide) (by decide) x.order hx.2 d s (by omega) (by omega) 64).2

/-! ## Exclusive or -/

theorem xorOffset_eq (n i j : Nat) (x y : Bytes) (hx : i + n ≤ x.length) (hy : j + n ≤ y.length) :
    xorOffset n i j x y = Spec.Bip38.xor ((x.drop i).take n) ((y.drop j).take n) := by
  apply List.ext_getElem
  · simp [xorOffset, Spec.Bip38.xor]; omega
  · intro k h1 h2
    have hk : k < n := by simpa [xorOffset] using h1
    simp only [xorOffset, Spec.Bip38.xor, List.getElem_map, List.getElem_range, List.getElem_zipWith, List.getElem_take, List.getElem_drop]
    rw [List.getD_eq_getElem _ _ (by omega), List.getD_eq_getElem _ _ (by omega)]
    simp only [Nat.add_comm]

theorem xor_length (x y : Bytes) : (Spec.Bip38.xor x y).length = min x.length y.length := List.length_zipWith

theorem xor_twice (x y : Bytes) (h : x.length = y.length) : Spec.Bip38.xor (Spec.Bip38.xor x y) y = x := by
  apply List.ext_getElem
  · simp [Spec.Bip38.xor, h]
  · intro k h1 h2
    simp only [Spec.Bip38.xor, List.getElem_zipWith]
    rw [UInt8.xor_assoc, UInt8.xor_self, UInt8.xor_zero]

theorem xor_append (a c x y : Bytes) (h : a.length = x.length) : Spec.Bip38.xor (a ++ c) (x ++ y) = Spec.Bip38.xor a x ++ Spec.Bip38.xor c y :=
  List.zipWith_append h

theorem join_xor (s h : Bytes) (hs : s.length = 32) (hh : h.length = 32) :
    xorOffset 32 0 0 (Spec.Bip38.xor (s.take 16) (h.take 16) ++ Spec.Bip38.xor (s.drop 16) (h.drop 16)) h = s := by
  have e : Spec.Bip38.xor (s.take 16) (h.take 16) ++ Spec.Bip38.xor (s.drop 16) (h.drop 16) = Spec.Bip38.xor s h := by
    rw [← xor_append _ _ _ _ (by simp [hs, hh]), List.take_append_drop, List.take_append_drop]
  have hl : (Spec.Bip38.xor s h).length = 32 := by rw [xor_length, hs, hh]; rfl
  rw [e, xorOffset_eq _ _ _ _ _ (by omega) (by omega), List.drop_zero, List.drop_zero, List.take_of_length_le (by omega),
    List.take_of_length_le (by omega), xor_twice _ _ (by omega)]

/-! ## Parts -/

theorem slice_mid {i j : Nat} (v A X R : Bytes) (e : v = A ++ (X ++ R)) (hA : A.length = i) (hX : i + X.length = j) : slice v i j = X := by
  subst hA hX e
  unfold slice
  rw [List.drop_left, Nat.add_sub_cancel_left, List.take_left]

/-- A checksum appended. -/
def withCheck (d : Bytes) : Bytes := d ++ (sha256d d).take 4

theorem insert_check (d : Bytes) (h : d.length ≤ 100000) : insertChecksum b d = withCheck d := insert_eq d h

theorem verify_check (d : Bytes) (h : d.length ≤ 1000) : verifyArray b (withCheck d) = true := by
  have hl : (withCheck d).length = d.length + 4 := checked_length rfl
  rw [verifyArray_iff _ (by omega) (by omega)]
  have : (withCheck d).take ((withCheck d).length - 4) = d := checked_take rfl
  rw [this]
  rfl

/-- The layout of a private key. -/
theorem private_parts (p0 p1 f : UInt8) (s e d1 d2 ck : Bytes) (hs : s.length = 4) (he : e.length = 8) (h1 : d1.length = 8) (h2 : d2.length = 16) :
    let v := [p0, p1, f] ++ s ++ e ++ d1 ++ d2 ++ ck
    flags 2 v = f ∧ salt 2 v = s ∧ entropy 2 v = e ∧ Private.data1 ⟨v⟩ = d1 ∧ Private.data2 ⟨v⟩ = d2 ∧ v.getD 1 0 = p1 ∧ slice v 0 1 = [p0] := by
  intro v
  refine ⟨rfl, ?_, ?_, ?_, ?_, rfl, rfl⟩
  · exact slice_mid v [p0, p1, f] s (e ++ d1 ++ d2 ++ ck) (by simp [v]) rfl (by rw [hs])
  · exact slice_mid v ([p0, p1, f] ++ s) e (d1 ++ d2 ++ ck) (by simp [v]) (by simp [hs]) (by rw [he])
  · exact slice_mid v ([p0, p1, f] ++ s ++ e) d1 (d2 ++ ck) (by simp [v]) (by simp [hs, he]) (by rw [h1])
  · exact slice_mid v ([p0, p1, f] ++ s ++ e ++ d1) d2 ck (by simp [v]) (by simp [hs, he, h1]) (by rw [h2])

/-- The layout of a public key. -/
theorem public_parts (p0 p1 p2 p3 p4 f g : UInt8) (s e d ck : Bytes) (hs : s.length = 4) (he : e.length = 8) (h1 : d.length = 32) :
    let v := [p0, p1, p2, p3, p4, f] ++ s ++ e ++ [g] ++ d ++ ck
    flags 5 v = f ∧ salt 5 v = s ∧ entropy 5 v = e ∧ Public.sign ⟨v⟩ = g ∧ Public.data ⟨v⟩ = d ∧ v.getD 4 0 = p4 ∧ slice v 0 4 = [p0, p1, p2, p3] := by
  intro v
  refine ⟨rfl, ?_, ?_, ?_, ?_, rfl, rfl⟩
  · exact slice_mid v [p0, p1, p2, p3, p4, f] s (e ++ [g] ++ d ++ ck) (by simp [v]) rfl (by rw [hs])
  · exact slice_mid v ([p0, p1, p2, p3, p4, f] ++ s) e ([g] ++ d ++ ck) (by simp [v]) (by simp [hs]) (by rw [he])
  · have : v = ([p0, p1, p2, p3, p4, f] ++ s ++ e) ++ (g :: (d ++ ck)) := by simp [v]
    show v.getD 18 0 = g
    rw [this, List.getD_eq_getElem?_getD, List.getElem?_append_right (by simp [hs, he])]
    simp [hs, he]
  · exact slice_mid v ([p0, p1, p2, p3, p4, f] ++ s ++ e ++ [g]) d ck (by simp [v]) (by simp [hs, he]) (by rw [h1])

/-- The layout of a token. -/
theorem token_parts (c : UInt8) (e point ck : Bytes) (he : e.length = 8) (hp : point.length = 33) :
    let v := [0x2c, 0xe9, 0xb3, 0xe1, 0xff, 0x39, 0xe2, c] ++ e ++ point ++ ck
    Token.context ⟨v⟩ = c ∧ Token.entropy ⟨v⟩ = e ∧ Token.sign ⟨v⟩ ++ Token.data ⟨v⟩ = point ∧
    slice v 0 7 = [0x2c, 0xe9, 0xb3, 0xe1, 0xff, 0x39, 0xe2] := by
  obtain ⟨g, d, rfl⟩ : ∃ g d, point = g :: d := by
    cases point with
    | nil => simp at hp
    | cons g d => exact ⟨g, d, rfl⟩
  intro v
  refine ⟨rfl, ?_, ?_, rfl⟩
  · exact slice_mid v [0x2c, 0xe9, 0xb3, 0xe1, 0xff, 0x39, 0xe2, c] e (g :: d ++ ck) (by simp [v]) rfl (by rw [he])
  · have hd : d.length = 32 := by simpa using hp
    have h1 : Token.sign ⟨v⟩ = [g] :=
      slice_mid v ([0x2c, 0xe9, 0xb3, 0xe1, 0xff, 0x39, 0xe2, c] ++ e) [g] (d ++ ck) (by simp [v]) (by simp [he]) rfl
    have h2 : Token.data ⟨v⟩ = d :=
      slice_mid v ([0x2c, 0xe9, 0xb3, 0xe1, 0xff, 0x39, 0xe2, c] ++ e ++ [g]) d ck (by simp [v]) (by simp [he]) (by rw [hd])
    rw [h1, h2]
    rfl

theorem flags_eq (c l m : Bool) : setFlags c l m = flagbyte c l m := by cases c <;> cases l <;> cases m <;> decide
theorem flag_compressed (c l m : Bool) : (flagbyte c l m &&& 0x20 != 0) = c := by cases c <;> cases l <;> cases m <;> decide
theorem flag_lot (c l m : Bool) : (flagbyte c l m &&& 0x04 != 0) = l := by cases c <;> cases l <;> cases m <;> decide
theorem flag_multiplied (c l m : Bool) : (flagbyte c l m &&& 0xc0 == 0) = m := by cases c <;> cases l <;> cases m <;> decide
theorem sub_add (a v : UInt8) : a + v - a = v := by
  rw [UInt8.add_comm]; simp

/-! ## Addresses -/

/-- The address of a point. -/
theorem salt_point (p : P) (hp : p ≠ 0) (c : Bool) (v : UInt8) (text : Bytes) (ht : Base58Check text (v :: hash160 (serialized C p c))) :
    saltOfPoint C b (C.compressed p) v c = some (addresshash text) ∧
    ∀ s : Bytes, s.length = 4 → (validatePoint C b s (C.compressed p) v c = true ↔ s = addresshash text) := by
  obtain ⟨h1, h2, h3, h4, h5⟩ := C63_address_text (b := b) v (hash160 (serialized C p c)) (hash160_length _)
  have he : (Address.ofHash b (hash160 (serialized C p c)) v).encoded = text := by
    obtain ⟨w, g1, g2⟩ := (check_iff _ _).1 ht
    obtain ⟨w', g3, g4⟩ := (check_iff _ _).1 h1
    have : w = w' := by rw [g2, g4]
    subst this
    rw [← Radix.C32_encode_decode _ _ g1, ← Radix.C32_encode_decode _ _ g3]
  have hl : text.length ≤ 100000 := by
    rw [← he]
    refine Nat.le_trans (encode58_length _) ?_
    have := checked_length (ofHash_value (b := b) (hash160 (serialized C p c)) v (hash160_length _))
    rw [this]; simp [hash160_length]
  have hh : addressHash b (Address.ofHash b (hash160 (serialized C p c)) v) = sha256d text := by
    unfold addressHash; rw [he, hash_eq text hl]
  constructor
  · unfold saltOfPoint saltOf
    rw [C63_key_address p hp c v, if_pos h2, hh]
    rfl
  · intro s hs
    unfold validatePoint validate
    rw [C63_key_address p hp c v, h2, hh, hs]
    simp only [Bool.true_and, beq_iff_eq]
    exact ⟨fun e => e.symm, fun e => e.symm⟩

theorem zero_beNat : beNat (List.replicate 32 0) = 0 := by decide

/-- The address of a valid secret is that of its point. -/
theorem fromPrivate_eq (s : Bytes) (h : 0 < beNat s ∧ beNat s < C.order) (c : Bool) (v : UInt8) :
    Address.fromPrivate C b ⟨s, v.toUInt16, c⟩ = Address.fromPublic C b ⟨C.compressed (beNat s • C.generator), c⟩ v := by
  have hv : (⟨s, v.toUInt16, c⟩ : PrivateKey).valid = true := by
    unfold PrivateKey.valid
    simp only [bne_iff_ne, ne_eq]
    rintro rfl
    rw [zero_beNat] at h
    omega
  unfold Address.fromPrivate
  rw [hv]
  simp only [Bool.not_true, Bool.false_eq_true, if_false]
  unfold PrivateKey.toPublic
  rw [hv, secretToPublic_of h]
  simp only [Bool.not_true, Bool.false_eq_true, if_false]
  rw [show addressVersion v.toUInt16 = v by unfold addressVersion; simp]

theorem fromPrivate_invalid (s : Bytes) (h : ¬ (0 < beNat s ∧ beNat s < C.order)) (c : Bool) (v : UInt8) :
    (Address.fromPrivate C b ⟨s, v.toUInt16, c⟩).valid b = false := by
  have hn : secretToPublic C s = none := by
    unfold secretToPublic
    rw [if_neg (fun e => h ((verify_iff C s).1 e))]
  unfold Address.fromPrivate
  split
  · exact none_invalid
  · rename_i hv
    unfold PrivateKey.toPublic
    rw [if_neg hv, hn]
    exact none_invalid

theorem salt_secret (s : Bytes) (h : 0 < beNat s ∧ beNat s < C.order) (c : Bool) (v : UInt8) (text : Bytes)
    (ht : Base58Check text (v :: hash160 (serialized C (beNat s • C.generator) c))) :
    saltOfSecret C b s v c = some (addresshash text) ∧
    ∀ t : Bytes, t.length = 4 → (validateSecret C b t s v c = true ↔ t = addresshash text) := by
  have := salt_point (b := b) (beNat s • C.generator) (valid_smul C h.1 h.2) c v text ht
  unfold saltOfSecret validateSecret
  rw [fromPrivate_eq s h]
  exact this

theorem hash_length (text : Bytes) : (addresshash text).length = 4 := by simp [addresshash, sha256d_length]

/-! ## Keys encrypted without multiplication -/

theorem cipher_eq (d k : Bytes) (hd : d.length = 16) (hk : k.length = 32) : Aes.encrypt d k = Spec.Bip38.aes k d := Aes.C71_encrypt d k hd hk

theorem halves (P S : Bytes) (w r p : Nat) : ((Spec.Bip38.scrypt P S w r p 64).take 32).length = 32 ∧
    ((Spec.Bip38.scrypt P S w r p 64).drop 32).length = 32 := by simp [scrypt_length]

/-- **C72 (encryption).** A valid secret is encrypted to the BIP38 form of its key with a checksum, an invalid one is refused. -/
theorem C72_encrypt {x : Run} (hx : x.Good 8) (secret passphrase : Bytes) (hs : secret.length = 32)
    (hn : (normal passphrase).length + 512 ≤ 2 ^ 61) (version : UInt8) (compressed : Bool) :
    ((0 < beNat secret ∧ beNat secret < C.order) → ∀ text,
      Base58Check text (version :: hash160 (serialized C (beNat secret • C.generator) compressed)) →
      encrypt C b normal x secret passphrase version compressed =
        some (withCheck (privateKey (normal passphrase) secret text version compressed))) ∧
    (¬ (0 < beNat secret ∧ beNat secret < C.order) → encrypt C b normal x secret passphrase version compressed = none) := by
  constructor
  · intro hv text ht
    unfold encrypt
    rw [(salt_secret (b := b) secret hv compressed version text ht).1]
    dsimp only
    rw [private_eq hx _ _ hn (by rw [hash_length]; decide)]
    obtain ⟨h1, h2⟩ := halves (normal passphrase) (addresshash text) 16384 8 8
    unfold privateKey
    dsimp only
    generalize Spec.Bip38.scrypt (normal passphrase) (addresshash text) 16384 8 8 64 = derived at h1 h2 ⊢
    have e1 : xorOffset 16 0 0 secret (derived.take 32) = Spec.Bip38.xor (secret.take 16) ((derived.take 32).take 16) := by
      rw [xorOffset_eq _ _ _ _ _ (by omega) (by omega)]; rfl
    have e2 : xorOffset 16 16 16 secret (derived.take 32) = Spec.Bip38.xor (secret.drop 16) ((derived.take 32).drop 16) := by
      rw [xorOffset_eq _ _ _ _ _ (by omega) (by omega), List.take_of_length_le (l := secret.drop 16) (by simp; omega),
        List.take_of_length_le (l := (derived.take 32).drop 16) (by rw [List.length_drop, h1])]
    rw [e1, e2]
    have l1 : (Spec.Bip38.xor (secret.take 16) ((derived.take 32).take 16)).length = 16 := by rw [xor_length, List.length_take, List.length_take, h1, hs]; rfl
    have l2 : (Spec.Bip38.xor (secret.drop 16) ((derived.take 32).drop 16)).length = 16 := by rw [xor_length, List.length_drop, List.length_drop, h1, hs]; rfl
    rw [insert_check _ (by simp [privatePrefix, hash_length, aesE_length]), cipher_eq _ _ l1 h2, cipher_eq _ _ l2 h2, flags_eq]
    rfl
  · intro hv
    unfold encrypt saltOfSecret saltOf
    rw [fromPrivate_invalid secret hv]
    rfl

theorem aes_length (d k : Bytes) (hd : d.length = 16) (hk : k.length = 32) : (Spec.Bip38.aes k d).length = 16 := by
  rw [← cipher_eq d k hd hk, aesE_length]

theorem aes_back (d k : Bytes) (hd : d.length = 16) (hk : k.length = 32) : Aes.decrypt (Spec.Bip38.aes k d) k = d := by
  rw [← cipher_eq d k hd hk, Aes.C71_decrypt_encrypt d k hd hk]

theorem private_length {P secret text : Bytes} (hs : secret.length = 32) (v : UInt8) (c : Bool) : (privateKey P secret text v c).length = 39 := by
  obtain ⟨h1, h2⟩ := halves P (addresshash text) 16384 8 8
  unfold privateKey
  dsimp only
  generalize Spec.Bip38.scrypt P (addresshash text) 16384 8 8 64 = derived at h1 h2 ⊢
  simp only [List.length_append, hash_length]
  rw [aes_length _ _ (by rw [xor_length, List.length_take, List.length_take, h1, hs]; rfl) h2,
    aes_length _ _ (by rw [xor_length, List.length_drop, List.length_drop, h1, hs]; rfl) h2]
  rfl

/-- **C72 (decryption).** The BIP38 form of a key is decrypted to the secret, the version and the compression it was made of. -/
theorem C72_decrypt {x y : Run} (hx : x.Good 8) (secret passphrase : Bytes) (hs : secret.length = 32)
    (hv : 0 < beNat secret ∧ beNat secret < C.order) (hn : (normal passphrase).length + 512 ≤ 2 ^ 61) (version : UInt8) (c : Bool)
    (text : Bytes) (ht : Base58Check text (version :: hash160 (serialized C (beNat secret • C.generator) c))) :
    decrypt C b normal x y (withCheck (privateKey (normal passphrase) secret text version c)) passphrase = some (secret, version, c) := by
  have hlen := private_length (P := normal passphrase) (text := text) hs version c
  have hver := verify_check (b := b) (privateKey (normal passphrase) secret text version c) (by rw [hlen]; decide)
  obtain ⟨h1, h2⟩ := halves (normal passphrase) (addresshash text) 16384 8 8
  have hsc := private_eq (b := b) hx (normal passphrase) (addresshash text) hn (by rw [hash_length]; decide)
  obtain ⟨ck, hck⟩ : ∃ ck, withCheck (privateKey (normal passphrase) secret text version c) = privateKey (normal passphrase) secret text version c ++ ck :=
    ⟨_, rfl⟩
  rw [hck] at hver ⊢
  unfold privateKey at hver ⊢
  dsimp only at hver ⊢
  generalize hd : Spec.Bip38.scrypt (normal passphrase) (addresshash text) 16384 8 8 64 = derived at h1 h2 hsc hver ⊢
  have l1 : (Spec.Bip38.xor (secret.take 16) ((derived.take 32).take 16)).length = 16 := by rw [xor_length, List.length_take, List.length_take, h1, hs]; rfl
  have l2 : (Spec.Bip38.xor (secret.drop 16) ((derived.take 32).drop 16)).length = 16 := by rw [xor_length, List.length_drop, List.length_drop, h1, hs]; rfl
  have a1 := aes_length _ _ l1 h2
  have a2 := aes_length _ _ l2 h2
  have b1 := aes_back _ _ l1 h2
  have b2 := aes_back _ _ l2 h2
  generalize Spec.Bip38.aes (derived.drop 32) (Spec.Bip38.xor (secret.take 16) ((derived.take 32).take 16)) = e1 at a1 b1 hver ⊢
  generalize Spec.Bip38.aes (derived.drop 32) (Spec.Bip38.xor (secret.drop 16) ((derived.take 32).drop 16)) = e2 at a2 b2 hver ⊢
  have shape : [0x01, 0x42 + version, flagbyte c false false] ++ addresshash text ++ e1 ++ e2 ++ ck =
      [0x01, 0x42 + version, flagbyte c false false] ++ addresshash text ++ e1.take 8 ++ e1.drop 8 ++ e2 ++ ck := by
    conv_lhs => rw [← List.take_append_drop 8 e1]
    simp only [List.append_assoc]
  rw [shape] at hver ⊢
  obtain ⟨q1, q2, q3, q4, q5, q6, q7⟩ := private_parts 0x01 (0x42 + version) (flagbyte c false false) (addresshash text) (e1.take 8) (e1.drop 8) e2 ck
    (hash_length text) (by simp [a1]) (by simp [a1]) a2
  generalize [0x01, 0x42 + version, flagbyte c false false] ++ addresshash text ++ e1.take 8 ++ e1.drop 8 ++ e2 ++ ck = v at hver q1 q2 q3 q4 q5 q6 q7 ⊢
  have hm : Private.multiplied ⟨v⟩ = false := by unfold Private.multiplied; rw [q1]; exact flag_multiplied c false false
  have hcm : compressed 2 v = c := by unfold compressed; rw [q1]; exact flag_compressed c false false
  have hvn : Private.version ⟨v⟩ = version := by unfold Private.version; rw [hm, q6]; exact sub_add _ _
  have hval : Private.valid b ⟨v⟩ = true := by unfold Private.valid; rw [hver, q7]; rfl
  unfold decrypt
  dsimp only
  rw [hval, hm, hvn, hcm]
  simp only [Bool.not_true, Bool.false_eq_true, if_false]
  unfold decryptSecret
  dsimp only
  rw [q2, q3, q4, q5, hsc, List.take_append_drop, b1, b2, hvn, hcm]
  rw [join_xor _ _ hs h1, ((salt_secret (b := b) secret hv c version text ht).2 _ (hash_length _)).2 rfl]
  rfl

/-! ## Tokens -/

/-- The salt of the owner. -/
def ownerSaltOf : Owner → Bytes
  | .plain s => s
  | .lot s _ _ => s

theorem entropy_length {o : Owner} (h : o.OK) : o.entropy.length = 8 := by
  cases o with
  | plain s => exact h
  | lot s l q =>
    obtain ⟨h, -, -⟩ : _ ∧ _ ∧ _ := h
    simp [Owner.entropy, h, beBytes_length]

/-- The factor as it is computed. -/
theorem factor_eq {x : Run} (hx : x.Good 8) {o : Owner} (ho : o.OK) (Q : Bytes) (hn : Q.length + 512 ≤ 2 ^ 61) :
    (if o.isLot then HashFn.bitcoinHash2 b true (scryptToken b x Q (ownerSaltOf o)) o.entropy else scryptToken b x Q (ownerSaltOf o)) = o.factor Q := by
  have hl : (ownerSaltOf o).length ≤ 100000 := by
    cases o with
    | plain s => show s.length ≤ _; rw [show s.length = 8 from ho]; decide
    | lot s l q => show s.length ≤ _; rw [show s.length = 4 from ho.1]; decide
  rw [token_eq hx Q _ hn hl]
  have he := entropy_length ho
  have hsl := scrypt_length Q (ownerSaltOf o) 16384 8 8 32
  have hfa : o.factor Q = if o.isLot then sha256d (Spec.Bip38.scrypt Q (ownerSaltOf o) 16384 8 8 32 ++ o.entropy)
      else Spec.Bip38.scrypt Q (ownerSaltOf o) 16384 8 8 32 := by
    cases o with
    | plain s => rw [Owner.factor, Owner.isLot, ownerSaltOf]; rw [if_neg Bool.false_ne_true]
    | lot s l q => rw [Owner.factor, Owner.isLot, ownerSaltOf]; rw [if_pos rfl]
  rw [hfa]
  generalize Spec.Bip38.scrypt Q (ownerSaltOf o) 16384 8 8 32 = S at *
  clear hfa hx hn hl
  rw [(HashFn.C58_two_parts b true S o.entropy (by rw [List.length_append, hsl, he]; decide)).2, sha256d]

theorem tokenWith_eq {x : Run} (hx : x.Good 8) {o : Owner} (ho : o.OK) (passphrase : Bytes) (hn : (normal passphrase).length + 512 ≤ 2 ^ 61) :
    createTokenWith C b normal x passphrase (ownerSaltOf o) o.entropy (tokenPrefix o.isLot) =
      if verifySecret C (o.factor (normal passphrase)) then
        some (withCheck (token o (C.compressed (beNat (o.factor (normal passphrase)) • C.generator)))) else none := by
  have hlot : decide ((ownerSaltOf o).length = 4) = o.isLot := by
    cases o with
    | plain s => show decide (s.length = 4) = false; rw [show s.length = 8 from ho]; rfl
    | lot s l q => show decide (s.length = 4) = true; rw [show s.length = 4 from ho.1]; rfl
  unfold createTokenWith
  dsimp only
  rw [hlot, factor_eq hx ho _ hn]
  generalize o.factor (normal passphrase) = F
  unfold secretToPublic
  by_cases hv : verifySecret C F = true
  · rw [if_pos hv, if_pos hv]
    dsimp only
    rw [insert_check _ (by simp [tokenPrefix, entropy_length ho, compressed_length])]
    generalize C.compressed (beNat F • C.generator) = q
    cases o with
    | plain s => rw [token]; rfl
    | lot s l q => rw [token]; rfl
  · rw [if_neg hv, if_neg hv]

/-- **C72 (token).** The intermediate code for a passphrase, without lot and sequence. It is refused if the factor is not valid. -/
theorem C72_token {x : Run} (hx : x.Good 8) (passphrase salt : Bytes) (hs : salt.length = 8) (hn : (normal passphrase).length + 512 ≤ 2 ^ 61) :
    createToken C b normal x passphrase salt =
      if 0 < beNat ((Owner.plain salt).factor (normal passphrase)) ∧ beNat ((Owner.plain salt).factor (normal passphrase)) < C.order then
        some (withCheck (token (.plain salt) (C.compressed (beNat ((Owner.plain salt).factor (normal passphrase)) • C.generator)))) else none := by
  have := tokenWith_eq (C := C) (b := b) (normal := normal) hx (o := .plain salt) hs passphrase hn
  simp only [verify_iff] at this
  exact this

/-- **C72 (token with lot and sequence).** It is refused if a number is out of range. If the factor is not valid the call reports success
and leaves the out argument (a defect: the documentation says that it fails). -/
theorem C72_token_lot_partial {x : Run} (hx : x.Good 8) (out passphrase salt : Bytes) (hs : salt.length = 4) (lot sequence : UInt32)
    (hn : (normal passphrase).length + 512 ≤ 2 ^ 61) :
    (¬ (lot.toNat < 2 ^ 20 ∧ sequence.toNat < 2 ^ 12) → createTokenLot C b normal x out passphrase salt lot sequence = (false, out)) ∧
    (lot.toNat < 2 ^ 20 ∧ sequence.toNat < 2 ^ 12 →
      let factor := (Owner.lot salt lot.toNat sequence.toNat).factor (normal passphrase)
      createTokenLot C b normal x out passphrase salt lot sequence = (true, if 0 < beNat factor ∧ beNat factor < C.order then
        withCheck (token (.lot salt lot.toNat sequence.toNat) (C.compressed (beNat factor • C.generator))) else out)) := by
  have hl : lot > 1048575 ↔ ¬ lot.toNat < 2 ^ 20 := by
    rw [gt_iff_lt, UInt32.lt_iff_toNat_lt]; show 1048575 < _ ↔ _; omega
  have hq : sequence > 4095 ↔ ¬ sequence.toNat < 2 ^ 12 := by
    rw [gt_iff_lt, UInt32.lt_iff_toNat_lt]; show 4095 < _ ↔ _; omega
  constructor
  · intro h
    unfold createTokenLot
    rw [if_pos]
    rw [hl, hq]
    omega
  · intro h
    have ho : (Owner.lot salt lot.toNat sequence.toNat).OK := ⟨hs, h.1, h.2⟩
    have := tokenWith_eq (C := C) (b := b) (normal := normal) hx ho passphrase hn
    simp only [verify_iff] at this
    have he : salt ++ beBytes 4 ((lot <<< 12) ||| sequence).toNat = (Owner.lot salt lot.toNat sequence.toNat).entropy := by
      show _ = salt ++ beBytes 4 (4096 * lot.toNat + sequence.toNat)
      congr 2
      rw [UInt32.toNat_or, UInt32.toNat_shiftLeft]
      show (lot.toNat <<< 12) % 2 ^ 32 ||| sequence.toNat = _
      have h1 : lot.toNat <<< 12 = lot.toNat * 2 ^ 12 := Nat.shiftLeft_eq ..
      rw [Nat.mod_eq_of_lt (by rw [h1]; omega), ← Nat.shiftLeft_add_eq_or_of_lt h.2, h1]
      omega
    dsimp only
    unfold createTokenLot
    rw [if_neg (by rw [hl, hq]; omega)]
    dsimp only
    rw [he]
    refine Prod.ext rfl ?_
    show (createTokenWith C b normal x passphrase (ownerSaltOf (.lot salt lot.toNat sequence.toNat)) _ (tokenPrefix (Owner.lot salt lot.toNat sequence.toNat).isLot)).getD out = _
    rw [this]
    split <;> rfl

/-! ## Key pairs -/

theorem hash24 (seed : Bytes) (h : seed.length = 24) : HashFn.bitcoinHash b true seed = sha256d seed := hash_eq seed (by omega)

theorem pair_aux {x : Run} (hx : x.Good 1) {o : Owner} (ho : o.OK) (k : Nat) (hk : 0 < k ∧ k < C.order) (seed : Bytes) (hs : seed.length = 24)
    (version : UInt8) (c : Bool) (F point : Bytes) (f : Nat) (hF : HashFn.bitcoinHash b true seed = F) (hFf : beNat F = f)
    (hpoint : point = C.compressed (k • C.generator)) :
    (0 < f ∧ f < C.order → ∀ text, Base58Check text (version :: hash160 (serialized C ((k * f) • C.generator) c)) →
      createKeyPair C b x (withCheck (token o point)) seed version c =
        some (withCheck (multipliedKey o point seed text version c),
          withCheck (confirmation o point (C.compressed (f • C.generator)) text version c), C.compressed ((k * f) • C.generator))) ∧
    (¬ (0 < f ∧ f < C.order) → createKeyPair C b x (withCheck (token o point)) seed version c = none) := by
  have hpl : point.length = 33 := by rw [hpoint]; exact compressed_length ..
  have hel := entropy_length ho
  have hver : verifyArray b (withCheck (token o point)) = true := verify_check _ (by simp [token, hel, hpl])
  obtain ⟨ck, hck⟩ : ∃ ck, withCheck (token o point) = token o point ++ ck := ⟨_, rfl⟩
  rw [hck] at hver ⊢
  unfold token at hver ⊢
  obtain ⟨q1, q2, q3, q4⟩ := token_parts (if o.isLot then 0x51 else 0x53) o.entropy point ck hel hpl
  generalize [0x2c, 0xe9, 0xb3, 0xe1, 0xff, 0x39, 0xe2, if o.isLot then 0x51 else 0x53] ++ o.entropy ++ point ++ ck = v at hver q1 q2 q3 q4 ⊢
  have hlot : Token.lot ⟨v⟩ = o.isLot := by unfold Token.lot; rw [q1]; cases o <;> rfl
  have hval : Token.valid b ⟨v⟩ = true := by unfold Token.valid; rw [hlot, q1, q4, hver]; cases o <;> rfl
  have hparse : C.parse point = some (k • C.generator) := by rw [hpoint]; exact C.parse_compressed _ (valid_smul C hk.1 hk.2)
  constructor
  · intro hf text ht
    have hmul : mulPoint C point F = some (C.compressed ((k * f) • C.generator)) := by
      unfold mulPoint
      rw [hparse]
      dsimp only
      rw [if_pos ((verify_iff C _).2 (by rw [hFf]; exact hf)), hFf, mul_nsmul]
    have hne : (k * f) • C.generator ≠ 0 := by
      rw [Ne, C.cyclic, C.prime.dvd_mul]
      rintro (h | h)
      · exact absurd (Nat.le_of_dvd hk.1 h) (by omega)
      · exact absurd (Nat.le_of_dvd hf.1 h) (by omega)
    unfold createKeyPair
    dsimp only
    rw [hval, hF, q3, hmul]
    simp only [Bool.not_true, Bool.false_eq_true, if_false]
    rw [(salt_point (b := b) _ hne c version text ht).1]
    dsimp only
    rw [q2, hlot, pair_eq hx _ _ (by rw [hpl]; decide) (by rw [List.length_append, hash_length, hel]; decide), flags_eq]
    obtain ⟨h1, h2⟩ := halves point (addresshash text ++ o.entropy) 1024 1 1
    unfold createPublic createPrivate multipliedKey confirmation
    rw [secretToPublic_of (by rw [hFf]; exact hf), hFf]
    dsimp only
    generalize Spec.Bip38.scrypt point (addresshash text ++ o.entropy) 1024 1 1 64 = derived at h1 h2 ⊢
    generalize hA : derived.take 32 = A at h1 ⊢
    generalize hB : derived.drop 32 = B at h2 ⊢
    clear hA hB hF hFf hpoint hf ht hmul hne hver hval hlot q1 q2 q3 q4 hparse
    have e1 : xorOffset 16 0 0 seed A = Spec.Bip38.xor (seed.take 16) (A.take 16) := by
      rw [xorOffset_eq _ _ _ _ _ (by omega) (by omega)]; rfl
    have l1 : (Spec.Bip38.xor (seed.take 16) (A.take 16)).length = 16 := by rw [xor_length, List.length_take, List.length_take, h1, hs]; rfl
    rw [e1, cipher_eq _ _ l1 h2]
    have a1 := aes_length _ _ l1 h2
    generalize Spec.Bip38.aes B (Spec.Bip38.xor (seed.take 16) (A.take 16)) = part1 at a1 ⊢
    have s1 : slice part1 8 16 = part1.drop 8 := List.take_of_length_le (by rw [List.length_drop, a1])
    have s2 : slice seed 16 24 = seed.drop 16 := List.take_of_length_le (by rw [List.length_drop, hs])
    have s3 : slice part1 0 8 = part1.take 8 := rfl
    have l2 : (part1.drop 8 ++ seed.drop 16).length = 16 := by rw [List.length_append, List.length_drop, List.length_drop, a1, hs]
    have e2 : xorOffset 16 0 16 (part1.drop 8 ++ seed.drop 16) A = Spec.Bip38.xor (part1.drop 8 ++ seed.drop 16) (A.drop 16) := by
      rw [xorOffset_eq _ _ _ _ _ (by omega) (by omega), List.drop_zero, List.take_of_length_le (by omega),
        List.take_of_length_le (l := A.drop 16) (by rw [List.length_drop, h1])]
    have l3 : (Spec.Bip38.xor (part1.drop 8 ++ seed.drop 16) (A.drop 16)).length = 16 := by rw [xor_length, l2, List.length_drop, h1]; rfl
    rw [s1, s2, s3, e2, cipher_eq _ _ l3 h2]
    have a3 := aes_length _ _ l3 h2
    have hg : (C.compressed (f • C.generator)).length = 33 := compressed_length ..
    generalize C.compressed (f • C.generator) = pb at hg ⊢
    have hh : pointHash pb = pb.drop 1 := List.take_of_length_le (by rw [List.length_drop, hg])
    have hhl : (pb.drop 1).length = 32 := by rw [List.length_drop, hg]
    have e3 : xorOffset 16 0 0 (pb.drop 1) A = Spec.Bip38.xor ((pb.drop 1).take 16) (A.take 16) := by
      rw [xorOffset_eq _ _ _ _ _ (by omega) (by omega)]; rfl
    have e4 : xorOffset 16 16 16 (pb.drop 1) A = Spec.Bip38.xor (pb.drop 17) (A.drop 16) := by
      rw [xorOffset_eq _ _ _ _ _ (by omega) (by omega), List.drop_drop, List.take_of_length_le (by rw [List.length_drop, hg]),
        List.take_of_length_le (l := A.drop 16) (by rw [List.length_drop, h1])]
    have l4 : (Spec.Bip38.xor ((pb.drop 1).take 16) (A.take 16)).length = 16 := by rw [xor_length, List.length_take, List.length_take, h1, hhl]; rfl
    have l5 : (Spec.Bip38.xor (pb.drop 17) (A.drop 16)).length = 16 := by rw [xor_length, List.length_drop, List.length_drop, h1, hg]; rfl
    have a4 := aes_length _ _ l4 h2
    have a5 := aes_length _ _ l5 h2
    rw [hh, e3, e4, cipher_eq _ _ l4 h2, cipher_eq _ _ l5 h2, insert_check, insert_check]
    · rfl
    · simp only [publicPrefix, List.length_append, List.length_cons, List.length_nil, hash_length, hel, a4, a5]; omega
    · simp [privatePrefix, hash_length, hel, a3, a1]
  · intro hf
    unfold createKeyPair
    dsimp only
    rw [hval, hF, q3]
    simp only [Bool.not_true, Bool.false_eq_true, if_false]
    unfold mulPoint
    rw [hparse]
    dsimp only
    rw [if_neg (fun e => hf (by rw [← hFf]; exact (verify_iff C _).1 e))]

/-- **C72 (key pair).** From an intermediate code and a seed: the BIP38 forms of the private key and the confirmation code, and the point;
refused if the factor of the seed is not valid. -/
theorem C72_pair {x : Run} (hx : x.Good 1) {o : Owner} (ho : o.OK) (k : Nat) (hk : 0 < k ∧ k < C.order) (seed : Bytes) (hs : seed.length = 24)
    (version : UInt8) (c : Bool) :
    let f := beNat (sha256d seed)
    let point := C.compressed (k • C.generator)
    (0 < f ∧ f < C.order → ∀ text, Base58Check text (version :: hash160 (serialized C ((k * f) • C.generator) c)) →
      createKeyPair C b x (withCheck (token o point)) seed version c =
        some (withCheck (multipliedKey o point seed text version c),
          withCheck (confirmation o point (C.compressed (f • C.generator)) text version c), C.compressed ((k * f) • C.generator))) ∧
    (¬ (0 < f ∧ f < C.order) → createKeyPair C b x (withCheck (token o point)) seed version c = none) := by
  exact pair_aux hx ho k hk seed hs version c _ _ _ (hash24 seed hs) rfl rfl

theorem ownerSalt_eq {o : Owner} (ho : o.OK) {i : Nat} {v : Bytes} (h1 : lot i v = o.isLot) (h2 : entropy i v = o.entropy) :
    ownerSalt i v = ownerSaltOf o := by
  unfold ownerSalt
  rw [h1, h2]
  cases o with
  | plain s => rfl
  | lot s l q =>
    obtain ⟨h, -, -⟩ : _ ∧ _ ∧ _ := ho
    exact slice_mid _ [] s _ rfl rfl (by rw [h])

theorem product_ne {k f : Nat} (hk : 0 < k ∧ k < C.order) (hf : 0 < f ∧ f < C.order) : (k * f) • C.generator ≠ 0 := by
  rw [Ne, C.cyclic, C.prime.dvd_mul]
  rintro (h | h)
  · exact absurd (Nat.le_of_dvd hk.1 h) (by omega)
  · exact absurd (Nat.le_of_dvd hf.1 h) (by omega)

theorem product_beNat (k f : Nat) : beNat (beBytes 32 (k * f % C.order)) = k * f % C.order :=
  Der.beNat_beBytes (Nat.lt_of_lt_of_le (Nat.mod_lt _ C.prime.pos) (Nat.le_trans (Nat.le_of_lt C.small) (by decide)))

theorem product_valid {k f : Nat} (hk : 0 < k ∧ k < C.order) (hf : 0 < f ∧ f < C.order) :
    0 < beNat (beBytes 32 (k * f % C.order)) ∧ beNat (beBytes 32 (k * f % C.order)) < C.order := by
  rw [product_beNat]
  refine ⟨?_, Nat.mod_lt _ C.prime.pos⟩
  have := product_ne hk hf
  rw [Ne, smul_zero_iff] at this
  omega

/-- What is common to both decryptions of a pair: the factor and the derived key. -/
theorem pair_private {y : Run} (hy : y.Good 1) {o : Owner} (ho : o.OK) (k : Nat) (F : Bytes) (hF : beNat F = k) (hk : 0 < k ∧ k < C.order)
    (seed : Bytes) (hs : seed.length = 24) (hf : 0 < beNat (sha256d seed) ∧ beNat (sha256d seed) < C.order) (version : UInt8) (c : Bool)
    (text : Bytes) (ht : Base58Check text (version :: hash160 (serialized C ((k * beNat (sha256d seed)) • C.generator) c)))
    {x : Run} (passphrase : Bytes) (hfac : (if o.isLot then HashFn.bitcoinHash2 b true (scryptToken b x (normal passphrase) (ownerSaltOf o)) o.entropy
      else scryptToken b x (normal passphrase) (ownerSaltOf o)) = F) :
    decrypt C b normal x y (withCheck (multipliedKey o (C.compressed (k • C.generator)) seed text version c)) passphrase =
      some (beBytes 32 (k * beNat (sha256d seed) % C.order), version, c) := by
  have hpt : (C.compressed (k • C.generator)).length = 33 := compressed_length ..
  have hpub : secretToPublic C F = some (C.compressed (k • C.generator)) := by rw [secretToPublic_of (by rw [hF]; exact hk), hF]
  have hmul : mulSecret C F (sha256d seed) = some (beBytes 32 (k * beNat (sha256d seed) % C.order)) := by
    unfold mulSecret
    rw [(verify_iff C F).2 (by rw [hF]; exact hk), (verify_iff C _).2 hf, hF]
    rfl
  have hvs := product_valid hk hf
  have hsalt := ((salt_secret (b := b) _ hvs c version text (by rw [product_beNat, mod_smul]; exact ht)).2 _ (hash_length text)).2 rfl
  have hel := entropy_length ho
  have hsc := pair_eq (b := b) hy (C.compressed (k • C.generator)) (addresshash text ++ o.entropy) (by rw [hpt]; decide)
    (by rw [List.length_append, hash_length, hel]; decide)
  have hseed : HashFn.bitcoinHash2 b true (seed.take 16) (seed.drop 16) = sha256d seed := by
    have := (HashFn.C58_two_parts b true (seed.take 16) (seed.drop 16) (by simp [hs])).2
    rw [List.take_append_drop] at this
    exact this
  obtain ⟨h1, h2⟩ := halves (C.compressed (k • C.generator)) (addresshash text ++ o.entropy) 1024 1 1
  generalize hS : beBytes 32 (k * beNat (sha256d seed) % C.order) = S at hmul hsalt ⊢
  generalize hD : sha256d seed = D at hmul hseed
  clear hD hS hvs hf ht
  have hver := verify_check (b := b) (multipliedKey o (C.compressed (k • C.generator)) seed text version c)
  obtain ⟨ck, hck⟩ : ∃ ck, withCheck (multipliedKey o (C.compressed (k • C.generator)) seed text version c) =
    multipliedKey o (C.compressed (k • C.generator)) seed text version c ++ ck := ⟨_, rfl⟩
  rw [hck] at hver ⊢
  clear hck
  unfold multipliedKey at hver ⊢
  dsimp only at hver ⊢
  generalize C.compressed (k • C.generator) = point at *
  generalize Spec.Bip38.scrypt point (addresshash text ++ o.entropy) 1024 1 1 64 = derived at *
  generalize hA : derived.take 32 = A at *
  generalize hB : derived.drop 32 = B at *
  have l1 : (Spec.Bip38.xor (seed.take 16) (A.take 16)).length = 16 := by rw [xor_length, List.length_take, List.length_take, h1, hs]; rfl
  have a1 := aes_length _ _ l1 h2
  have b1 := aes_back _ _ l1 h2
  generalize Spec.Bip38.aes B (Spec.Bip38.xor (seed.take 16) (A.take 16)) = part1 at *
  have l2 : (part1.drop 8 ++ seed.drop 16).length = 16 := by rw [List.length_append, List.length_drop, List.length_drop, a1, hs]
  have l3 : (Spec.Bip38.xor (part1.drop 8 ++ seed.drop 16) (A.drop 16)).length = 16 := by rw [xor_length, l2, List.length_drop, h1]; rfl
  have a2 := aes_length _ _ l3 h2
  have b2 := aes_back _ _ l3 h2
  generalize Spec.Bip38.aes B (Spec.Bip38.xor (part1.drop 8 ++ seed.drop 16) (A.drop 16)) = part2 at *
  replace hver := hver (by simp [hash_length, hel, a1, a2])
  obtain ⟨q1, q2, q3, q4, q5, q6, q7⟩ := private_parts 0x01 (0x43 + version) (flagbyte c o.isLot true) (addresshash text) o.entropy (part1.take 8) part2 ck
    (hash_length text) hel (by simp [a1]) a2
  generalize [0x01, 0x43 + version, flagbyte c o.isLot true] ++ addresshash text ++ o.entropy ++ part1.take 8 ++ part2 ++ ck = v at hver q1 q2 q3 q4 q5 q6 q7 ⊢
  have hm : Private.multiplied ⟨v⟩ = true := by unfold Private.multiplied; rw [q1]; exact flag_multiplied c o.isLot true
  have hcm : compressed 2 v = c := by unfold compressed; rw [q1]; exact flag_compressed c o.isLot true
  have hlot : lot 2 v = o.isLot := by unfold lot; rw [q1]; exact flag_lot c o.isLot true
  have hvn : Private.version ⟨v⟩ = version := by unfold Private.version; rw [hm, q6]; exact sub_add _ _
  have hval : Private.valid b ⟨v⟩ = true := by unfold Private.valid; rw [hver, q7]; rfl
  have hos := ownerSalt_eq ho hlot q3
  have x2 : xorOffset 16 0 16 (Spec.Bip38.xor (part1.drop 8 ++ seed.drop 16) (A.drop 16)) A = part1.drop 8 ++ seed.drop 16 := by
    rw [xorOffset_eq _ _ _ _ _ (by omega) (by omega), List.drop_zero, List.take_of_length_le (by omega),
      List.take_of_length_le (l := A.drop 16) (by rw [List.length_drop, h1]), xor_twice _ _ (by rw [l2, List.length_drop, h1])]
  have x1 : xorOffset 16 0 0 (Spec.Bip38.xor (seed.take 16) (A.take 16)) A = seed.take 16 := by
    rw [xorOffset_eq _ _ _ _ _ (by omega) (by omega), List.drop_zero, List.drop_zero, List.take_of_length_le (by omega),
      xor_twice _ _ (by rw [List.length_take, List.length_take, h1, hs]; rfl)]
  have t1 : (part1.drop 8 ++ seed.drop 16).take 8 = part1.drop 8 := List.take_left' (by rw [List.length_drop, a1])
  have t2 : (part1.drop 8 ++ seed.drop 16).drop 8 = seed.drop 16 := List.drop_left' (by rw [List.length_drop, a1])
  unfold decrypt
  dsimp only
  rw [hval, hm, hvn, hcm]
  simp only [Bool.not_true, Bool.false_eq_true, if_false, if_true]
  unfold decryptMultiplied
  dsimp only
  rw [hlot, hos, q2, q3, q4, q5, hvn, hcm, hfac, hpub]
  dsimp only
  rw [hsc, hA, hB, b2, x2, t1, t2, List.take_append_drop, b1, x1, hseed, hmul]
  dsimp only
  rw [hsalt]
  rfl

theorem pair_public {y : Run} (hy : y.Good 1) {o : Owner} (ho : o.OK) (k : Nat) (F : Bytes) (hF : beNat F = k) (hk : 0 < k ∧ k < C.order)
    (f : Nat) (hf : 0 < f ∧ f < C.order) (version : UInt8) (c : Bool)
    (text : Bytes) (ht : Base58Check text (version :: hash160 (serialized C ((k * f) • C.generator) c)))
    {x : Run} (passphrase : Bytes) (hfac : (if o.isLot then HashFn.bitcoinHash2 b true (scryptToken b x (normal passphrase) (ownerSaltOf o)) o.entropy
      else scryptToken b x (normal passphrase) (ownerSaltOf o)) = F) :
    decryptPublic C b normal x y (withCheck (confirmation o (C.compressed (k • C.generator)) (C.compressed (f • C.generator)) text version c)) passphrase =
      some (C.compressed ((k * f) • C.generator), version, c) := by
  have hpt : (C.compressed (k • C.generator)).length = 33 := compressed_length ..
  have hpub : secretToPublic C F = some (C.compressed (k • C.generator)) := by rw [secretToPublic_of (by rw [hF]; exact hk), hF]
  have hmul : mulPoint C (C.compressed (f • C.generator)) F = some (C.compressed ((k * f) • C.generator)) := by
    unfold mulPoint
    rw [C.parse_compressed _ (valid_smul C hf.1 hf.2)]
    dsimp only
    rw [(verify_iff C F).2 (by rw [hF]; exact hk), hF, mul_nsmul']
    rfl
  have hsalt := ((salt_point (b := b) _ (product_ne hk hf) c version text ht).2 _ (hash_length text)).2 rfl
  have hel := entropy_length ho
  have hsc := pair_eq (b := b) hy (C.compressed (k • C.generator)) (addresshash text ++ o.entropy) (by rw [hpt]; decide)
    (by rw [List.length_append, hash_length, hel]; decide)
  obtain ⟨h1, h2⟩ := halves (C.compressed (k • C.generator)) (addresshash text ++ o.entropy) 1024 1 1
  have hg : (C.compressed (f • C.generator)).length = 33 := compressed_length ..
  have hver := verify_check (b := b) (confirmation o (C.compressed (k • C.generator)) (C.compressed (f • C.generator)) text version c)
  obtain ⟨ck, hck⟩ : ∃ ck, withCheck (confirmation o (C.compressed (k • C.generator)) (C.compressed (f • C.generator)) text version c) =
    confirmation o (C.compressed (k • C.generator)) (C.compressed (f • C.generator)) text version c ++ ck := ⟨_, rfl⟩
  rw [hck] at hver ⊢
  clear hck ht
  unfold confirmation at hver ⊢
  dsimp only at hver ⊢
  generalize C.compressed ((k * f) • C.generator) = product at *
  generalize C.compressed (k • C.generator) = point at *
  generalize C.compressed (f • C.generator) = pb at *
  generalize Spec.Bip38.scrypt point (addresshash text ++ o.entropy) 1024 1 1 64 = derived at *
  generalize hA : derived.take 32 = A at *
  generalize hB : derived.drop 32 = B at *
  have hhl : (pb.drop 1).length = 32 := by rw [List.length_drop, hg]
  have l4 : (Spec.Bip38.xor ((pb.drop 1).take 16) (A.take 16)).length = 16 := by rw [xor_length, List.length_take, List.length_take, h1, hhl]; rfl
  have l5 : (Spec.Bip38.xor (pb.drop 17) (A.drop 16)).length = 16 := by rw [xor_length, List.length_drop, List.length_drop, h1, hg]; rfl
  have a1 := aes_length _ _ l4 h2
  have b1 := aes_back _ _ l4 h2
  have a2 := aes_length _ _ l5 h2
  have b2 := aes_back _ _ l5 h2
  generalize Spec.Bip38.aes B (Spec.Bip38.xor ((pb.drop 1).take 16) (A.take 16)) = part1 at *
  generalize Spec.Bip38.aes B (Spec.Bip38.xor (pb.drop 17) (A.drop 16)) = part2 at *
  generalize hgs : pb.headD 0 ^^^ (B.getLastD 0 &&& 1) = g at *
  replace hver := hver (by simp [hash_length, hel, a1, a2])
  have shape : [0x64, 0x3b, 0xf6, 0xa8, 0x9a + version, flagbyte c o.isLot true] ++ addresshash text ++ o.entropy ++ [g] ++ part1 ++ part2 ++ ck =
      [0x64, 0x3b, 0xf6, 0xa8, 0x9a + version, flagbyte c o.isLot true] ++ addresshash text ++ o.entropy ++ [g] ++ (part1 ++ part2) ++ ck := by
    simp only [List.append_assoc]
  rw [shape] at hver ⊢
  obtain ⟨q1, q2, q3, q4, q5, q6, q7⟩ := public_parts 0x64 0x3b 0xf6 0xa8 (0x9a + version) (flagbyte c o.isLot true) g (addresshash text) o.entropy
    (part1 ++ part2) ck (hash_length text) hel (by simp [a1, a2])
  generalize [0x64, 0x3b, 0xf6, 0xa8, 0x9a + version, flagbyte c o.isLot true] ++ addresshash text ++ o.entropy ++ [g] ++ (part1 ++ part2) ++ ck = v
    at hver q1 q2 q3 q4 q5 q6 q7 ⊢
  have hcm : compressed 5 v = c := by unfold compressed; rw [q1]; exact flag_compressed c o.isLot true
  have hlot : lot 5 v = o.isLot := by unfold lot; rw [q1]; exact flag_lot c o.isLot true
  have hvn : Public.version ⟨v⟩ = version := by unfold Public.version; rw [q6]; exact sub_add _ _
  have hval : Public.valid b ⟨v⟩ = true := by unfold Public.valid; rw [hver, q7]; rfl
  have hos := ownerSalt_eq ho hlot q3
  have x1 : xorOffset 16 0 0 (Spec.Bip38.xor ((pb.drop 1).take 16) (A.take 16)) A = (pb.drop 1).take 16 := by
    rw [xorOffset_eq _ _ _ _ _ (by omega) (by omega), List.drop_zero, List.drop_zero, List.take_of_length_le (by omega),
      xor_twice _ _ (by rw [List.length_take, List.length_take, h1, hhl])]
  have x2 : xorOffset 16 0 16 (Spec.Bip38.xor (pb.drop 17) (A.drop 16)) A = pb.drop 17 := by
    rw [xorOffset_eq _ _ _ _ _ (by omega) (by omega), List.drop_zero, List.take_of_length_le (by omega),
      List.take_of_length_le (l := A.drop 16) (by rw [List.length_drop, h1]), xor_twice _ _ (by rw [List.length_drop, List.length_drop, h1, hg])]
  have t1 : (part1 ++ part2).take 16 = part1 := List.take_left' a1
  have t2 : (part1 ++ part2).drop 16 = part2 := List.drop_left' a1
  have hsign : pointSign g B = pb.headD 0 := by
    unfold pointSign
    rw [← hgs, UInt8.xor_assoc, UInt8.xor_self, UInt8.xor_zero]
  have hwhole : [pb.headD 0] ++ (pb.drop 1).take 16 ++ pb.drop 17 = pb := by
    cases pb with
    | nil => simp at hg
    | cons h t =>
      show h :: (t.take 16 ++ t.drop 16) = h :: t
      rw [List.take_append_drop]
  unfold decryptPublic
  dsimp only
  rw [hval]
  simp only [Bool.not_true, Bool.false_eq_true, if_false]
  rw [hlot, hos, q2, q3, q4, q5, hvn, hcm, hfac, hpub]
  dsimp only
  rw [hsc, hA, hB, t1, t2, b1, b2, x1, x2, hsign, hwhole, hmul]
  dsimp only
  rw [hsalt]
  rfl

end Verif.Bip38
