import Verif.Props.Bip38
import Verif.Lemmas.ToyCurve
/-!
# C72: encrypted keys, decryption of pairs, soundness and text
-/
namespace Verif.Bip38
open Verif Verif.Ec Verif.Wallet Verif.Spec.Wallet
open Verif.Sha (Build)
open Verif.Stealth (secretToPublic_some secretToPublic_of)
open Verif.Spec.Bip38 (Owner addresshash flagbyte privateKey multipliedKey confirmation token)
variable {P : Type} [AddCommGroup P] [DecidableEq P] {C : Curve P} {b : Build} {normal : Bytes → Bytes}

/-- **C72 (decryption of a pair).** The private key and the confirmation code made from the intermediate code of a passphrase are
decrypted with that passphrase: to a secret of the point of the pair, and to the point, with the version and the compression. -/
theorem C72_decrypt_pair {x y : Run} (hx : x.Good 8) (hy : y.Good 1) {o : Owner} (ho : o.OK) (passphrase : Bytes)
    (hn : (normal passphrase).length + 512 ≤ 2 ^ 61)
    (hk : 0 < beNat (o.factor (normal passphrase)) ∧ beNat (o.factor (normal passphrase)) < C.order)
    (seed : Bytes) (hs : seed.length = 24) (hf : 0 < beNat (sha256d seed) ∧ beNat (sha256d seed) < C.order) (version : UInt8) (c : Bool)
    (text : Bytes) :
    let k := beNat (o.factor (normal passphrase))
    let f := beNat (sha256d seed)
    Base58Check text (version :: hash160 (serialized C ((k * f) • C.generator) c)) →
    (∃ secret, decrypt C b normal x y (withCheck (multipliedKey o (C.compressed (k • C.generator)) seed text version c)) passphrase =
        some (secret, version, c) ∧ secret.length = 32 ∧ secretToPublic C secret = some (C.compressed ((k * f) • C.generator))) ∧
    decryptPublic C b normal x y (withCheck (confirmation o (C.compressed (k • C.generator)) (C.compressed (f • C.generator)) text version c)) passphrase =
      some (C.compressed ((k * f) • C.generator), version, c) := by
  intro k f ht
  refine ⟨⟨_, pair_private hy ho k _ rfl hk seed hs hf version c text ht passphrase (factor_eq hx ho _ hn), beBytes_length .., ?_⟩, ?_⟩
  · rw [secretToPublic_of (product_valid hk hf), product_beNat, mod_smul]
  · exact pair_public hy ho k _ rfl hk f hf version c text ht passphrase (factor_eq hx ho _ hn)

/-! ## Whatever is decrypted -/

theorem validate_some {s t : Bytes} {v : UInt8} {c : Bool} (hs : s.length = 4) (h : validateSecret C b s t v c = true) :
    (0 < beNat t ∧ beNat t < C.order) ∧ ∀ text, Base58Check text (v :: hash160 (serialized C (beNat t • C.generator) c)) → s = addresshash text := by
  have hv : 0 < beNat t ∧ beNat t < C.order := by
    by_contra hv
    unfold validateSecret validate at h
    rw [fromPrivate_invalid t hv] at h
    cases h
  exact ⟨hv, fun text ht => ((salt_secret (b := b) t hv c v text ht).2 s hs).1 h⟩

/-- **C72 (soundness).** Whatever the key and the passphrase, a secret that is given back is valid and its address has the hash in the
key; the key has its checksum. -/
theorem C72_sound (x y : Run) (key passphrase : Bytes) (hk : key.length = 43) (secret : Bytes) (v : UInt8) (c : Bool)
    (h : decrypt C b normal x y key passphrase = some (secret, v, c)) :
    key = withCheck (key.take 39) ∧ (0 < beNat secret ∧ beNat secret < C.order) ∧
    ∀ text, Base58Check text (v :: hash160 (serialized C (beNat secret • C.generator) c)) → (key.drop 3).take 4 = addresshash text := by
  have hs : (salt 2 key).length = 4 := by simp [salt, slice, hk]
  unfold decrypt at h
  dsimp only at h
  split at h
  · cases h
  · rename_i hv
    have hv : Private.valid b ⟨key⟩ = true := by simpa using hv
    have hc : verifyArray b key = true := by
      unfold Private.valid at hv
      simp only [Bool.and_eq_true] at hv
      exact hv.2
    have hch := (verifyArray_iff (b := b) key (by omega) (by omega)).1 hc
    rw [hk] at hch
    rw [Option.map_eq_some_iff] at h
    obtain ⟨s, h, e⟩ := h
    cases e
    refine ⟨hch, ?_⟩
    have : validateSecret C b (salt 2 key) secret (Private.version ⟨key⟩) (compressed 2 key) = true := by
      split at h
      · unfold decryptMultiplied at h
        dsimp only at h
        split at h
        · cases h
        · split at h
          · cases h
          · split at h
            · cases h
            · rename_i hn
              cases h
              simpa using hn
      · unfold decryptSecret at h
        dsimp only at h
        split at h
        · cases h
        · rename_i hn
          cases h
          simpa using hn
    exact validate_some hs this

/-! ## Text -/

/-- **C72 (text).** The text of a key or token with its checksum is read back, and nothing else is read: a text is accepted just if it is
the base58 form of data of the size with a checksum, and it is the text that the result is written as. -/
theorem C72_text (size : Nat) (h4 : 4 ≤ size) (hs : size ≤ 100000) (text value : Bytes) :
    (fromString b size text = some value ↔ ∃ d, d.length + 4 = size ∧ value = withCheck d ∧ Base58Check text d) ∧
    (fromString b size text = some value → encoded value = text) := by
  constructor
  · unfold fromString
    constructor
    · intro h
      split at h
      · cases h
      · rename_i d hd
        split at h
        · rename_i hl
          split at h
          · rename_i hv
            cases h
            have hc := (verifyArray_iff (b := b) value (by omega) (by omega)).1 hv
            refine ⟨value.take (value.length - 4), by rw [List.length_take]; omega, hc, (check_iff _ _).2 ⟨value, hd, hc⟩⟩
          · cases h
        · cases h
    · rintro ⟨d, hl, rfl, hb⟩
      obtain ⟨v, hv, hc⟩ := (check_iff _ _).1 hb
      rw [hv]
      dsimp only
      have hcl := checked_length hc
      rw [if_pos (by omega), if_pos]
      · rw [hc]; rfl
      · rw [verifyArray_iff _ (by omega) (by omega), checked_take hc]; exact hc
  · intro h
    unfold fromString at h
    split at h
    · cases h
    · rename_i d hd
      split at h
      · split at h
        · cases h
          exact Radix.C32_encode_decode _ _ hd
        · cases h
      · cases h

/-! ## The cases are met -/

theorem address_text_exists (p : P) (c : Bool) (v : UInt8) : ∃ text, Base58Check text (v :: hash160 (serialized C p c)) :=
  ⟨_, (C63_address_text (b := Build.portable) v _ (hash160_length _)).1⟩

def exampleRun (p : Nat) : Run := ⟨true, Scrypt.Memory.enough, (List.range p).reverse⟩
theorem exampleRun_good (p : Nat) : (exampleRun p).Good p := ⟨rfl, List.reverse_perm _⟩

/-- A secret is encrypted and decrypted again. -/
example : ∃ key, encrypt Toy.curve Build.portable id (exampleRun 8) (beBytes 32 5) [112, 119] 0 true = some key ∧
    decrypt Toy.curve Build.portable id (exampleRun 8) (exampleRun 1) key [112, 119] = some (beBytes 32 5, 0, true) := by
  have h5 : beNat (beBytes 32 5) = 5 := Der.beNat_beBytes (by decide)
  have hv : 0 < beNat (beBytes 32 5) ∧ beNat (beBytes 32 5) < Toy.curve.order := by rw [h5]; decide
  obtain ⟨text, ht⟩ := address_text_exists (C := Toy.curve) (beNat (beBytes 32 5) • Toy.curve.generator) true 0
  exact ⟨_, (C72_encrypt (exampleRun_good 8) _ _ (beBytes_length ..) (by decide) 0 true).1 hv text ht,
    C72_decrypt (exampleRun_good 8) _ _ (beBytes_length ..) hv (by decide) 0 true text ht⟩

example : (Owner.lot [1, 2, 3, 4] 100000 1).OK := ⟨rfl, by decide, by decide⟩

end Verif.Bip38
