import Verif.Model.Wallet
import Verif.Spec.Wallet
import Verif.Props.HdKeys
/-!
# C63: addresses and keys as text
-/
namespace Verif.Wallet
open Verif Verif.Ec Verif.Spec.Wallet
open Verif.Sha (Build)
variable {P : Type} [AddCommGroup P] [DecidableEq P] {C : Curve P} {b : Build}

theorem hash_eq (d : Bytes) (h : d.length ≤ 100000) : HashFn.bitcoinHash b true d = sha256d d :=
  (HashFn.C58_functions b true d (by omega)).2.2.2.2.2.1

theorem sha256d_length (d : Bytes) : (sha256d d).length = 32 := Hash.standard_length (Hash.Standard.sha256 (b := Build.portable)) _

theorem hash160_eq (d : Bytes) (h : d.length ≤ 100000) : HashFn.bitcoinShortHash b true d = hash160 d :=
  (HashFn.C58_functions b true d (by omega)).2.2.2.2.2.2.1

theorem hash160_length (d : Bytes) : (hash160 d).length = 20 := Hash.standard_length (Hash.Standard.rmd160 (b := Build.portable)) _

theorem insert_eq (d : Bytes) (h : d.length ≤ 100000) : insertChecksum b d = d ++ (sha256d d).take 4 := by
  unfold insertChecksum Hd.insertChecksum; rw [hash_eq d h]

/-- The data with its checksum. -/
def Checked (v d : Bytes) : Prop := v = d ++ (sha256d d).take 4

theorem checked_length {v d : Bytes} (h : Checked v d) : v.length = d.length + 4 := by
  rw [h]; simp [sha256d_length]

theorem verifyArray_iff (v : Bytes) (h4 : 4 ≤ v.length) (h : v.length ≤ 100000) : verifyArray b v = true ↔ Checked v (v.take (v.length - 4)) := by
  unfold verifyArray Checked
  rw [hash_eq _ (by simp; omega), beq_iff_eq]
  constructor
  · intro e; rw [e]; exact (List.take_append_drop _ _).symm
  · intro e
    have := List.take_append_drop (v.length - 4) v
    conv at e => lhs; rw [← this]
    exact (List.append_cancel_left e).symm

theorem verifyChunk_iff (v : Bytes) (h : v.length ≤ 100000) : verifyChunk b v = true ↔ 4 ≤ v.length ∧ Checked v (v.take (v.length - 4)) := by
  unfold verifyChunk
  by_cases h4 : v.length < 4
  · rw [if_pos h4]; simp; omega
  · rw [if_neg h4, ← verifyArray_iff (b := b) v (by omega) h]
    unfold verifyArray
    rw [beq_iff_eq, beq_iff_eq]
    have hl : ((HashFn.bitcoinHash b true (v.take (v.length - 4))).take 4).length = 4 := by
      rw [hash_eq _ (by simp; omega)]; simp [sha256d_length]
    constructor
    · intro e; exact ⟨by omega, (leNat_inj (by rw [hl]; simp; omega) e).symm⟩
    · intro e; rw [e.2]

theorem checked_take {v d : Bytes} (h : Checked v d) : v.take (v.length - 4) = d := by
  have hl := checked_length h
  rw [hl, Nat.add_sub_cancel]
  rw [h]; simp

theorem checked_iff (v : Bytes) (h4 : 4 ≤ v.length) : Checked v (v.take (v.length - 4)) ↔ ∃ d, Checked v d :=
  ⟨fun h => ⟨_, h⟩, fun ⟨d, h⟩ => by rw [checked_take h]; exact h⟩

theorem check_iff (t d : Bytes) : Base58Check t d ↔ ∃ v, Radix.decode58 t = some v ∧ Checked v d := by
  unfold Base58Check Checked
  constructor
  · rintro ⟨h1, h2⟩
    exact ⟨_, (Radix.C32_meaning t _ h1).2 h2, rfl⟩
  · rintro ⟨v, h1, rfl⟩
    have hc := (Radix.C32_accepts t).1 (by rw [h1]; rfl)
    exact ⟨hc, (Radix.C32_meaning t _ hc).1 h1⟩

/-! ## Payment addresses -/

theorem zero_unchecked : ¬ Checked (List.replicate 25 0) (List.replicate 21 0) := by
  unfold Checked
  rw [← hash_eq (b := Build.portable) _ (by simp)]
  have h : ((HashFn.bitcoinHash Build.portable true (List.replicate 21 0)).take 4 == [0, 0, 0, 0]) = false := by decide +kernel
  intro e
  have e : List.replicate 21 (0 : UInt8) ++ [0, 0, 0, 0] = _ := e
  rw [← List.append_cancel_left e] at h
  cases h

theorem none_invalid : Address.none.valid b = false := by
  have : ¬ Address.none.valid b = true := by
    unfold Address.valid Address.none
    rw [verifyArray_iff _ (by simp) (by simp)]
    have e : (List.replicate 25 (0 : UInt8)).take ((List.replicate 25 (0 : UInt8)).length - 4) = List.replicate 21 0 := by simp
    rw [e]
    exact zero_unchecked
  simpa using this

theorem ofHash_value (h : Bytes) (v : UInt8) (hl : h.length = 20) : Checked (Address.ofHash b h v).value (v :: h) :=
  insert_eq _ (by simp [hl])

theorem fromString_eq (t : Bytes) : (∃ v d, Radix.decode58 t = some v ∧ d.length = 21 ∧ Checked v d ∧ Address.fromString b t = ⟨v⟩) ∨
    ((∀ d, d.length = 21 → ¬ Base58Check t d) ∧ Address.fromString b t = .none) := by
  unfold Address.fromString
  cases hd : Radix.decode58 t with
  | none =>
    refine .inr ⟨fun d _ h => ?_, rfl⟩
    obtain ⟨v, h, _⟩ := (check_iff t d).1 h
    rw [hd] at h; cases h
  | some v =>
    dsimp only
    by_cases hl : v.length = 25
    · rw [if_pos hl]
      by_cases hv : verifyArray b v = true
      · rw [if_pos hv]
        exact .inl ⟨v, _, rfl, by simp [hl], (verifyArray_iff v (by omega) (by omega)).1 hv, rfl⟩
      · rw [if_neg hv]
        refine .inr ⟨fun d hdl h => hv ?_, rfl⟩
        obtain ⟨v', h1, h2⟩ := (check_iff t d).1 h
        rw [hd] at h1; injection h1 with h1; subst h1
        rw [verifyArray_iff v (by omega) (by omega), checked_take h2]; exact h2
    · rw [if_neg hl]
      refine .inr ⟨fun d hdl h => hl ?_, rfl⟩
      obtain ⟨v', h1, h2⟩ := (check_iff t d).1 h
      rw [hd] at h1; injection h1 with h1; subst h1
      rw [checked_length h2, hdl]

theorem value_valid {v d : Bytes} (h : Checked v d) (hl : d.length = 21) : (⟨v⟩ : Address).valid b = true := by
  unfold Address.valid
  have := checked_length h
  rw [verifyArray_iff _ (by simp; omega) (by simp; omega)]
  show Checked v _
  rw [checked_take h]; exact h

/-- A text is accepted as an address exactly if it is Base58Check of a version byte and twenty bytes, and then it is the address of
these. -/
theorem C63_address_accepts (t : Bytes) : ((Address.fromString b t).valid b = true ↔ ∃ v h, h.length = 20 ∧ Base58Check t (v :: h)) ∧
    (∀ v h, h.length = 20 → Base58Check t (v :: h) → Address.fromString b t = Address.ofHash b h v) := by
  have key : ∀ v h, h.length = 20 → Base58Check t (v :: h) → Address.fromString b t = Address.ofHash b h v := by
    intro v h hl hc
    rcases fromString_eq (b := b) t with ⟨w, d, h1, h2, h3, h4⟩ | ⟨h1, h2⟩
    · obtain ⟨w', g1, g2⟩ := (check_iff t _).1 hc
      rw [h1] at g1; injection g1 with g1; subst g1
      rw [h4]
      have := ofHash_value (b := b) h v hl
      unfold Checked at this g2
      rw [show w = (Address.ofHash b h v).value from g2.trans this.symm]
    · exact absurd hc (h1 _ (by simp [hl]))
  refine ⟨⟨fun hv => ?_, ?_⟩, key⟩
  · rcases fromString_eq (b := b) t with ⟨w, d, h1, h2, h3, h4⟩ | ⟨h1, h2⟩
    · cases d with
      | nil => cases h2
      | cons v h => exact ⟨v, h, by simpa using h2, (check_iff t _).2 ⟨w, h1, h3⟩⟩
    · rw [h2, none_invalid] at hv; cases hv
  · rintro ⟨v, h, hl, hc⟩
    rw [key v h hl hc]
    exact value_valid (ofHash_value h v hl) (by simp [hl])

/-- The text of an address is Base58Check of its version and hash; it is valid and reports these; reading it back gives the address. -/
theorem C63_address_text (v : UInt8) (h : Bytes) (hl : h.length = 20) :
    Base58Check ((Address.ofHash b h v).encoded) (v :: h) ∧ (Address.ofHash b h v).valid b = true ∧
    (Address.ofHash b h v).prefixByte = v ∧ (Address.ofHash b h v).hash = h ∧
    Address.fromString b (Address.ofHash b h v).encoded = Address.ofHash b h v := by
  have hv := ofHash_value (b := b) h v hl
  have hc : Base58Check ((Address.ofHash b h v).encoded) (v :: h) := (check_iff _ _).2 ⟨_, Radix.C32_decode_encode _, hv⟩
  refine ⟨hc, value_valid hv (by simp [hl]), ?_, ?_, (C63_address_accepts _).2 v h hl hc⟩
  · unfold Address.prefixByte; rw [hv]; rfl
  · unfold Address.hash; rw [hv]; simp [hl]

/-- An accepted text is the text of the address read. -/
theorem C63_address_canonical (t : Bytes) (h : (Address.fromString b t).valid b = true) : (Address.fromString b t).encoded = t := by
  rcases fromString_eq (b := b) t with ⟨w, d, h1, h2, h3, h4⟩ | ⟨h1, h2⟩
  · rw [h4]; exact Radix.C32_encode_decode t w h1
  · rw [h2, none_invalid] at h; cases h

/-! ## Public keys -/

theorem uncompressed_length (C : Curve P) (p : P) : (C.uncompressed p).length = 65 := by
  obtain ⟨x, e, h⟩ := C.uncompressed_form p
  rw [e]; simp [h]

theorem serialized_data (p : P) (hp : p ≠ 0) (c : Bool) : PublicKey.fromData C (serialized C p c) = ⟨C.compressed p, c⟩ ∧
    PublicKey.valid ⟨C.compressed p, c⟩ = true ∧ PublicKey.toData C ⟨C.compressed p, c⟩ = some (serialized C p c) := by
  obtain ⟨s, x, e, hs, hx⟩ := C.compressed_form p
  obtain ⟨y, f, hy⟩ := C.uncompressed_form p
  have hv : PublicKey.valid ⟨C.compressed p, c⟩ = true := by
    unfold PublicKey.valid
    dsimp only
    rw [e]; rcases hs with rfl | rfl <;> rfl
  refine ⟨?_, hv, ?_⟩
  · cases c with
    | true =>
      have hc : isCompressedKey (C.compressed p) = true := by
        unfold isCompressedKey; rw [e]; rcases hs with rfl | rfl <;> simp [hx]
      unfold PublicKey.fromData serialized isPublicKey
      simp [hc]
    | false =>
      have hu : isUncompressedKey (C.uncompressed p) = true := by
        unfold isUncompressedKey; rw [f]; simp [hy]
      have hc : isCompressedKey (C.uncompressed p) = false := by
        unfold isCompressedKey; rw [f]; simp
      unfold PublicKey.fromData serialized isPublicKey Ec.compress
      simp [hc, hu, C.parse_uncompressed p hp]
  · unfold PublicKey.toData
    rw [hv]
    cases c with
    | true => rfl
    | false =>
      unfold serialized Ec.decompress
      simp [C.parse_compressed p hp]

/-- A public key of the curve is read from both of its forms and published as the form it was read from: as bytes, and as text. -/
theorem C63_public_text (p : P) (hp : p ≠ 0) (c : Bool) :
    PublicKey.fromData C (serialized C p c) = ⟨C.compressed p, c⟩ ∧ PublicKey.toData C ⟨C.compressed p, c⟩ = some (serialized C p c) ∧
    PublicKey.encoded C ⟨C.compressed p, c⟩ = some (Radix.encode16 (serialized C p c)) ∧
    PublicKey.fromString C (Radix.encode16 (serialized C p c)) = ⟨C.compressed p, c⟩ := by
  obtain ⟨h1, h2, h3⟩ := serialized_data (C := C) p hp c
  refine ⟨h1, h3, ?_, ?_⟩
  · unfold PublicKey.encoded
    cases c with
    | true => rfl
    | false =>
      rw [h2]
      unfold PublicKey.toData at h3
      rw [h2] at h3
      simp only [Bool.not_true, Bool.false_eq_true, if_false] at h3 ⊢
      rw [h3]; simp
  · unfold PublicKey.fromString
    rw [Radix.C31_decode_encode]
    exact h1

/-- The address of a public key is that of the hash of its published form, and the address of a private key that of its public key
under its address version. -/
theorem C63_key_address (p : P) (hp : p ≠ 0) (c : Bool) (v : UInt8) :
    Address.fromPublic C b ⟨C.compressed p, c⟩ v = Address.ofHash b (hash160 (serialized C p c)) v := by
  obtain ⟨h1, h2, h3⟩ := serialized_data (C := C) p hp c
  have hl : (serialized C p c).length ≤ 100000 := by
    unfold serialized
    cases c
    · have := uncompressed_length C p; simp; omega
    · have := compressed_length C p; simp; omega
  unfold Address.fromPublic
  rw [h2, h3]
  simp only [Bool.not_true, Bool.false_eq_true, if_false]
  rw [hash160_eq _ hl]

/-! ## Private keys -/

theorem versions_eq (a w : UInt8) : wifVersion (toVersions a w) = w ∧ addressVersion (toVersions a w) = a := by
  unfold wifVersion addressVersion toVersions
  have ha := a.toNat_lt
  have hw := w.toNat_lt
  have h8 : (8 : UInt16).toNat % 16 = 8 := rfl
  have h1 : (w.toNat <<< 8) % 2 ^ 16 = w.toNat <<< 8 := by rw [Nat.shiftLeft_eq]; exact Nat.mod_eq_of_lt (by omega)
  constructor
  · apply UInt8.toNat_inj.1
    simp only [UInt16.toNat_toUInt8, UInt16.toNat_shiftRight, UInt16.toNat_or, UInt16.toNat_shiftLeft, UInt8.toNat_toUInt16, h8]
    rw [h1, ← Nat.shiftLeft_add_eq_or_of_lt (by omega), Nat.shiftLeft_eq, Nat.shiftRight_eq_div_pow]
    omega
  · apply UInt8.toNat_inj.1
    simp only [UInt16.toNat_toUInt8, UInt16.toNat_or, UInt16.toNat_shiftLeft, UInt8.toNat_toUInt16, h8]
    rw [h1, ← Nat.shiftLeft_add_eq_or_of_lt (by omega), Nat.shiftLeft_eq]
    omega

theorem isWif_iff (d : Bytes) (h : d.length ≤ 100000) : isWif b d = true ↔
    ∃ (w : UInt8) (s : Bytes) (c : Bool), s.length = 32 ∧ Checked d (w :: s ++ if c then [1] else []) ∧ (c = true ↔ d.length = 38) := by
  unfold isWif
  constructor
  · intro hw
    split at hw
    · cases hw
    · rename_i hl
      split at hw
      · cases hw
      · rename_i hv
        have hv := ((verifyChunk_iff d h).1 (by simpa using hv)).2
        have e := hv
        obtain ⟨w, r, hr⟩ : ∃ w r, d.take (d.length - 4) = w :: r := by
          cases hd : d.take (d.length - 4) with
          | nil => rw [List.take_eq_nil_iff] at hd; rcases hd with hd | hd <;> [omega; (subst hd; simp at hl)]
          | cons w r => exact ⟨w, r, rfl⟩
        have hrl : r.length + 1 = d.length - 4 := by
          have := congrArg List.length hr
          simp at this; omega
        rw [hr] at e
        simp only [Bool.or_eq_true, decide_eq_true_eq, beq_iff_eq] at hw
        by_cases h37 : d.length = 37
        · exact ⟨w, r, false, by omega, by simpa using e, by simp [h37]⟩
        · have h38 : d.length = 38 := by omega
          have hw := hw.resolve_left h37
          refine ⟨w, r.take 32, true, by simp; omega, ?_, by simp [h38]⟩
          have hr33 : r.length = 33 := by omega
          have : r = r.take 32 ++ [1] := by
            have hd : r.drop 32 = [1] := by
              have h1 : (r.drop 32).length = 1 := by simp [hr33]
              match hq : r.drop 32, h1 with
              | [x], _ =>
                have hx : r[32]? = some x := by
                  have := congrArg (·[0]?) hq
                  simpa using this
                have hy : d[33]? = r[32]? := by
                  rw [e]; simp [List.getElem?_append, hr33]
                rw [List.getD_eq_getElem?_getD, hy, hx] at hw
                simp at hw; rw [hw]
            conv => lhs; rw [← List.take_append_drop 32 r, hd]
          simp only [if_true]
          rw [List.cons_append, ← this]; exact e
  · rintro ⟨w, s, c, hs, hc, hcl⟩
    have hl := checked_length hc
    have hlen : d.length = if c then 38 else 37 := by
      rw [hl]; cases c <;> simp [hs]
    have hv : verifyChunk b d = true := (verifyChunk_iff d h).2 ⟨by rw [hlen]; split <;> omega, by rw [checked_take hc]; exact hc⟩
    rw [if_neg (by rw [hlen]; split <;> simp), hv]
    simp only [Bool.not_true, Bool.false_eq_true, if_false, Bool.or_eq_true, decide_eq_true_eq, beq_iff_eq]
    cases c with
    | false => left; simpa using hlen
    | true =>
      right
      rw [hc]; simp [List.getD_eq_getElem?_getD, List.getElem?_append, hs]

theorem fromWif_eq (d : Bytes) (a w : UInt8) (s : Bytes) (c : Bool) (hs : s.length = 32)
    (hc : Checked d (w :: s ++ if c then [1] else [])) (hw : isWif b d = true) :
    PrivateKey.fromWif b d a c = ⟨s, toVersions a w, c⟩ := by
  unfold PrivateKey.fromWif
  rw [hw]
  simp only [Bool.not_true, Bool.false_eq_true, if_false]
  have h1 : d.headD 0 = w := by rw [hc]; simp
  have h2 : (d.drop 1).take 32 = s := by rw [hc]; simp [hs]
  rw [h1, h2]

theorem isWif_iff' (d : Bytes) : isWif b d = true ↔
    ∃ (w : UInt8) (s : Bytes) (c : Bool), s.length = 32 ∧ Checked d (w :: s ++ if c then [1] else []) ∧ (c = true ↔ d.length = 38) := by
  by_cases h : d.length ≤ 100000
  · exact isWif_iff d h
  · constructor
    · intro hw
      unfold isWif at hw
      rw [if_pos (by omega)] at hw
      cases hw
    · rintro ⟨w, s, c, hs, hc, hcl⟩
      have hl := checked_length hc
      have hlen : d.length = if c then 38 else 37 := by
        rw [hl]; cases c <;> simp [hs]
      split at hlen <;> omega

theorem wif_length {d : Bytes} {w : UInt8} {s : Bytes} {c : Bool} (hs : s.length = 32) (hc : Checked d (w :: s ++ if c then [1] else [])) :
    d.length = if c then 38 else 37 := by
  rw [checked_length hc]; cases c <;> simp [hs]

theorem wif_fromString {t d : Bytes} (hd : Radix.decode58 t = some d) (a w : UInt8) (s : Bytes) (c : Bool) (hs : s.length = 32)
    (hc : Checked d (w :: s ++ if c then [1] else [])) : PrivateKey.fromString b t a = ⟨s, toVersions a w, c⟩ := by
  have hl := wif_length hs hc
  have hw : isWif b d = true := (isWif_iff' d).2 ⟨w, s, c, hs, hc, by rw [hl]; cases c <;> simp⟩
  unfold PrivateKey.fromString
  rw [hd]
  dsimp only
  rw [hw]
  simp only [Bool.not_true, Bool.false_eq_true, if_false]
  cases c with
  | true => rw [if_pos (by simpa using hl)]; exact fromWif_eq d a w s true hs hc hw
  | false => rw [if_neg (by rw [hl]; simp)]; exact fromWif_eq d a w s false hs hc hw

/-- A text is accepted as a private key exactly if it is wallet import format of a secret that is not zero, and then it is the key
with that secret, form and version. -/
theorem C63_wif_accepts (t : Bytes) (a : UInt8) :
    ((PrivateKey.fromString b t a).valid = true ↔ ∃ w s c, IsWif t w s c ∧ s ≠ List.replicate 32 0) ∧
    (∀ w s c, IsWif t w s c → PrivateKey.fromString b t a = ⟨s, toVersions a w, c⟩) := by
  have key : ∀ w s c, IsWif t w s c → PrivateKey.fromString b t a = ⟨s, toVersions a w, c⟩ := by
    rintro w s c ⟨hs, hb⟩
    obtain ⟨d, hd, hc⟩ := (check_iff t _).1 hb
    exact wif_fromString hd a w s c hs hc
  refine ⟨⟨fun hv => ?_, ?_⟩, key⟩
  · have hn : ¬ PrivateKey.fromString b t a = PrivateKey.none := fun e => by
      rw [e] at hv; exact absurd hv (by decide)
    cases hd : Radix.decode58 t with
    | none => exact absurd (by unfold PrivateKey.fromString; rw [hd]) hn
    | some d =>
      by_cases hw : isWif b d = true
      · obtain ⟨w, s, c, hs, hc, -⟩ := (isWif_iff' d).1 hw
        refine ⟨w, s, c, ⟨hs, (check_iff t _).2 ⟨d, hd, hc⟩⟩, fun e => ?_⟩
        rw [wif_fromString hd a w s c hs hc] at hv
        unfold PrivateKey.valid at hv
        simp [e] at hv
      · refine absurd ?_ hn
        unfold PrivateKey.fromString
        rw [hd]
        dsimp only
        rw [if_pos (by simpa using hw)]
  · rintro ⟨w, s, c, h, hne⟩
    rw [key w s c h]
    unfold PrivateKey.valid
    simpa using hne

/-- The text of a private key is wallet import format of its secret, form and version, and is read back to the same key under its
address version. -/
theorem C63_wif_text (s : Bytes) (a w : UInt8) (c : Bool) (hs : s.length = 32) :
    IsWif (PrivateKey.encoded b ⟨s, toVersions a w, c⟩) w s c ∧
    PrivateKey.fromString b (PrivateKey.encoded b ⟨s, toVersions a w, c⟩) a = ⟨s, toVersions a w, c⟩ := by
  have h : IsWif (PrivateKey.encoded b ⟨s, toVersions a w, c⟩) w s c := by
    refine ⟨hs, (check_iff _ _).2 ?_⟩
    unfold PrivateKey.encoded
    dsimp only
    rw [(versions_eq a w).1]
    cases c with
    | true => exact ⟨_, Radix.C32_decode_encode _, insert_eq _ (by simp [hs])⟩
    | false =>
      refine ⟨_, Radix.C32_decode_encode _, ?_⟩
      have := insert_eq (b := b) ([w] ++ s) (by simp [hs])
      unfold Checked
      simpa using this
  exact ⟨h, (C63_wif_accepts _ a).2 w s c h⟩

/-- A key made from its secret and versions has the public key and address of its secret. -/
theorem C63_private_address (s : Bytes) (v : UInt16) (c : Bool) (hs : s.length = 32) (hv : verifySecret C s = true) :
    PrivateKey.toPublic C ⟨s, v, c⟩ = ⟨C.compressed (beNat s • C.generator), c⟩ ∧
    Address.fromPrivate C b ⟨s, v, c⟩ = Address.ofHash b (hash160 (serialized C (beNat s • C.generator) c)) (addressVersion v) := by
  have h := (verify_iff C s).1 hv
  have hk : PrivateKey.valid ⟨s, v, c⟩ = true := by
    unfold PrivateKey.valid
    have : s ≠ List.replicate 32 0 := fun e => by
      rw [e] at h
      exact absurd h.1 (by decide)
    simpa using this
  have hp : PrivateKey.toPublic C ⟨s, v, c⟩ = ⟨C.compressed (beNat s • C.generator), c⟩ := by
    unfold PrivateKey.toPublic secretToPublic
    rw [hk, if_pos hv]; rfl
  refine ⟨hp, ?_⟩
  unfold Address.fromPrivate
  rw [hk, hp]
  simp only [Bool.not_true, Bool.false_eq_true, if_false]
  exact C63_key_address _ (valid_smul C h.1 h.2) c _

/-! ## Claims that do not hold -/

/-- A private key made from entropy (or from a scalar) has WIF version zero whatever the network: its text is not that of the mainnet
version 0x80. -/
theorem C63_entropy_counterexample (entropy : Bytes) (version : UInt8) :
    wifVersion (PrivateKey.fromEntropy C b entropy version).versions = 0 ∧
    (∀ secret, wifVersion (PrivateKey.ofScalar secret version).versions = 0) := by
  have h0 : wifVersion version.toUInt16 = 0 := by
    have := (versions_eq version 0).1
    simpa [toVersions] using this
  refine ⟨?_, fun _ => h0⟩
  unfold PrivateKey.fromEntropy
  dsimp only
  split
  · rfl
  · exact h0

/-- A text with a secret that is not below the order is accepted, although it has no public key. -/
theorem C63_order_counterexample (C : Curve P) (b : Build) (a : UInt8) :
    ∃ t, (PrivateKey.fromString b t a).valid = true ∧ (PrivateKey.toPublic C (PrivateKey.fromString b t a)).valid = false := by
  have hs : (beBytes 32 (2 ^ 256 - 1)).length = 32 := by simp
  have hb : beNat (beBytes 32 (2 ^ 256 - 1)) = 2 ^ 256 - 1 := Der.beNat_beBytes (by decide)
  obtain ⟨h1, h2⟩ := C63_wif_text (b := b) (beBytes 32 (2 ^ 256 - 1)) a 0x80 true hs
  have hne : beBytes 32 (2 ^ 256 - 1) ≠ List.replicate 32 0 := fun e => by
    rw [e] at hb; exact absurd hb (by decide)
  have hv := ((C63_wif_accepts (b := b) _ a).1).2 ⟨_, _, _, h1, hne⟩
  refine ⟨_, hv, ?_⟩
  rw [h2]
  rw [h2] at hv
  unfold PrivateKey.toPublic
  rw [hv]
  simp only [Bool.not_true, Bool.false_eq_true, if_false]
  have : secretToPublic C (beBytes 32 (2 ^ 256 - 1)) = none := by
    unfold secretToPublic
    refine if_neg (Hd.verify_false C (.inr ?_))
    have := C.small
    omega
  rw [this]
  rfl

/-! ## Scripts -/

theorem opcode20 {h : Bytes} (hl : h.length = 20) : Machine.opcodeFromSize h.length = 20 := by rw [hl]; decide

/-- The script of an address is the pay-to-key-hash or pay-to-script-hash template of its hash, by its version, or empty; and the
address of that script is the address. -/
theorem C63_output_script (h : Bytes) (hl : h.length = 20) (v kh sh : UInt8) :
    opsData ((Address.ofHash b h v).outputScript kh sh) =
      (if v = kh then [0x76, 0xa9, 0x14] ++ h ++ [0x88, 0xac] else if v = sh then [0xa9, 0x14] ++ h ++ [0x87] else []) ∧
    (v = kh ∨ v = sh → extractOutput b ((Address.ofHash b h v).outputScript kh sh) kh sh = Address.ofHash b h v) := by
  obtain ⟨-, -, hp, hh, -⟩ := C63_address_text (b := b) v h hl
  unfold Address.outputScript
  rw [hp, hh]
  by_cases h1 : v = kh
  · simp only [if_pos h1]
    refine ⟨?_, fun _ => ?_⟩
    · simp [toPayKeyHash, opsData, Op.toData, opcode20 hl]
    · subst h1
      unfold extractOutput
      rw [if_pos (by simp [payKeyHashPattern, toPayKeyHash, hl])]
      simp [toPayKeyHash, ← hl]
  · simp only [if_neg h1]
    by_cases h2 : v = sh
    · simp only [if_pos h2]
      refine ⟨?_, fun _ => ?_⟩
      · simp [toPayScriptHash, opsData, Op.toData, opcode20 hl]
      · subst h2
        unfold extractOutput
        rw [if_neg (by simp [payKeyHashPattern, toPayScriptHash]), if_pos (by simp [payScriptHashPattern, toPayScriptHash, opcode20 hl])]
        simp [toPayScriptHash, ← hl]
    · simp only [if_neg h2]
      refine ⟨rfl, fun h => ?_⟩
      rcases h with h | h
      · exact absurd h h1
      · exact absurd h h2

/-- A mini key of 22 or 30 characters is accepted exactly if the hash of it followed by a question mark starts with a zero byte, and its
secret is its hash. -/
theorem C63_minikey (key : Bytes) : minikeyToSecret b key =
    if (key.length = 22 ∨ key.length = 30) ∧ (Spec.Hash.sha256.digest (key ++ [63])).head? = some 0 then some (Spec.Hash.sha256.digest key)
    else none := by
  unfold minikeyToSecret
  by_cases hk : key.length = 22 ∨ key.length = 30
  · have e1 : HashFn.sha256Hash b true (key ++ [63]) = Spec.Hash.sha256.digest (key ++ [63]) :=
      (HashFn.C58_functions b true _ (by simp; omega)).2.2.2.1
    have e2 : HashFn.sha256Hash b true key = Spec.Hash.sha256.digest key := (HashFn.C58_functions b true _ (by omega)).2.2.2.1
    rw [e1, e2]
    have hl : (Spec.Hash.sha256.digest (key ++ [63])).length = 32 := Hash.standard_length (Hash.Standard.sha256 (b := Build.portable)) _
    generalize Spec.Hash.sha256.digest (key ++ [63]) = d at hl
    cases d with
    | nil => cases hl
    | cons x r => simp
  · rw [if_neg (fun h => hk h.1), if_neg (fun h => hk h.1)]

/-! ## A concrete case -/
example : ∃ t : Bytes, IsWif t 0x80 (beBytes 32 5) true ∧ (PrivateKey.fromString Build.portable t 0).valid = true ∧
    Address.fromPrivate Toy.curve Build.portable (PrivateKey.fromString Build.portable t 0) =
      Address.ofHash Build.portable (hash160 (serialized Toy.curve (beNat (beBytes 32 5) • Toy.curve.generator) true)) 0 := by
  have hb : beNat (beBytes 32 5) = 5 := Der.beNat_beBytes (by decide)
  obtain ⟨h1, h2⟩ := C63_wif_text (b := Build.portable) (beBytes 32 5) 0 0x80 true (by simp)
  refine ⟨_, h1, (C63_wif_accepts _ 0).1.2 ⟨_, _, _, h1, fun e => ?_⟩, ?_⟩
  · rw [e] at hb; exact absurd hb (by decide)
  · rw [h2]
    have := (C63_private_address (C := Toy.curve) (b := Build.portable) (beBytes 32 5) (toVersions 0 0x80) true (by simp)
      ((verify_iff _ _).2 (by rw [hb]; decide))).2
    exact this

end Verif.Wallet
