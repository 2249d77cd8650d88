import Verif.Model.Message
import Verif.Props.Wallet
import Verif.Props.Sighash
import Verif.Lemmas.ToyCurve
/-!
# C68: signed messages
-/
namespace Verif.Message
open Verif Verif.Ec Verif.Wallet Verif.Spec Verif.Spec.Wallet Verif.Spec.Message
open Verif.Sha (Build)
variable {P : Type} [AddCommGroup P] [DecidableEq P] {C : Curve P} {R : Recovery C} {b : Build}

theorem compactSize_eq (n : Nat) : writeVariable n = compactSize n := by
  unfold writeVariable compactSize writeLE
  by_cases h1 : n < 0xfd
  · rw [if_pos h1, if_pos h1]; simp [leBytes, Nat.mod_eq_of_lt (show n < 256 by omega)]
  · rw [if_neg h1, if_neg h1]
    by_cases h2 : n < 2 ^ 16
    · rw [if_pos (by omega), if_pos h2]
    · rw [if_neg (by omega), if_neg h2]
      by_cases h3 : n < 2 ^ 32
      · rw [if_pos (by omega), if_pos h3]
      · rw [if_neg (by omega), if_neg h3]

theorem prefix_eq : writeString messagePrefix = compactSize magic.length ++ magic := by
  decide +kernel

/-- **C68** What is signed is the double SHA-256 of the documented preimage. -/
theorem C68_hash (m : Bytes) (h : m.length ≤ 2 ^ 60) : hashMessage b m = sha256d (preimage m) := by
  have hm : HashFn.messages [.write (writeString messagePrefix), .write (writeVariable m.length), .write m, .flush] =
      [preimage m, []] := by
    simp only [HashFn.messages]
    rw [prefix_eq, compactSize_eq]
    unfold preimage
    simp
  have hl : (preimage m).length ≤ m.length + 34 := by
    unfold preimage
    have e1 : (compactSize magic.length).length = 1 := by decide
    have e2 : magic.length = 24 := rfl
    have e3 : (compactSize m.length).length ≤ 9 := by
      unfold compactSize
      split
      · simp
      · split
        · simp
        · split <;> simp
    simp only [List.length_append]
    omega
  unfold hashMessage
  rw [HashFn.C58_sha256x2_writer, hm]
  · simp only [List.flatMap_cons, List.flatMap_nil]
    have : (Hash.sha256.digest (Hash.sha256.digest (preimage m))).length = 32 := sha256d_length (preimage m)
    rw [List.take_left' this]
    rfl
  · rw [hm]
    intro x hx
    rcases List.mem_cons.1 hx with rfl | hx
    · omega
    · rcases List.mem_singleton.1 hx with rfl
      simp

/-- **C68** Two messages with the same digest are the same, or they are a collision of double SHA-256. -/
theorem C68_binding (m n : Bytes) (hm : m.length ≤ 2 ^ 60) (hn : n.length ≤ 2 ^ 60) (h : hashMessage b m = hashMessage b n) :
    m = n ∨ (preimage m ≠ preimage n ∧ sha256d (preimage m) = sha256d (preimage n)) := by
  rw [C68_hash m hm, C68_hash n hn] at h
  by_cases e : preimage m = preimage n
  · left
    unfold preimage at e
    rw [List.append_assoc, List.append_assoc _ (compactSize n.length)] at e
    have e := List.append_cancel_left e
    rw [← compactSize_eq, ← compactSize_eq] at e
    exact (Sighash.writeVariable_prefix (by omega) (by omega) e).2
  · exact .inr ⟨e, h⟩

/-- **C68** The first byte of a signature holds the recovery identifier and the compression, and nothing else is a first byte. -/
theorem C68_header (magic : UInt8) (id : UInt8) (c : Bool) :
    (magicToRecoveryId magic = some (id, c) ↔ id ≤ 3 ∧ magic = header id.toNat c) ∧
    (recoveryIdToMagic id c = some magic ↔ id ≤ 3 ∧ magic = header id.toNat c) := by
  constructor
  · have key : ∀ m : UInt8, ∀ i : UInt8, ∀ c : Bool, magicToRecoveryId m = some (i, c) ↔ i ≤ 3 ∧ m = header i.toNat c := by
      intro m i c
      constructor
      · intro h
        have := (Der.byte_forall (p := fun m => (magicToRecoveryId m).all (fun q => decide (q.1 ≤ 3 ∧ m = header q.1.toNat q.2)) = true)
          (by decide +kernel) : _) m
        rw [h] at this
        simpa using this
      · rintro ⟨hi, rfl⟩
        have := (Der.byte_forall (p := fun i => decide (i ≤ 3 → ∀ c, magicToRecoveryId (header i.toNat c) = some (i, c))) (by decide +kernel) : _) i
        exact of_decide_eq_true this hi c
    exact key magic id c
  · have : ∀ c, recoveryIdToMagic id c = if id ≤ 3 then some (header id.toNat c) else none := by
      intro c
      have := (Der.byte_forall (p := fun i => decide (∀ c, recoveryIdToMagic i c = if i ≤ 3 then some (header i.toNat c) else none)) (by decide +kernel) : _) id
      exact of_decide_eq_true this c
    rw [this]
    by_cases h : id ≤ 3
    · rw [if_pos h]
      exact ⟨fun e => ⟨h, (Option.some.inj e).symm⟩, fun e => by rw [e.2]⟩
    · rw [if_neg h]
      exact ⟨fun e => (by cases e), fun e => absurd e.1 h⟩

theorem recover_eq (c : Bool) (sig : Bytes) (id : UInt8) (d : Bytes) :
    recover C R b c sig id d = (R.recover sig id.toNat d).map fun p => hash160 (serialized C p c) := by
  unfold recover recoverPublic
  cases R.recover sig id.toNat d with
  | none => rfl
  | some p =>
    simp only [Option.map_some, Option.some.injEq]
    have hl : (serialized C p c).length ≤ 100000 := by
      unfold serialized
      cases c
      · have := uncompressed_length C p; simp; omega
      · have := compressed_length C p; simp; omega
    exact hash160_eq _ hl

/-- **C68** A signature is accepted exactly if its first byte is a header and the key recovered from the rest for the digest of the
message, in the form the header tells, hashes to the hash of the address. The version of the address is not looked at. -/
theorem C68_verify (m : Bytes) (hm : m.length ≤ 2 ^ 60) (a : Address) (sig : Bytes) (hs : sig.length = 65) :
    verifyMessage C R b m a sig = true ↔ ∃ (id : Nat) (c : Bool) (rest : Bytes) (p : P), id ≤ 3 ∧ sig = header id c :: rest ∧
      R.recover rest id (sha256d (preimage m)) = some p ∧ hash160 (serialized C p c) = a.hash := by
  cases sig with
  | nil => cases hs
  | cons x rest =>
    unfold verifyMessage
    simp only [List.headD_cons, List.tail_cons]
    rw [C68_hash m hm]
    have hd := fun id c => (C68_header x id c).1
    cases he : magicToRecoveryId x with
    | none =>
      simp only [Bool.false_eq_true, false_iff]
      rintro ⟨id, c, r, p, h1, h2, -⟩
      injection h2 with h2 _
      have e : (UInt8.ofNat id).toNat = id := by rw [UInt8.toNat_ofNat']; omega
      have := (hd (UInt8.ofNat id) c).2 ⟨UInt8.le_iff_toNat_le.2 (by rw [e]; exact h1), by rw [e]; exact h2⟩
      rw [he] at this
      cases this
    | some q =>
      obtain ⟨id, c⟩ := q
      obtain ⟨h1, h2⟩ := (hd id c).1 he
      simp only [recover_eq]
      constructor
      · intro h
        cases hr : R.recover rest id.toNat (sha256d (preimage m)) with
        | none => rw [hr] at h; cases h
        | some p =>
          rw [hr] at h
          exact ⟨id.toNat, c, rest, p, UInt8.le_iff_toNat_le.1 h1, by rw [h2], hr, by simpa using h⟩
      · rintro ⟨i, c', r, p, h3, h4, h5, h6⟩
        injection h4 with h4 h7
        subst h7
        have e : (UInt8.ofNat i).toNat = i := by rw [UInt8.toNat_ofNat']; omega
        have := (hd (UInt8.ofNat i) c').2 ⟨UInt8.le_iff_toNat_le.2 (by rw [e]; exact h3), by rw [e]; exact h4⟩
        rw [he] at this
        simp only [Option.some.injEq, Prod.mk.injEq] at this
        obtain ⟨rfl, rfl⟩ := this
        rw [e, h5]
        simpa using h6

/-- **C68** A valid secret signs every message, and what it signs is accepted for its address of either form and of any version;
no other secret signs. -/
theorem C68_sign (m : Bytes) (hm : m.length ≤ 2 ^ 60) (s : Bytes) (c : Bool) :
    (0 < beNat s ∧ beNat s < C.order → ∃ sig, signMessage C R b m s c = some sig ∧ sig.length = 65 ∧
      ∀ v, verifyMessage C R b m (Address.ofHash b (hash160 (serialized C (beNat s • C.generator) c)) v) sig = true) ∧
    (¬ (0 < beNat s ∧ beNat s < C.order) → signMessage C R b m s c = none) := by
  constructor
  · rintro ⟨h1, h2⟩
    obtain ⟨sig, id, e1, e2, e3, e4, e5⟩ := R.sign_valid s (hashMessage b m) h1 h2
    have e : (UInt8.ofNat id.toNat).toNat = id.toNat := by rw [UInt8.toNat_ofNat']; omega
    have hle : UInt8.ofNat id.toNat ≤ 3 := UInt8.le_iff_toNat_le.2 (by rw [e]; show id.toNat ≤ 3; omega)
    have hmg : recoveryIdToMagic (UInt8.ofNat id.toNat) c = some (header id.toNat c) :=
      ((C68_header _ _ c).2).2 ⟨hle, by rw [e]⟩
    refine ⟨header id.toNat c :: sig, ?_, by simp [e2], fun v => ?_⟩
    · unfold signMessage signRecoverable
      rw [e1]
      dsimp only
      rw [if_neg (by omega)]
      dsimp only
      rw [hmg]
    · refine (C68_verify m hm _ _ (by simp [e2])).2 ⟨id.toNat, c, sig, beNat s • C.generator, by omega, rfl, ?_, ?_⟩
      · rw [← C68_hash (b := b) m hm]; exact e5
      · exact ((C63_address_text (b := b) v _ (hash160_length _)).2.2.2.1).symm
  · intro h
    unfold signMessage signRecoverable
    rw [R.sign_invalid _ _ h]

/-- **C68** A private key signs for its own address, and a WIF text for the address of the key it holds. -/
theorem C68_key (m : Bytes) (hm : m.length ≤ 2 ^ 60) (k : PrivateKey) (hk : k.secret.length = 32) (hv : verifySecret C k.secret = true) :
    ∃ sig, signKey C R b m k = some sig ∧ verifyMessage C R b m (Address.fromPrivate C b k) sig = true := by
  obtain ⟨sig, h1, -, h3⟩ := (C68_sign (C := C) (R := R) (b := b) m hm k.secret k.compress).1 ((verify_iff C _).1 hv)
  refine ⟨sig, h1, ?_⟩
  rw [(C63_private_address (C := C) (b := b) k.secret k.versions k.compress hk hv).2]
  exact h3 _

theorem C68_wif (m : Bytes) (hm : m.length ≤ 2 ^ 60) (t : Bytes) :
    (∀ w s c, IsWif t w s c → verifySecret C s = true → ∃ sig, signWif C R b m t = some sig ∧
      ∀ v, verifyMessage C R b m (Address.ofHash b (hash160 (serialized C (beNat s • C.generator) c)) v) sig = true) ∧
    ((∀ w s c, IsWif t w s c → verifySecret C s = false) → signWif C R b m t = none) := by
  obtain ⟨h1, h2⟩ := C63_wif_accepts (b := b) t 0
  constructor
  · intro w s c hw hs
    have h := (verify_iff C s).1 hs
    obtain ⟨sig, g1, -, g3⟩ := (C68_sign (C := C) (R := R) (b := b) m hm s c).1 h
    refine ⟨sig, ?_, g3⟩
    have hv : (PrivateKey.fromString b t 0).valid = true := h1.2 ⟨w, s, c, hw, fun e => by
      rw [e] at h; exact absurd h.1 (by decide)⟩
    unfold signWif
    dsimp only
    rw [if_pos hv, h2 w s c hw]
    exact g1
  · intro h
    unfold signWif
    dsimp only
    by_cases hv : (PrivateKey.fromString b t 0).valid = true
    · obtain ⟨w, s, c, hw, -⟩ := h1.1 hv
      rw [if_pos hv, h2 w s c hw]
      exact (C68_sign (C := C) (R := R) (b := b) m hm s c).2 (fun hh => by
        have := h w s c hw
        rw [(verify_iff C s).2 hh] at this; cases this)
    · rw [if_neg hv]

/-! ## There is a `Recovery` -/

/-- A signature that is the public key itself. -/
def toyRecovery : Recovery Toy.curve where
  sign s _ := if 0 < beNat s ∧ beNat s < Toy.curve.order then some (beBytes 64 (beNat s), 1) else none
  recover sig id _ := if id = 1 ∧ 0 < beNat sig ∧ beNat sig < Toy.curve.order then some (beNat sig • Toy.curve.generator) else none
  sign_valid s d h1 h2 := by
    refine ⟨_, 1, if_pos ⟨h1, h2⟩, by simp, by decide, by decide, ?_⟩
    have : beNat (beBytes 64 (beNat s)) = beNat s := Der.beNat_beBytes (lt_of_lt_of_le h2 Toy.le64)
    rw [this, if_pos ⟨rfl, h1, h2⟩]
  sign_invalid s d h := if_neg h
  recover_ne sig id d p h := by
    split at h
    · rename_i hh
      injection h with h
      subst h
      exact valid_smul Toy.curve hh.2.1 hh.2.2
    · cases h

example : ∃ sig, signMessage Toy.curve toyRecovery Build.portable (Radix.ascii "hello") (beBytes 32 5) false = some sig ∧
    verifyMessage Toy.curve toyRecovery Build.portable (Radix.ascii "hello")
      (Address.ofHash Build.portable (hash160 (serialized Toy.curve (beNat (beBytes 32 5) • Toy.curve.generator) false)) 0) sig = true := by
  obtain ⟨sig, h1, -, h3⟩ := (C68_sign (C := Toy.curve) (R := toyRecovery) (b := Build.portable) (Radix.ascii "hello") (by decide) (beBytes 32 5) false).1
    (by decide +kernel)
  exact ⟨sig, h1, h3 0⟩

end Verif.Message
