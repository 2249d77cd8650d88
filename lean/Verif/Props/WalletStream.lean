import Verif.Model.WalletStream
import Verif.Spec.Words
import Verif.Props.Config
import Verif.Props.Wallet
import Verif.Props.Bip38Text
import Verif.Props.Stealth
import Verif.Props.WitnessAddress
import Verif.Props.HdKeys
/-!
# C104: wallet values are read back from streams of text
-/
namespace Verif.WalletStream
open Verif Verif.Ec Verif.Spec Verif.Spec.Wallet
open Verif.Config (word word_framed Framed)
open Verif.ScriptText (isWs)
open Verif.Sha (Build)
open Verif.Bip38 (withCheck)
variable {P : Type} [AddCommGroup P] [DecidableEq P] {C : Curve P} {b : Build}

theorem ws_iff (c : UInt8) : isWs c = true ↔ c = 0x20 ∨ (9 ≤ c ∧ c ≤ 13) := by
  unfold isWs
  simp [Bool.or_eq_true, Bool.and_eq_true]

theorem blank_ws {s : Bytes} (h : Blank s) : ∀ c ∈ s, isWs c = true := fun c hc => (ws_iff c).2 (h c hc)

/-- A text that is one word. -/
def IsWord (t : Bytes) : Prop := t ≠ [] ∧ ∀ c ∈ t, isWs c = false

/-! ## Words -/

theorem drop_all {p : UInt8 → Bool} : ∀ {w : Bytes} (s : Bytes), (∀ c ∈ w, p c = true) → (w ++ s).dropWhile p = s.dropWhile p
  | [], _, _ => rfl
  | a :: w, s, h => by
    rw [List.cons_append, List.dropWhile_cons, h a (by simp)]
    exact drop_all s fun c hc => h c (by simp [hc])

theorem after_eq {w t s : Bytes} (hw : ∀ c ∈ w, isWs c = true) (ht : IsWord t) (hs : ∀ c, s.head? = some c → isWs c = true) :
    after (w ++ t ++ s) = s := by
  unfold after
  rw [List.append_assoc, drop_all _ hw]
  obtain ⟨hne, ht⟩ := ht
  have h1 : (t ++ s).dropWhile isWs = t ++ s := by
    cases t with
    | nil => exact absurd rfl hne
    | cons a t => rw [List.cons_append, List.dropWhile_cons, ht a (by simp)]; rfl
  rw [h1, drop_all _ (fun c hc => by rw [ht c hc]; rfl)]
  cases s with
  | nil => rfl
  | cons a s => rw [List.dropWhile_cons, hs a rfl]; rfl

/-- The values whose texts are written in a stream are read from it. -/
theorem read_back {α β : Type} (parse : Bytes → α) (ok : α → Bool) (value : β → α) (text : β → Bytes) (vs : List β)
    (h : ∀ v ∈ vs, IsWord (text v) ∧ parse (text v) = value v ∧ ok (value v) = true) :
    ∀ s, Written (vs.map text) s → ∃ rest, Blank rest ∧ readAll (assign parse ok) vs.length s = some (vs.map value, rest) := by
  induction vs with
  | nil =>
    intro s hs
    cases hs with
    | done w hw => exact ⟨s, hw, rfl⟩
  | cons v vs ih =>
    obtain ⟨h1, h2, h3⟩ := h v (by simp)
    have hn := fun x hx => h x (List.mem_cons_of_mem _ hx)
    have step : ∀ (w r : Bytes), Blank w → (∀ c, r.head? = some c → isWs c = true) →
        assign parse ok (w ++ text v ++ r) = ⟨value v, false, r⟩ := by
      intro w r hw hr
      unfold assign
      dsimp only
      rw [word_framed ⟨w, r, rfl, blank_ws hw, hr⟩ h1.1 h1.2, h2, h3, after_eq (blank_ws hw) h1 hr]
      rfl
    have blank_head : ∀ {w : Bytes} (r : Bytes), Blank w → w ≠ [] → ∀ c, (w ++ r).head? = some c → isWs c = true := by
      intro w r hw hne c hc
      cases w with
      | nil => exact absurd rfl hne
      | cons a w => cases hc; exact blank_ws hw _ (by simp)
    intro s hs
    rw [List.map_cons] at hs
    generalize ht : text v = t at hs
    generalize hl : vs.map text = l at hs
    cases hs with
    | last w _ u hw hu =>
      subst ht
      have hv : vs = [] := by simpa using hl
      subst hv
      refine ⟨u, hu, ?_⟩
      rw [List.length_cons, readAll]
      rw [step w u hw (by intro c hc; cases u with | nil => cases hc | cons a u => cases hc; exact blank_ws hu _ (by simp))]
      rfl
    | more w _ u _ r hw hu hne hr =>
      subst ht
      subst hl
      -- the blank before the rest belongs to the rest
      have hrest : Written (vs.map text) (u ++ r) := by
        have glue : ∀ {x : Bytes} (ts : List Bytes) (y : Bytes), Blank x → Written ts y → Written ts (x ++ y) := by
          intro x ts y hx hy
          have hb : ∀ {p q : Bytes}, Blank p → Blank q → Blank (p ++ q) := fun hp hq c hc => (List.mem_append.1 hc).elim (hp c) (hq c)
          cases hy with
          | done _ hy => exact .done _ (hb hx hy)
          | last p q z hp hz =>
            rw [show x ++ (p ++ q ++ z) = (x ++ p) ++ q ++ z by simp]
            exact .last _ _ _ (hb hx hp) hz
          | more p q z ts y hp hz hn h =>
            rw [show x ++ (p ++ q ++ z ++ y) = (x ++ p) ++ q ++ z ++ y by simp]
            exact .more _ _ _ _ _ (hb hx hp) hz hn h
        exact glue _ _ hu hr
      obtain ⟨rest, hb, he⟩ := ih hn (u ++ r) hrest
      refine ⟨rest, hb, ?_⟩
      rw [List.append_assoc (w ++ text v)]
      rw [List.length_cons, readAll]
      rw [step w (u ++ r) hw (blank_head r hu hne)]
      dsimp only
      rw [if_neg (by decide), he]
      rfl

/-! ## Texts -/

theorem word58 {t d : Bytes} (h : Radix.decode58 t = some d) (hd : d ≠ []) : IsWord t := by
  constructor
  · rintro rfl
    rw [show Radix.decode58 [] = some [] by decide +kernel] at h
    exact hd (Option.some.inj h).symm
  · intro c hc
    have h1 : ∀ c ∈ Radix.base58Chars, isWs c = false := by decide +kernel
    exact h1 c ((Radix.C32_accepts t).1 (by rw [h]; rfl) c hc)

theorem word_check {t d : Bytes} (h : Base58Check t d) (hd : d ≠ []) : IsWord t := by
  obtain ⟨v, h1, h2⟩ := (Wallet.check_iff t d).1 h
  refine word58 h1 fun e => hd ?_
  have := Wallet.checked_length h2
  subst e
  simp at this

theorem word16 {d : Bytes} (h : d ≠ []) : IsWord (Radix.encode16 d) := ⟨Config.hex_ne h, ScriptText.hex_noWs d⟩

/-! ## C104 -/

/-- **C104 (payment addresses).** Addresses written to a stream, with whitespace between, are read back in order. -/
theorem C104_payment (l : List (UInt8 × Bytes)) (h : ∀ x ∈ l, x.2.length = 20) (s : Bytes)
    (hs : Written (l.map fun x => (Wallet.Address.ofHash b x.2 x.1).encoded) s) :
    ∃ rest, Blank rest ∧ readAll (readPayment b) l.length s = some (l.map fun x => Wallet.Address.ofHash b x.2 x.1, rest) := by
  refine read_back (Wallet.Address.fromString b) (·.valid b) (fun x => Wallet.Address.ofHash b x.2 x.1) _ l (fun x hx => ?_) s hs
  obtain ⟨h1, h2, -, -, h5⟩ := Wallet.C63_address_text (b := b) x.1 x.2 (h x hx)
  exact ⟨word_check h1 (by simp), h5, h2⟩

/-- **C104 (public keys).** -/
theorem C104_public (l : List (P × Bool)) (h : ∀ x ∈ l, x.1 ≠ 0) (s : Bytes)
    (hs : Written (l.map fun x => Radix.encode16 (serialized C x.1 x.2)) s) :
    ∃ rest, Blank rest ∧ readAll (readPublic C) l.length s = some (l.map fun x => ⟨C.compressed x.1, x.2⟩, rest) := by
  refine read_back (Wallet.PublicKey.fromString C) (·.valid) (fun x => ⟨C.compressed x.1, x.2⟩) _ l (fun x hx => ?_) s hs
  obtain ⟨-, h2, -⟩ := Wallet.serialized_data (C := C) x.1 (h x hx) x.2
  obtain ⟨-, -, -, h4⟩ := Wallet.C63_public_text (C := C) x.1 (h x hx) x.2
  refine ⟨word16 ?_, h4, h2⟩
  unfold serialized
  obtain ⟨a, y, e, -⟩ := C.compressed_form x.1
  obtain ⟨y', f, -⟩ := C.uncompressed_form x.1
  cases x.2 with
  | true => rw [if_pos rfl, e]; simp
  | false => rw [if_neg (by decide), f]; simp

/-- **C104 (private keys).** The secret, the form and the version of the text are read back. The address version is not: it is that of
mainnet whatever it was (`C104_private_version_counterexample`). -/
theorem C104_private (l : List (Bytes × UInt8 × UInt8 × Bool)) (h : ∀ x ∈ l, x.1.length = 32 ∧ x.1 ≠ List.replicate 32 0) (s : Bytes)
    (hs : Written (l.map fun x => Wallet.PrivateKey.encoded b ⟨x.1, Wallet.toVersions x.2.1 x.2.2.1, x.2.2.2⟩) s) :
    ∃ rest, Blank rest ∧
      readAll (readPrivate b) l.length s = some (l.map fun x => ⟨x.1, Wallet.toVersions 0 x.2.2.1, x.2.2.2⟩, rest) := by
  refine read_back (fun t => Wallet.PrivateKey.fromString b t 0) (·.valid) (fun x => ⟨x.1, Wallet.toVersions 0 x.2.2.1, x.2.2.2⟩) _ l
    (fun x hx => ?_) s hs
  obtain ⟨h1, h2⟩ := h x hx
  have same : Wallet.PrivateKey.encoded b ⟨x.1, Wallet.toVersions x.2.1 x.2.2.1, x.2.2.2⟩ =
      Wallet.PrivateKey.encoded b ⟨x.1, Wallet.toVersions 0 x.2.2.1, x.2.2.2⟩ := by
    unfold Wallet.PrivateKey.encoded
    dsimp only
    rw [(Wallet.versions_eq x.2.1 x.2.2.1).1, (Wallet.versions_eq 0 x.2.2.1).1]
  rw [same]
  obtain ⟨h3, h4⟩ := Wallet.C63_wif_text (b := b) x.1 0 x.2.2.1 x.2.2.2 h1
  refine ⟨word_check h3.2 (by simp), h4, ?_⟩
  unfold Wallet.PrivateKey.valid
  simpa using h2

/-- A private key with another address version than that of mainnet is not read back. -/
theorem C104_private_version_counterexample (k : Bytes) (a w : UInt8) (c : Bool) (hk : k.length = 32) (ha : a ≠ 0) :
    (readPrivate b (Wallet.PrivateKey.encoded b ⟨k, Wallet.toVersions a w, c⟩)).target ≠ ⟨k, Wallet.toVersions a w, c⟩ := by
  have same : Wallet.PrivateKey.encoded b ⟨k, Wallet.toVersions a w, c⟩ = Wallet.PrivateKey.encoded b ⟨k, Wallet.toVersions 0 w, c⟩ := by
    unfold Wallet.PrivateKey.encoded
    dsimp only
    rw [(Wallet.versions_eq a w).1, (Wallet.versions_eq 0 w).1]
  obtain ⟨h3, h4⟩ := Wallet.C63_wif_text (b := b) k 0 w c hk
  have hw := word_check h3.2 (by simp)
  rw [same]
  unfold readPrivate assign
  dsimp only
  rw [Config.word_self hw.2, h4]
  intro e
  have := congrArg (fun x : Wallet.PrivateKey => Wallet.addressVersion x.versions) e
  dsimp only at this
  rw [(Wallet.versions_eq 0 w).2, (Wallet.versions_eq a w).2] at this
  exact ha this.symm

/-- **C104 (encrypted keys).** -/
theorem C104_encrypted (size : Nat) (h4 : 4 < size) (hz : size ≤ 100000) (l : List Bytes)
    (h : ∀ d ∈ l, d.length + 4 = size) (s : Bytes) (hs : Written (l.map fun d => Radix.encode58 (withCheck d)) s) :
    ∃ rest, Blank rest ∧ readAll (readEncrypted b size) l.length s = some (l.map fun d => some (withCheck d), rest) := by
  refine read_back (Bip38.fromString b size) (·.isSome) (fun d => some (withCheck d)) _ l (fun d hd => ?_) s hs
  have hl := h d hd
  have h1 : Base58Check (Radix.encode58 (withCheck d)) d := (Wallet.check_iff _ _).2 ⟨_, Radix.C32_decode_encode _, rfl⟩
  exact ⟨word_check h1 (by rintro rfl; simp at hl; omega), ((Bip38.C72_text size (by omega) hz _ _).1).2 ⟨d, hl, rfl, h1⟩, rfl⟩

/-- **C104 (stealth addresses).** -/
theorem C104_stealth (l : List Stealth.Address)
    (h : ∀ a ∈ l, a.valid = true ∧ ∃ (f : Binary.Binary) (bits : List Bool) (scan : Bytes) (keys : List Bytes) (n v : UInt8), Binary.Holds f bits ∧
      scan.length = 33 ∧ (∀ k ∈ keys, k.length = 33) ∧ (∀ k ∈ keys.tail, k ≠ scan) ∧ a = Stealth.Address.ofParts f scan keys n v)
    (s : Bytes) (hs : Written (l.map fun a => a.encoded b) s) :
    ∃ rest, Blank rest ∧ readAll (readStealth b) l.length s = some (l, rest) := by
  have := read_back (fun t => (Stealth.Address.fromString b t).getD .none) (·.valid) id (fun a => a.encoded b) l (fun a ha => ?_) s hs
  · rwa [List.map_id] at this
  · obtain ⟨hv, f, bits, scan, keys, n, v, h1, h2, h3, h4, h5⟩ := h a ha
    obtain ⟨-, h6⟩ := Stealth.C67_address_text (b := b) f bits h1 scan keys n v h2 h3 h4 a h5 hv
    refine ⟨?_, by rw [h6]; rfl, hv⟩
    have hd : Radix.decode58 (a.encoded b) = some (a.toChunk b) := Radix.C32_decode_encode _
    refine word58 hd ?_
    unfold Stealth.Address.toChunk Wallet.insertChecksum Hd.insertChecksum Stealth.Address.payload
    simp

/-- **C104 (witness addresses).** Those whose text is short enough to be read at all (`C57_too_long_counterexample`). -/
theorem C104_witness (l : List Bech32.Address)
    (h : ∀ a ∈ l, Bech32.fromParameters a.program a.version a.prefix_ = some a ∧ (Bech32.encoded a).length ≤ 90)
    (s : Bytes) (hs : Written (l.map Bech32.encoded) s) :
    ∃ rest, Blank rest ∧ readAll readWitness l.length s = some (l.map some, rest) := by
  refine read_back (fun t => (Bech32.parseAddress t false).toOption) (·.isSome) some _ l (fun a ha => ?_) s hs
  obtain ⟨h1, h2⟩ := h a ha
  obtain ⟨hl, hne, -, hp, hsz⟩ := (Bech32.C57_parameters a.program a.prefix_ a.version).1 h1
  have hv : a.version < 32 := by unfold Bech32.Sized at hsz; omega
  have hpm : a.program.length ≤ maxSize := by unfold Bech32.Sized at hsz; unfold maxSize; omega
  have hchars := (Pack.C33_base32 [] (by decide) _ (Bech32.built_lt a.version hv a.program a.prefix_ hpm)).2.2.1
  have hlow : Bech32.toLower (Bech32.encoded a) = Bech32.encoded a := by
    unfold Bech32.encoded
    rw [Bech32.toLower_append, Bech32.toLower_append, Bech32.toLower_of_base32 hchars, hl]
    rfl
  refine ⟨⟨?_, fun c hc => ?_⟩, ?_, rfl⟩
  · unfold Bech32.encoded
    simp
  · unfold Bech32.encoded at hc
    have h32 : ∀ c ∈ Pack.base32Chars, isWs c = false := by decide +kernel
    rcases List.mem_append.1 hc with hc | hc
    · rcases List.mem_append.1 hc with hc | hc
      · have := hp c hc
        cases hw : isWs c with
        | false => rfl
        | true =>
          rw [ws_iff] at hw
          have h33 := UInt8.le_iff_toNat_le.1 this.1
          rcases hw with rfl | hw
          · exact absurd h33 (by decide)
          · have := UInt8.le_iff_toNat_le.1 hw.2
            have e1 : (33 : UInt8).toNat = 33 := rfl
            have e2 : (13 : UInt8).toNat = 13 := rfl
            omega
      · rw [List.mem_singleton] at hc; subst hc; decide
    · exact h32 c (hchars c hc)
  · show (Bech32.parseAddress (Bech32.encoded a) false).toOption = some a
    rw [Bech32.C57_encoded_parses_partial a h1 h2 _ hlow (Bech32.not_mixed_of_lower hlow)]
    rfl

/-! ## What is not read -/

/-- **C104 (refusal).** Just the words that are not a text of a value are refused, and refusal is an exception. -/
theorem C104_refused (s : Bytes) :
    ((readPayment b s).thrown = true ↔ ¬ ∃ v h, h.length = 20 ∧ Base58Check (word s) (v :: h)) ∧
    ((readPrivate b s).thrown = true ↔ ¬ ∃ v k c, IsWif (word s) v k c ∧ k ≠ List.replicate 32 0) ∧
    (∀ size, 4 ≤ size → size ≤ 100000 → ((readEncrypted b size s).thrown = true ↔ ¬ ∃ d, d.length + 4 = size ∧ Base58Check (word s) d)) := by
  have neg : ∀ {x : Bool} {p : Prop}, (x = true ↔ p) → ((!x) = true ↔ ¬ p) := by
    intro x p h
    rw [← h]; cases x <;> simp
  refine ⟨neg (Wallet.C63_address_accepts _).1, neg ?_, fun size h4 hs => neg ?_⟩
  · rw [Wallet.C63_wif_accepts _ 0 |>.1]
  · show (Bip38.fromString b size (word s)).isSome = true ↔ _
    rw [Option.isSome_iff_exists]
    constructor
    · rintro ⟨v, hv⟩
      obtain ⟨d, h1, -, h2⟩ := ((Bip38.C72_text size h4 hs _ _).1).1 hv
      exact ⟨d, h1, h2⟩
    · rintro ⟨d, h1, h2⟩
      exact ⟨_, ((Bip38.C72_text size h4 hs _ _).1).2 ⟨d, h1, rfl, h2⟩⟩

/-! ## Values that are not assigned -/

/-- Reading an encrypted token or a hierarchical deterministic key leaves the value as it was, whatever is read; an exception is thrown
just if it was not valid before. -/
theorem C104_discarded_counterexample (s : Bytes) :
    (∀ t, (readToken b t s).target = t ∧ ((readToken b t s).thrown = true ↔ t = none)) ∧
    (∀ k, (readHdPrivate C k s).target = k ∧ ((readHdPrivate C k s).thrown = true ↔ k.pub.valid = false)) ∧
    (∀ k, (readHdPublic k s).target = k ∧ ((readHdPublic k s).thrown = true ↔ k.valid = false)) := by
  refine ⟨fun t => ⟨rfl, ?_⟩, fun k => ⟨rfl, ?_⟩, fun k => ⟨rfl, ?_⟩⟩
  · unfold readToken discard
    cases t <;> simp
  · unfold readHdPrivate discard
    simp
  · unfold readHdPublic discard
    simp

/-! ## Cases -/

example : ∃ rest, Blank rest ∧ readAll (readPayment Build.portable) 2
    (([9] : Bytes) ++ (Wallet.Address.ofHash Build.portable (List.replicate 20 7) 0).encoded ++ [32, 10] ++
      ([] ++ (Wallet.Address.ofHash Build.portable (List.replicate 20 8) 5).encoded ++ [])) =
    some ([Wallet.Address.ofHash Build.portable (List.replicate 20 7) 0, Wallet.Address.ofHash Build.portable (List.replicate 20 8) 5], rest) :=
  C104_payment [(0, List.replicate 20 7), (5, List.replicate 20 8)] (by simp) _
    (.more _ _ _ _ _ (by unfold Blank; simp) (by unfold Blank; simp) (by simp) (.last _ _ _ (by unfold Blank; simp) (by unfold Blank; simp)))

example : Bech32.fromParameters (List.replicate 20 1) 0 Bech32.mainnet = some ⟨Bech32.mainnet, 0, List.replicate 20 1⟩ ∧
    (Bech32.encoded ⟨Bech32.mainnet, 0, List.replicate 20 1⟩).length ≤ 90 := by
  refine ⟨by decide +kernel, ?_⟩
  rw [Bech32.encoded_length _ (by decide) (by decide)]; decide

end Verif.WalletStream
