import Verif.Model.Electrum
import Verif.Spec.Electrum
import Verif.Props.Mnemonic
import Verif.Props.ElectrumV1
/-!
# C80: Electrum v2 mnemonics
-/
namespace Verif.Electrum
open Verif Verif.Bit Verif.Bit.Spec Verif.Pack Verif.Mnemonic Verif.Spec.Electrum

/-! ### Sizes and bits -/

theorem trimmed_unique {e c c' : Bytes} (h : Trimmed e c) (h' : Trimmed e c') : c = c' := by
  obtain ⟨z, hz, h⟩ := h
  obtain ⟨z', hz', h'⟩ := h'
  apply bitsOf_inj
  have l1 := congrArg List.length h
  have l2 := congrArg List.length h'
  rw [bitsOf_length, List.length_append, List.length_replicate] at l1 l2
  rw [h, h', show z = z' by omega]

theorem usable_eq (n : Nat) : usableSize n = (11 * (8 * n / 11) + 7) / 8 := by
  unfold usableSize unusedBytes unusedBits
  have h : n * 8 = 8 * n := Nat.mul_comm ..
  rw [h]
  have hq : 8 * n = 11 * (8 * n / 11) + 8 * n % 11 := (Nat.div_add_mod ..).symm
  have hr : 8 * n % 11 < 11 := Nat.mod_lt _ (by decide)
  generalize 8 * n / 11 = q at *
  generalize 8 * n % 11 = r at *
  rcases Nat.lt_or_ge r 8 with h8 | h8
  · rw [Nat.div_eq_of_lt h8]; omega
  · rw [show r / 8 = 1 by omega]; omega

theorem trimmed_length {e c : Bytes} (h : Trimmed e c) : c.length = usableSize e.length := by
  obtain ⟨z, hz, h⟩ := h
  have l1 := congrArg List.length h
  rw [bitsOf_length, List.length_append, List.length_replicate, List.length_take, bitsOf_length] at l1
  rw [usable_eq]
  omega

theorem usable_groups (n : Nat) : 8 * usableSize n / 11 = 8 * n / 11 := by
  rw [usable_eq]
  generalize 8 * n / 11 = q
  apply Nat.div_eq_of_lt_le <;> omega

theorem usable_idem (n : Nat) : usableSize (usableSize n) = usableSize n := by
  rw [usable_eq (usableSize n), usable_groups, ← usable_eq]

theorem usable_unused (n : Nat) : unusedBits (usableSize n) < 8 := by
  have h := usable_groups n
  have h2 := usable_eq n
  unfold unusedBits
  rw [Nat.mul_comm]
  generalize usableSize n = u at *
  generalize 8 * n / 11 = q at *
  omega

theorem mask_table : ∀ k < 8, ∀ x < 256,
    numBits 8 (UInt8.ofNat (x &&& (255 <<< k))).toNat = (numBits 8 x).take (8 - k) ++ List.replicate k false := by
  decide +kernel

/-- Clearing the pad bits. -/
theorem mask_trimmed (e : Bytes) (hne : e ≠ []) (hu : unusedBits e.length < 8) : Trimmed e (mask e) := by
  refine ⟨unusedBits e.length, hu, ?_⟩
  have hs := List.dropLast_concat_getLast hne
  have hpos : 0 < e.length := List.length_pos_iff.2 hne
  unfold mask
  rw [List.getLastD_eq_getLast?, List.getLast?_eq_some_getLast hne, Option.getD_some]
  have ht := mask_table _ hu (e.getLast hne).toNat (UInt8.toNat_lt _)
  rw [bitsOf_append]
  have hb : bitsOf [UInt8.ofNat ((e.getLast hne).toNat &&& 255 <<< unusedBits e.length)]
      = (numBits 8 (e.getLast hne).toNat).take (8 - unusedBits e.length) ++ List.replicate (unusedBits e.length) false := by
    show numBits 8 _ ++ [] = _
    rw [List.append_nil]
    exact ht
  rw [hb, ← List.append_assoc]
  congr 1
  conv => rhs; rw [← hs]
  rw [bitsOf_append]
  have hl : (bitsOf e.dropLast).length = 8 * (e.length - 1) := by rw [bitsOf_length, List.length_dropLast]
  have hx : (bitsOf [e.getLast hne]) = numBits 8 (e.getLast hne).toNat := by
    show numBits 8 _ ++ [] = _
    rw [List.append_nil]
  have hsl : (e.dropLast ++ [e.getLast hne]).length = e.length := by rw [hs]
  have hk : 11 * (8 * e.length / 11) = 8 * (e.length - 1) + (8 - unusedBits e.length) := by
    unfold unusedBits at hu ⊢
    omega
  rw [hsl, hk, hx, ← hl, List.take_length_add_append]

theorem mask_length (e : Bytes) (hne : e ≠ []) : (mask e).length = e.length := by
  have hpos : 0 < e.length := List.length_pos_iff.2 hne
  unfold mask
  rw [List.length_append, List.length_dropLast]
  simp only [List.length_cons, List.length_nil]
  omega

/-- Cutting off a byte that is not used. -/
theorem trimmed_take {e c : Bytes} (h : Trimmed (e.take (usableSize e.length)) c) : Trimmed e c := by
  obtain ⟨z, hz, h⟩ := h
  refine ⟨z, hz, ?_⟩
  have hle : usableSize e.length ≤ e.length := Nat.sub_le _ _
  rw [h, List.length_take, Nat.min_eq_left hle, usable_groups]
  congr 1
  have hsplit : bitsOf e = bitsOf (e.take (usableSize e.length)) ++ bitsOf (e.drop (usableSize e.length)) := by
    rw [← bitsOf_append, List.take_append_drop]
  rw [hsplit, List.take_append_of_le_length]
  rw [bitsOf_length, List.length_take, Nat.min_eq_left hle]
  have := usable_groups e.length
  omega

/-- What is trimmed is spelled by words. -/
theorem trimmed_words (l : Language) (hl : l ≠ .none) (e c : Bytes) (hc : c.length ≤ 64) (h : Trimmed e c) :
    Spells (wordList l) c (encoder c l) ∧ (encoder c l).length = 8 * e.length / 11 ∧
    decoder (encoder c l) l = c ∧ ∀ w ∈ encoder c l, w ∈ wordList l := by
  obtain ⟨z, hz, hb⟩ := h
  have hlen : ((bitsOf e).take (11 * (8 * e.length / 11))).length = 11 * (8 * e.length / 11) := by
    rw [List.length_take, bitsOf_length]
    omega
  obtain ⟨ns, h1, h2, h3⟩ := exists_groups _ _ hlen
  rw [← h3] at hb
  have hu : unpack2048 ns = c := by
    obtain ⟨j, hj, hu⟩ := C34_unpack2048 ns
    apply bitsOf_inj
    have l1 := congrArg List.length hb
    have l2 := congrArg List.length hu
    rw [bitsOf_length, List.length_append, List.length_replicate] at l1 l2
    rw [hu, hb, show j = z by omega]
  have hp : pack2048 c = ns := by
    rw [← hu]
    refine C34_roundtrip2048 ns h2 ?_
    rw [hu]
    simp only [maxSize]
    omega
  have hat := at_numbers l hl ns h2
  have hmem : ∀ w ∈ dictionaries.at_ ns l, w ∈ wordList l := by
    intro w hw
    have : some w ∈ (dictionaries.at_ ns l).map some := List.mem_map_of_mem hw
    rw [hat] at this
    obtain ⟨n, hn, hw⟩ := List.mem_map.1 this
    exact List.mem_of_getElem? hw
  have hlw := congrArg List.length hat
  simp only [List.length_map] at hlw
  unfold encoder decode2048
  rw [hp]
  refine ⟨⟨ns, h2, hat, z, hz, hb⟩, by rw [hlw, h1], ?_, hmem⟩
  obtain ⟨ms, m1, m2, m3⟩ := numbers_of l hl _ hmem
  have hmn : ms = ns := by
    rw [hat] at m2
    apply List.ext_getElem
    · have := congrArg List.length m2
      simpa using this.symm
    · intro i hi1 hi2
      have := congrArg (fun x => x[i]?) m2
      simp only [List.getElem?_map, List.getElem?_eq_getElem hi1, List.getElem?_eq_getElem hi2, Option.map_some] at this
      injection this with this
      have hlt : ns[i] < (wordList l).length := by rw [wordList_length l hl]; exact h2 _ (List.getElem_mem hi2)
      rw [List.getElem?_eq_getElem hlt] at this
      exact (wordList_nodup l hl ns[i] ms[i] _ (List.getElem?_eq_getElem hlt) this.symm).symm
  subst hmn
  unfold decoder encode2048
  dsimp only
  rw [m3, if_neg, if_neg]
  · rw [Option.getD_some, List.map_map]
    conv => rhs; rw [← hu, ← List.map_id ms]
    congr 1
  · simp
  · rw [Bool.and_eq_true]
    rintro ⟨h5, h6⟩
    have : ms = [] := by simpa using h5
    subst this
    simp [Dictionaries.at_, find_language l hl] at h6

/-! ### Versions -/

/-- The prefix of a version. -/
def ofVersion : Version → Prefix
  | .standard => .standard
  | .segwit => .witness
  | .twoFactor => .twoFactor
  | .twoFactorSegwit => .twoFactorWitness

theorem hex_bits : ∀ x < 256, ∀ d < 16,
    ((Radix.toHexHi (UInt8.ofNat x) = (Radix.ascii "0123456789abcdef").getD d 0) ↔ (numBits 8 x).take 4 = numBits 4 d) ∧
    ((Radix.toHexLo (UInt8.ofNat x) = (Radix.ascii "0123456789abcdef").getD d 0) ↔ (numBits 8 x).drop 4 = numBits 4 d) := by
  decide +kernel

theorem prefix_append_iff {α : Type} [DecidableEq α] (a b c d : List α) (h : a.length = c.length) : (a ++ b) <+: (c ++ d) ↔ a = c ∧ b <+: d := by
  constructor
  · rintro ⟨t, ht⟩
    rw [List.append_assoc] at ht
    obtain ⟨h1, h2⟩ := List.append_inj ht h
    exact ⟨h1, t, h2⟩
  · rintro ⟨rfl, t, rfl⟩
    exact ⟨t, by rw [List.append_assoc]⟩

/-- Text of a code begins with three digits if its bits begin with their twelve bits. -/
theorem three_digits (a b c : Nat) (ha : a < 16) (hb : b < 16) (hc : c < 16) (x y : UInt8) (rest : Bytes) :
    let digit := fun d => (Radix.ascii "0123456789abcdef").getD d 0
    [digit a, digit b, digit c].isPrefixOf (Radix.encode16 (x :: y :: rest)) = true ↔
    (numBits 4 a ++ (numBits 4 b ++ numBits 4 c)) <+: bitsOf (x :: y :: rest) := by
  intro digit
  have hx := hex_bits x.toNat x.toNat_lt
  have hy := hex_bits y.toNat y.toNat_lt
  rw [UInt8.ofNat_toNat] at hx hy
  rw [List.isPrefixOf_iff_prefix]
  have e1 : bitsOf (x :: y :: rest) = (numBits 8 x.toNat).take 4 ++ ((numBits 8 x.toNat).drop 4 ++
      ((numBits 8 y.toNat).take 4 ++ ((numBits 8 y.toNat).drop 4 ++ bitsOf rest))) := by
    rw [← List.append_assoc (List.take 4 (numBits 8 y.toNat)), List.take_append_drop, ← List.append_assoc, List.take_append_drop]
    rfl
  have e2 : Radix.encode16 (x :: y :: rest) = Radix.toHexHi x :: Radix.toHexLo x :: Radix.toHexHi y :: Radix.toHexLo y :: Radix.encode16 rest := rfl
  rw [e1, e2, prefix_append_iff _ _ _ _ (by simp), prefix_append_iff _ _ _ _ (by simp), ← List.append_nil (numBits 4 c),
    prefix_append_iff _ _ _ _ (by simp), List.cons_prefix_cons, List.cons_prefix_cons, List.cons_prefix_cons]
  have h1 := (hx a ha).1
  have h2 := (hx b hb).2
  have h3 := (hy c hc).1
  have h1' : digit a = Radix.toHexHi x ↔ numBits 4 a = (numBits 8 x.toNat).take 4 := by rw [eq_comm, h1, eq_comm]
  have h2' : digit b = Radix.toHexLo x ↔ numBits 4 b = (numBits 8 x.toNat).drop 4 := by rw [eq_comm, h2, eq_comm]
  have h3' : digit c = Radix.toHexHi y ↔ numBits 4 c = (numBits 8 y.toNat).take 4 := by rw [eq_comm, h3, eq_comm]
  rw [h1', h2', h3']
  simp

theorem two_digits (a b : Nat) (ha : a < 16) (hb : b < 16) (x : UInt8) (rest : Bytes) :
    let digit := fun d => (Radix.ascii "0123456789abcdef").getD d 0
    [digit a, digit b].isPrefixOf (Radix.encode16 (x :: rest)) = true ↔ (numBits 4 a ++ numBits 4 b) <+: bitsOf (x :: rest) := by
  intro digit
  have hx := hex_bits x.toNat x.toNat_lt
  rw [UInt8.ofNat_toNat] at hx
  rw [List.isPrefixOf_iff_prefix]
  have e1 : bitsOf (x :: rest) = (numBits 8 x.toNat).take 4 ++ ((numBits 8 x.toNat).drop 4 ++ bitsOf rest) := by
    rw [← List.append_assoc, List.take_append_drop]
    rfl
  have e2 : Radix.encode16 (x :: rest) = Radix.toHexHi x :: Radix.toHexLo x :: Radix.encode16 rest := rfl
  rw [e1, e2, prefix_append_iff _ _ _ _ (by simp), ← List.append_nil (numBits 4 b), prefix_append_iff _ _ _ _ (by simp),
    List.cons_prefix_cons, List.cons_prefix_cons]
  have h1 := (hx a ha).1
  have h2 := (hx b hb).2
  have h1' : digit a = Radix.toHexHi x ↔ numBits 4 a = (numBits 8 x.toNat).take 4 := by rw [eq_comm, h1, eq_comm]
  have h2' : digit b = Radix.toHexLo x ↔ numBits 4 b = (numBits 8 x.toNat).drop 4 := by rw [eq_comm, h2, eq_comm]
  rw [h1', h2']
  simp

/-- Text of at least two bytes begins with a version number if the bytes begin with its bits. -/
theorem version_iff (v : Version) (code : Bytes) (h : 2 ≤ code.length) :
    (toVersion (ofVersion v)).isPrefixOf (Radix.encode16 code) = true ↔ v.bits <+: bitsOf code := by
  match code, h with
  | x :: y :: rest, _ =>
    cases v
    · exact two_digits 0 1 (by decide) (by decide) x (y :: rest)
    · exact three_digits 1 0 0 (by decide) (by decide) (by decide) x y rest
    · exact three_digits 1 0 1 (by decide) (by decide) (by decide) x y rest
    · exact three_digits 1 0 2 (by decide) (by decide) (by decide) x y rest

/-- A phrase is of one version at most. -/
theorem C80_exclusive (v v' : Version) (phrase : Bytes) (h : Marked v phrase) (h' : Marked v' phrase) : v = v' := by
  have hp := List.prefix_or_prefix_of_prefix h h'
  revert hp
  cases v <;> cases v' <;> decide

section
variable (b : Sha.Build) (checked : Bool) (norm form : Bytes → Bytes)

theorem validator_iff (v : Version) (words : List Bytes) (hf : (form (join [0x20] words)).length + 512 ≤ 2 ^ 61) :
    validator b checked form words (ofVersion v) = true ↔ Marked v (form (join [0x20] words)) := by
  have hc := Hmac.C59_hmac (Hash.Standard.sha512 (b := b)) checked (Radix.ascii "Seed version") (form (join [0x20] words)) (by decide) hf
  unfold validator Marked
  dsimp only
  have e : Hmac.code (HashFn.acc512 b) checked (form (join [0x20] words)) (Radix.ascii "Seed version") = code (form (join [0x20] words)) := hc
  rw [e]
  apply version_iff
  have := Hmac.hmac_length (Hash.Standard.sha512 (b := b)) (Radix.ascii "Seed version") (form (join [0x20] words))
  have e2 : (code (form (join [0x20] words))).length = 64 := this
  omega

/-! ### Lengths of sentences -/

theorem wordBytes_go_length : ∀ (f n : Nat) (acc : Bytes), (wordBytes.go f n acc).length ≤ f + acc.length
  | 0, _, acc => by simp [wordBytes.go]
  | f + 1, n, acc => by
    unfold wordBytes.go
    split
    · omega
    · refine Nat.le_trans (wordBytes_go_length f _ _) ?_
      simp only [List.length_cons]
      omega

theorem word_length (l : Language) (w : Bytes) (h : w ∈ wordList l) : w.length ≤ 40 := by
  obtain ⟨n, _, rfl⟩ := List.mem_map.1 h
  exact wordBytes_go_length 40 n []

theorem join_length (ws : List Bytes) (h : ∀ w ∈ ws, w.length ≤ 40) : (join [0x20] ws).length ≤ 41 * ws.length := by
  cases ws with
  | nil => simp [join]
  | cons t ts =>
    have key : ∀ ts : List Bytes, (∀ w ∈ ts, w.length ≤ 40) → (ts.flatMap fun t => [0x20] ++ t).length ≤ 41 * ts.length := by
      intro ts
      induction ts with
      | nil => simp
      | cons a as ih =>
        intro h
        have h1 := ih (fun w hw => h w (by simp [hw]))
        have h2 := h a (by simp)
        simp only [List.flatMap_cons, List.length_append, List.length_cons, List.length_nil] at h1 ⊢
        omega
    have h1 := key ts (fun w hw => h w (by simp [hw]))
    have h2 := h t (by simp)
    unfold join
    simp only [List.length_append, List.length_cons] at h1 ⊢
    omega

/-! ### Grinding -/

/-- Words suit a version: their phrase is of the version, and neither Electrum v1 (English) nor BIP39 accepts them. -/
def Suits (v : Version) (words : List Bytes) : Prop :=
  Marked v (form (join [0x20] words)) ∧ (v1FromWords norm words .en).base.isValid = false ∧
    (Mnemonic.fromWords (HashFn.sha256Hash b checked) norm words .none).isValid = false

theorem conflict_iff (words : List Bytes) : isConflict b checked norm words = false ↔
    (v1FromWords norm words .en).base.isValid = false ∧
    (Mnemonic.fromWords (HashFn.sha256Hash b checked) norm words .none).isValid = false := by
  unfold isConflict toConflict isV1 isBip39
  cases (v1FromWords norm words .en).base.isValid <;>
    cases (Mnemonic.fromWords (HashFn.sha256Hash b checked) norm words .none).isValid <;> decide

theorem test_iff (v : Version) (words : List Bytes) (hf : (form (join [0x20] words)).length + 512 ≤ 2 ^ 61) :
    (validator b checked form words (ofVersion v) && !isConflict b checked norm words) = true ↔ Suits b checked norm form v words := by
  rw [Bool.and_eq_true, validator_iff b checked form v words hf, Bool.not_eq_true', conflict_iff]
  rfl

omit b checked norm form in
theorem spells_encoder (l : Language) (hl : l ≠ .none) (c : Bytes) (hc : c.length ≤ 64) (ws : List Bytes) (h : Spells (wordList l) c ws) :
    ws = encoder c l := by
  obtain ⟨ns, h2, hw, z, hz, hb⟩ := h
  have hu : unpack2048 ns = c := by
    obtain ⟨j, hj, hu⟩ := C34_unpack2048 ns
    apply bitsOf_inj
    have l1 := congrArg List.length hb
    have l2 := congrArg List.length hu
    rw [bitsOf_length, List.length_append, List.length_replicate] at l1 l2
    rw [hu, hb, show j = z by omega]
  have hp : pack2048 c = ns := by
    rw [← hu]
    refine C34_roundtrip2048 ns h2 ?_
    rw [hu]
    simp only [maxSize]
    omega
  have hat := at_numbers l hl ns h2
  unfold encoder decode2048
  rw [hp]
  rw [← hw] at hat
  have := congrArg (List.filterMap id) hat
  simpa using this.symm

omit b checked norm form in
theorem candidate_unique {e : Bytes} : ∀ {k : Nat} {c c' : Bytes}, Candidate e k c → Candidate e k c' → c = c' := by
  intro k
  induction k with
  | zero =>
    intro c c' h h'
    cases h with | first h => cases h' with | first h' => exact trimmed_unique h h'
  | succ k ih =>
    intro c c' h h'
    cases h with | next h h2 => cases h' with | next h' h2' =>
      rw [ih h h'] at h2
      exact trimmed_unique h2 h2'

omit b checked norm form in
theorem digest_length (c : Bytes) : (Spec.Hash.sha512.digest c).length = 64 :=
  Hash.standard_length (Hash.Standard.sha512 (b := .portable)) c

omit b checked norm form in
theorem candidate_length {e : Bytes} (he : e.length ≤ 64) {k : Nat} {c : Bytes} (h : Candidate e k c) : c.length = usableSize e.length := by
  induction h with
  | first h => exact trimmed_length h
  | @next k c c' _ h ih =>
    have hle : usableSize e.length ≤ e.length := Nat.sub_le _ _
    rw [trimmed_length h, List.length_take, digest_length, ih, Nat.min_eq_left (by omega), usable_idem]

omit b checked norm form in
/-- The words of a candidate. -/
theorem candidate_words (l : Language) (hl : l ≠ .none) {e : Bytes} (he : e.length ≤ 64) {k : Nat} {c : Bytes} (h : Candidate e k c) :
    Spells (wordList l) c (encoder c l) ∧ (encoder c l).length = 8 * e.length / 11 ∧
    decoder (encoder c l) l = c ∧ ∀ w ∈ encoder c l, w ∈ wordList l := by
  have hlen := candidate_length he h
  have hle : usableSize e.length ≤ e.length := Nat.sub_le _ _
  cases h with
  | first h => exact trimmed_words l hl e c (by omega) h
  | @next k c0 _ h0 h =>
    have h1 := trimmed_words l hl _ c (by omega) h
    have hl0 := candidate_length he h0
    rw [List.length_take, digest_length, hl0, Nat.min_eq_left (by omega), usable_groups] at h1
    exact h1

variable (hform : ∀ s, (form s).length ≤ s.length)
include hform

omit b checked norm in
theorem sentence_fits (l : Language) (ws : List Bytes) (hw : ∀ w ∈ ws, w ∈ wordList l) (hn : ws.length ≤ 2 ^ 50) :
    (form (join [0x20] ws)).length + 512 ≤ 2 ^ 61 := by
  have h1 := hform (join [0x20] ws)
  have h2 := join_length ws (fun w h => word_length l w (hw w h))
  omega

theorem grind_spec (v : Version) (l : Language) (hl : l ≠ .none) (e : Bytes) (he : e.length ≤ 64) (hpos : 0 < usableSize e.length) :
    ∀ (limit k : Nat) (hash : Bytes), hash.length = usableSize e.length → Candidate e k (mask hash) →
    (∀ c ws j, grind b checked norm form (ofVersion v) l (usableSize e.length) limit k hash = some (c, ws, j) →
      (k ≤ j ∧ j ≤ k + limit) ∧ Candidate e j c ∧ ws = encoder c l ∧ Suits b checked norm form v ws ∧
      ∀ i c', k ≤ i → i < j → Candidate e i c' → ¬ Suits b checked norm form v (encoder c' l)) ∧
    (grind b checked norm form (ofVersion v) l (usableSize e.length) limit k hash = none →
      ∀ i c', k ≤ i → i ≤ k + limit → Candidate e i c' → ¬ Suits b checked norm form v (encoder c' l)) := by
  intro limit
  induction limit with
  | zero =>
    intro k hash hlen hc
    have hw := candidate_words l hl he hc
    have ht := test_iff b checked norm form v (encoder (mask hash) l) (sentence_fits form hform l _ hw.2.2.2 (by omega))
    unfold grind
    dsimp only
    by_cases h : (validator b checked form (encoder (mask hash) l) (ofVersion v) && !isConflict b checked norm (encoder (mask hash) l)) = true
    · rw [if_pos h]
      refine ⟨?_, fun h => by simp at h⟩
      intro c ws j hg
      simp only [Option.some.injEq, Prod.mk.injEq] at hg
      obtain ⟨rfl, rfl, rfl⟩ := hg
      exact ⟨⟨Nat.le_refl _, by omega⟩, hc, rfl, ht.1 h, fun i c' h1 h2 => by omega⟩
    · rw [if_neg h]
      refine ⟨fun c ws j hg => by simp at hg, ?_⟩
      intro _ i c' h1 h2 hc' hs
      have : i = k := by omega
      subst this
      rw [candidate_unique hc' hc] at hs
      exact h (ht.2 hs)
  | succ limit ih =>
    intro k hash hlen hc
    have hw := candidate_words l hl he hc
    have ht := test_iff b checked norm form v (encoder (mask hash) l) (sentence_fits form hform l _ hw.2.2.2 (by omega))
    have hle : usableSize e.length ≤ e.length := Nat.sub_le _ _
    have hne : hash ≠ [] := by intro h; rw [h] at hlen; simp at hlen; omega
    have hml := mask_length hash hne
    have hsha : HashFn.sha512Hash b checked (mask hash) = Spec.Hash.sha512.digest (mask hash) :=
      (HashFn.C58_functions b checked _ (by omega)).2.2.2.2.1
    have hl2 : ((Spec.Hash.sha512.digest (mask hash)).take (usableSize e.length)).length = usableSize e.length := by
      rw [List.length_take, digest_length]; omega
    have hnext : Candidate e (k + 1) (mask ((Spec.Hash.sha512.digest (mask hash)).take (usableSize e.length))) := by
      refine Candidate.next hc ?_
      rw [hml, hlen]
      refine mask_trimmed _ (fun h => by rw [h] at hl2; simp at hl2; omega) ?_
      rw [hl2]
      exact usable_unused _
    obtain ⟨ih1, ih2⟩ := ih (k + 1) _ hl2 hnext
    unfold grind
    dsimp only
    by_cases h : (validator b checked form (encoder (mask hash) l) (ofVersion v) && !isConflict b checked norm (encoder (mask hash) l)) = true
    · rw [if_pos h]
      refine ⟨?_, fun h => by simp at h⟩
      intro c ws j hg
      simp only [Option.some.injEq, Prod.mk.injEq] at hg
      obtain ⟨rfl, rfl, rfl⟩ := hg
      exact ⟨⟨Nat.le_refl _, by omega⟩, hc, rfl, ht.1 h, fun i c' h1 h2 => by omega⟩
    · rw [if_neg h, hsha]
      have hno : ∀ i c', k ≤ i → i < k + 1 → Candidate e i c' → ¬ Suits b checked norm form v (encoder c' l) := by
        intro i c' h1 h2 hc' hs
        have : i = k := by omega
        subst this
        rw [candidate_unique hc' hc] at hs
        exact h (ht.2 hs)
      constructor
      · intro c ws j hg
        obtain ⟨a1, a2, a3, a4, a5⟩ := ih1 c ws j hg
        refine ⟨⟨by omega, by omega⟩, a2, a3, a4, ?_⟩
        intro i c' h1 h2 hc'
        rcases Nat.lt_or_ge i (k + 1) with h3 | h3
        · exact hno i c' h1 h3 hc'
        · exact a5 i c' h3 h2 hc'
      · intro hg i c' h1 h2 hc'
        rcases Nat.lt_or_ge i (k + 1) with h3 | h3
        · exact hno i c' h1 h3 hc'
        · exact ih2 hg i c' h3 (by omega) hc'

/-! ### The properties -/

omit b checked norm form hform in
theorem exists_language (l : Language) : dictionaries.exists_ l = decide (l ≠ .none) := by
  cases l <;> rfl

omit b checked norm form hform in
theorem validSize_iff (n : Nat) : isValidSize n = true ↔ 17 ≤ n ∧ n ≤ 64 := by
  have h1 : entropySize 132 = 17 := rfl
  have h2 : entropySize 506 = 64 := rfl
  unfold isValidSize
  rw [h1, h2, Bool.and_eq_true, decide_eq_true_eq, decide_eq_true_eq]

omit b checked norm form hform in
theorem ambiguous_iff (n : Nat) (p : Prefix) : isAmbiguousCount n p = true ↔ p = .twoFactor ∧ n ≠ 12 ∧ n < 20 := by
  have h1 : strengthWords 132 = 12 := rfl
  unfold isAmbiguousCount
  rw [h1]
  by_cases h : p = .twoFactor
  · rw [if_neg (by simp [h]), Bool.and_eq_true, bne_iff_ne, decide_eq_true_eq]
    exact ⟨fun x => ⟨h, x⟩, fun x => x.2⟩
  · rw [if_pos h]
    exact ⟨fun x => by simp at x, fun x => absurd x.1 h⟩

/-- From entropy of 17 to 64 bytes: the first entropy of the chain whose words suit the version, if it is found within the limit,
and the words it spells; otherwise an invalid instance. For two factor authentication the words must be 12, or 20 and more. -/
theorem C80_grind (v : Version) (l : Language) (hl : l ≠ .none) (e : Bytes) (hs : 17 ≤ e.length ∧ e.length ≤ 64)
    (ha : v = .twoFactor → 8 * e.length / 11 = 12 ∨ 20 ≤ 8 * e.length / 11) (limit : Nat) :
    (∃ j ≤ limit, ∃ c ws, Candidate e j c ∧ Spells (wordList l) c ws ∧ Suits b checked norm form v ws ∧
      (∀ i < j, ∀ c' ws', Candidate e i c' → Spells (wordList l) c' ws' → ¬ Suits b checked norm form v ws') ∧
      fromEntropy b checked norm form e (ofVersion v) l limit = Electrum.make c ws l (ofVersion v)) ∨
    ((∀ i ≤ limit, ∀ c' ws', Candidate e i c' → Spells (wordList l) c' ws' → ¬ Suits b checked norm form v ws') ∧
      fromEntropy b checked norm form e (ofVersion v) l limit = Electrum.invalid) := by
  have hle : usableSize e.length ≤ e.length := Nat.sub_le _ _
  have hu := usable_eq e.length
  have hpos : 0 < usableSize e.length := by omega
  have hlen : (e.take (usableSize e.length)).length = usableSize e.length := by rw [List.length_take]; omega
  have hne : e.take (usableSize e.length) ≠ [] := by intro h; rw [h] at hlen; simp at hlen; omega
  have hc0 : Candidate e 0 (mask (e.take (usableSize e.length))) := by
    refine Candidate.first (trimmed_take (mask_trimmed _ hne ?_))
    rw [hlen]
    exact usable_unused _
  obtain ⟨g1, g2⟩ := grind_spec b checked norm form hform v l hl e hs.2 hpos limit 0 _ hlen hc0
  have hfe : fromEntropy b checked norm form e (ofVersion v) l limit =
      match grinder b checked norm form e (ofVersion v) l limit with
      | Option.none => .invalid
      | some (ground, words, _) => if words.isEmpty then .invalid else .make ground words l (ofVersion v) := by
    have hamb : ¬ isAmbiguousCount (wordCount e.length) (ofVersion v) = true := by
      rw [ambiguous_iff]
      rintro ⟨h1, h2, h3⟩
      have := ha (by cases v <;> first | rfl | (exact absurd h1 (by decide)))
      unfold wordCount at h2 h3
      rw [Nat.mul_comm] at h2 h3
      omega
    unfold fromEntropy
    rw [if_neg (by cases v <;> decide), if_neg (by cases v <;> decide), if_neg (by cases v <;> decide), if_neg (by simp [(validSize_iff _).2 hs]),
      if_neg (by rw [exists_language]; simp [hl]), if_neg hamb]
    cases grinder b checked norm form e (ofVersion v) l limit <;> rfl
  have hspell : ∀ {i c' ws'}, Candidate e i c' → Spells (wordList l) c' ws' → ws' = encoder c' l := by
    intro i c' ws' hc' hsp
    refine spells_encoder l hl c' ?_ ws' hsp
    rw [candidate_length hs.2 hc']
    omega
  rw [hfe]
  unfold grinder
  dsimp only
  cases hg : grind b checked norm form (ofVersion v) l (usableSize e.length) limit 0 (e.take (usableSize e.length)) with
  | none =>
    right
    refine ⟨?_, rfl⟩
    intro i hi c' ws' hc' hsp
    rw [hspell hc' hsp]
    exact g2 hg i c' (Nat.zero_le _) (by omega) hc'
  | some r =>
    obtain ⟨c, ws, j⟩ := r
    obtain ⟨⟨_, a1⟩, a2, a3, a4, a5⟩ := g1 c ws j hg
    have hw := candidate_words l hl hs.2 a2
    left
    refine ⟨j, by omega, c, ws, a2, by rw [a3]; exact hw.1, a4, ?_, ?_⟩
    · intro i hi c' ws' hc' hsp
      rw [hspell hc' hsp]
      exact a5 i c' (Nat.zero_le _) hi hc'
    · dsimp only
      rw [if_neg]
      rw [a3]
      have : (encoder c l).length ≠ 0 := by rw [hw.2.1]; omega
      intro h
      exact this (by simpa using h)

omit hform in
/-- Everything else is refused, except that "old" makes an English Electrum v1 mnemonic of the entropy, whatever the language. -/
theorem C80_refused (p : Prefix) (l : Language) (e : Bytes) (limit : Nat) :
    (p = .none ∨ p = .bip39 ∨ (∃ v, p = ofVersion v ∧ (e.length < 17 ∨ 64 < e.length ∨ l = .none ∨
        (v = .twoFactor ∧ 8 * e.length / 11 ≠ 12 ∧ 8 * e.length / 11 < 20))) →
      fromEntropy b checked norm form e p l limit = Electrum.invalid) ∧
    (p = .old → fromEntropy b checked norm form e p l limit = ofV1 (v1FromEntropy e .en)) := by
  refine ⟨?_, ?_⟩
  · rintro (rfl | rfl | ⟨v, rfl, h⟩)
    · rfl
    · rfl
    · unfold fromEntropy
      rw [if_neg (by cases v <;> decide), if_neg (by cases v <;> decide), if_neg (by cases v <;> decide)]
      rw [exists_language]
      by_cases h1 : e.length < 17 ∨ 64 < e.length
      · rw [if_pos]
        rw [Bool.not_eq_true', Bool.eq_false_iff]
        intro h
        have := (validSize_iff _).1 h
        omega
      · rw [if_neg (by simp [(validSize_iff e.length).2 (by omega)])]
        by_cases h2 : l = .none
        · rw [if_pos (by simp [h2])]
        · rw [if_neg (by simp [h2])]
          rcases h with h | h | h | ⟨rfl, h, h'⟩
          · omega
          · omega
          · exact absurd h h2
          · rw [if_pos]
            rw [ambiguous_iff]
            unfold wordCount
            rw [Nat.mul_comm]
            exact ⟨rfl, h, h'⟩
  · rintro rfl
    rfl

/-- Entropy that was found is confirmed by itself: it makes the same instance, with any limit. -/
theorem C80_again (v : Version) (l : Language) (hl : l ≠ .none) (e : Bytes) (hs : 17 ≤ e.length ∧ e.length ≤ 64)
    (ha : v = .twoFactor → 8 * e.length / 11 = 12 ∨ 20 ≤ 8 * e.length / 11) (limit limit' : Nat)
    (hv : fromEntropy b checked norm form e (ofVersion v) l limit ≠ Electrum.invalid) :
    let m := fromEntropy b checked norm form e (ofVersion v) l limit
    fromEntropy b checked norm form m.base.base.entropy (ofVersion v) l limit' = m := by
  intro m
  rcases C80_grind b checked norm form hform v l hl e hs ha limit with ⟨j, hj, c, ws, h1, h2, h3, h4, h5⟩ | ⟨_, h⟩
  case inr => exact absurd h hv
  have hm : m = Electrum.make c ws l (ofVersion v) := h5
  have hce : m.base.base.entropy = c := by rw [hm]; rfl
  have hcl := candidate_length hs.2 h1
  have hle : usableSize e.length ≤ e.length := Nat.sub_le _ _
  have hu := usable_eq e.length
  have hg := usable_groups e.length
  rw [hce, hm]
  have hcand : Candidate c 0 c := by
    obtain ⟨ns, n1, n2, z, hz, hb⟩ := h2
    refine Candidate.first ⟨z, hz, ?_⟩
    have l1 := congrArg List.length hb
    rw [bitsOf_length, List.length_append, List.length_replicate, Pack.flatMap_length] at l1
    rw [hb]
    congr 1
    rw [List.take_left']
    rw [Pack.flatMap_length]
    omega
  rcases C80_grind b checked norm form hform v l hl c (by omega) (by rw [hcl, hg]; exact ha) limit' with ⟨j', _, c', ws', k1, k2, k3, k4, k5⟩ | ⟨k, _⟩
  · have hj0 : j' = 0 := by
      rcases Nat.eq_zero_or_pos j' with h | h
      · exact h
      · exact absurd h3 (k4 0 h c ws hcand h2)
    subst hj0
    have hcc := candidate_unique k1 hcand
    subst hcc
    rw [k5]
    have e1 := spells_encoder l hl _ (by omega) ws h2
    have e2 := spells_encoder l hl _ (by omega) ws' k2
    rw [e1, e2]
  · exact absurd h3 (k 0 (Nat.zero_le _) c ws hcand h2)

omit norm in
/-- The seed is PBKDF2 with HMAC-SHA512 of the phrase, salted with "electrum" and the passphrase, 2048 iterations, 512 bits; only
valid instances of the four versions have one. -/
theorem C80_seed (phraseForm : Bytes → Bytes) (m : Electrum) (passphrase : Bytes)
    (hw : (join [0x20] m.base.base.words).length + 512 ≤ 2 ^ 61) (hp : (phraseForm passphrase).length + 2048 ≤ 2 ^ 61) :
    toSeed b checked form phraseForm m passphrase =
      if m.base.base.isValid = true ∧ m.pre ∈ [Prefix.standard, .witness, .twoFactor, .twoFactorWitness] then
        Spec.Mac.pbkdf2 (Spec.Mac.hmac Spec.Hash.sha512.digest 128) 64 (form (join [0x20] m.base.base.words))
          ("electrum".toList.map (fun c => UInt8.ofNat c.toNat) ++ phraseForm passphrase) 2048 64
      else List.replicate 64 0 := by
  have hsd : isSeedable m.pre = true ↔ m.pre ∈ [Prefix.standard, .witness, .twoFactor, .twoFactorWitness] := by
    cases m.pre <;> decide
  unfold toSeed
  by_cases h1 : m.base.base.isValid = true
  · by_cases h2 : isSeedable m.pre = true
    · rw [if_neg (by simp [h1]), if_neg (by simp [h2]), if_pos ⟨h1, hsd.1 h2⟩]
      have hfl := hform (join [0x20] m.base.base.words)
      exact Hmac.C59_pbkdf2 (Hash.Standard.sha512 (b := b)) checked (form (join [0x20] m.base.base.words))
        (Radix.ascii "electrum" ++ phraseForm passphrase) 2048 64 (by omega)
        (by rw [List.length_append, show (Radix.ascii "electrum").length = 8 by decide]; omega)
    · rw [if_neg (by simp [h1]), if_pos (by simp [h2]), if_neg (fun h => h2 (hsd.2 h.2))]
  · rw [if_pos (by simp [h1]), if_neg (fun h => h1 h.1)]

/-! ### Restoring from words -/

/-- The order in which exclusive versions are tried does not matter. -/
def pick (p1 p2 p3 p4 : Bool) : Prefix :=
  if p1 = true then .standard else if p2 = true then .witness else if p3 = true then .twoFactor
  else if p4 = true then .twoFactorWitness else .none

omit b checked norm form hform in
theorem pick_table : ∀ p1 p2 p3 p4 : Bool, (p1 && p2) = false → (p1 && p3) = false → (p1 && p4) = false → (p2 && p3) = false →
    (p2 && p4) = false → (p3 && p4) = false →
    (pick p1 p2 p3 p4 = .standard ↔ p1 = true) ∧ (pick p1 p2 p3 p4 = .witness ↔ p2 = true) ∧
    (pick p1 p2 p3 p4 = .twoFactor ↔ p3 = true) ∧ (pick p1 p2 p3 p4 = .twoFactorWitness ↔ p4 = true) ∧
    pick p1 p2 p3 p4 ≠ .old ∧ pick p1 p2 p3 p4 ≠ .bip39 := by decide

/-- The prefix the words of a list are given. -/
theorem C81_prefix (l : Language) (ws : List Bytes) (hw : ∀ w ∈ ws, w ∈ wordList l) (hn : ws.length ≤ 46) :
    (∀ v, normalizedToPrefix b checked norm form ws = ofVersion v ↔
      Suits b checked norm form v ws ∧ (v = .twoFactor → ws.length = 12 ∨ 20 ≤ ws.length)) ∧
    (normalizedToPrefix b checked norm form ws = .old ↔ (v1FromWords norm ws .en).base.isValid = true) ∧
    (normalizedToPrefix b checked norm form ws = .bip39 ↔ (v1FromWords norm ws .en).base.isValid = false ∧
      (Mnemonic.fromWords (HashFn.sha256Hash b checked) norm ws .none).isValid = true) := by
  have hfit := sentence_fits form hform l ws hw (by omega)
  have hval := fun v => validator_iff b checked form v ws hfit
  have hnp : ∀ v, normalizedIsPrefix b checked norm form ws (ofVersion v) = true ↔
      Marked v (form (join [0x20] ws)) ∧ (v = .twoFactor → ws.length = 12 ∨ 20 ≤ ws.length) := by
    intro v
    unfold normalizedIsPrefix
    rw [if_neg (by cases v <;> decide), if_neg (by cases v <;> decide)]
    by_cases ha : isAmbiguousCount ws.length (ofVersion v) = true
    · rw [if_pos ha]
      rw [ambiguous_iff] at ha
      constructor
      · intro h; simp at h
      · rintro ⟨_, h⟩
        have := h (by cases v <;> first | rfl | (exact absurd ha.1 (by decide)))
        omega
    · rw [if_neg ha]
      have h2 : v = .twoFactor → ws.length = 12 ∨ 20 ≤ ws.length := by
        rintro rfl
        rw [ambiguous_iff] at ha
        by_cases h12 : ws.length = 12
        · exact .inl h12
        · exact .inr (Nat.le_of_not_lt fun h => ha ⟨rfl, h12, h⟩)
      by_cases hvv : validator b checked form ws (ofVersion v) = true
      · rw [if_pos hvv]
        exact ⟨fun _ => ⟨(hval v).1 hvv, h2⟩, fun _ => rfl⟩
      · rw [if_neg hvv]
        constructor
        · intro h; cases v <;> exact absurd h (by decide)
        · rintro ⟨h, _⟩
          exact absurd ((hval v).2 h) hvv
  unfold normalizedToPrefix toConflict isV1 isBip39
  dsimp only
  by_cases c1 : (v1FromWords norm ws .en).base.isValid = true
  · rw [if_pos c1, if_pos (by decide)]
    refine ⟨fun v => ⟨fun h => by cases v <;> exact absurd h (by decide), fun h => ?_⟩, by simp [c1], by simp [c1]⟩
    have := h.1.2.1
    rw [c1] at this
    simp at this
  · rw [if_neg c1]
    have c1' : (v1FromWords norm ws .en).base.isValid = false := by simpa using c1
    by_cases c2 : (Mnemonic.fromWords (HashFn.sha256Hash b checked) norm ws .none).isValid = true
    · rw [if_pos c2, if_pos (by decide)]
      refine ⟨fun v => ⟨fun h => by cases v <;> exact absurd h (by decide), fun h => ?_⟩, by simp [c1], by simp [c1, c2]⟩
      have := h.1.2.2
      rw [c2] at this
      simp at this
    · rw [if_neg c2, if_neg (by decide)]
      have c2' : (Mnemonic.fromWords (HashFn.sha256Hash b checked) norm ws .none).isValid = false := by simpa using c2
      have hx : ∀ u u', u ≠ u' → (normalizedIsPrefix b checked norm form ws (ofVersion u) &&
          normalizedIsPrefix b checked norm form ws (ofVersion u')) = false := by
        intro u u' hne
        rw [Bool.eq_false_iff, ne_eq, Bool.and_eq_true]
        rintro ⟨h, h'⟩
        exact hne (C80_exclusive u u' _ ((hnp u).1 h).1 ((hnp u').1 h').1)
      obtain ⟨t1, t2, t3, t4, t5, t6⟩ := pick_table _ _ _ _ (hx .standard .segwit (by decide)) (hx .standard .twoFactor (by decide))
        (hx .standard .twoFactorSegwit (by decide)) (hx .segwit .twoFactor (by decide)) (hx .segwit .twoFactorSegwit (by decide))
        (hx .twoFactor .twoFactorSegwit (by decide))
      have key : ∀ v, pick (normalizedIsPrefix b checked norm form ws (ofVersion .standard))
          (normalizedIsPrefix b checked norm form ws (ofVersion .segwit)) (normalizedIsPrefix b checked norm form ws (ofVersion .twoFactor))
          (normalizedIsPrefix b checked norm form ws (ofVersion .twoFactorSegwit)) = ofVersion v ↔
          normalizedIsPrefix b checked norm form ws (ofVersion v) = true := by
        intro v
        cases v
        · exact t1
        · exact t2
        · exact t3
        · exact t4
      change (∀ v, pick (normalizedIsPrefix b checked norm form ws (ofVersion .standard))
          (normalizedIsPrefix b checked norm form ws (ofVersion .segwit)) (normalizedIsPrefix b checked norm form ws (ofVersion .twoFactor))
          (normalizedIsPrefix b checked norm form ws (ofVersion .twoFactorSegwit)) = ofVersion v ↔ _) ∧ (pick _ _ _ _ = .old ↔ _) ∧ (pick _ _ _ _ = .bip39 ↔ _)
      refine ⟨?_, ?_, ?_⟩
      · intro v
        rw [key v, hnp v]
        constructor
        · rintro ⟨h1, h2⟩
          exact ⟨⟨h1, c1', c2'⟩, h2⟩
        · rintro ⟨⟨h1, _, _⟩, h2⟩
          exact ⟨h1, h2⟩
      · exact ⟨fun h => absurd h t5, fun h => absurd h c1⟩
      · exact ⟨fun h => absurd h t6, fun h => absurd h.2 c2⟩

omit b checked norm form hform in
/-- The entropy of words. -/
theorem decoder_spells (l : Language) (hl : l ≠ .none) (ws : List Bytes) (hw : ∀ w ∈ ws, w ∈ wordList l) :
    Spells (wordList l) (decoder ws l) ws := by
  obtain ⟨ns, h1, h2, h3⟩ := numbers_of l hl ws hw
  obtain ⟨z, hz, hb⟩ := C34_unpack2048 ns
  refine ⟨ns, h1, h2, z, hz, ?_⟩
  rw [← hb]
  unfold decoder encode2048
  dsimp only
  rw [h3, if_neg, if_neg]
  · rw [Option.getD_some, List.map_map]
    congr 2
    conv => rhs; rw [← List.map_id ns]
    apply List.map_congr_left
    intro n _
    simp
  · simp
  · rw [Bool.and_eq_true]
    rintro ⟨h5, h6⟩
    have : ns = [] := by simpa using h5
    subst this
    have hws : ws = [] := by simpa using h2
    simp [hws] at h6

omit hform in
/-- From words in a named language: 12 to 46 words that Electrum v1 does not take in that language, all in its list once normal,
make the instance of the entropy they spell; words Electrum v1 takes make that instance; nothing else is accepted. -/
theorem C81_words (l : Language) (hl : l ≠ .none) (ws : List Bytes) :
    fromWords b checked norm form ws l =
      if ¬ (12 ≤ ws.length ∧ ws.length ≤ 46) then Electrum.invalid
      else if (v1FromWords norm ws l).base.isValid = true then ⟨v1FromWords norm ws l, .old⟩
      else if ∀ w ∈ ws, norm w ∈ wordList l then
        Electrum.make (decoder (ws.map norm) l) (ws.map norm) l (normalizedToPrefix b checked norm form (ws.map norm))
      else Electrum.invalid := by
  have hc : isValidCount ws.length = true ↔ 12 ≤ ws.length ∧ ws.length ≤ 46 := by
    unfold isValidCount
    rw [show strengthWords 132 = 12 from rfl, show strengthWords 506 = 46 from rfl, Bool.and_eq_true, decide_eq_true_eq, decide_eq_true_eq]
  unfold fromWords
  by_cases h : 12 ≤ ws.length ∧ ws.length ≤ 46
  · have hcc : ¬ (!isValidCount ws.length) = true := by simp [hc.2 h]
    have hnn : ¬ ¬ (12 ≤ ws.length ∧ ws.length ≤ 46) := fun h' => h' h
    rw [if_neg hcc, if_neg hnn]
    dsimp only
    by_cases h1 : (v1FromWords norm ws l).base.isValid = true
    · rw [if_pos h1, if_pos h1, ofV1, if_pos h1]
    · rw [if_neg h1, if_neg h1, contains_language l hl]
      by_cases h2 : ∀ w ∈ ws, norm w ∈ wordList l
      · have h2' : ∀ w ∈ ws.map norm, w ∈ wordList l := by
          intro w hw
          obtain ⟨x, hx, rfl⟩ := List.mem_map.1 hw
          exact h2 x hx
        rw [if_pos h2, if_pos h2', if_neg hl, if_neg (fun h => h.2 rfl), if_neg]
        simp [isAmbiguous, hl]
      · have h2' : ¬ ∀ w ∈ ws.map norm, w ∈ wordList l := fun h => h2 fun w hw => h _ (List.mem_map_of_mem hw)
        rw [if_neg h2, if_neg h2', if_pos rfl]
  · rw [if_pos, if_pos h]
    rw [Bool.not_eq_true', Bool.eq_false_iff]
    exact fun h' => h (hc.1 h')

/-- Writing down the words of a generated instance and restoring it in the same language gives it back, provided that the words are
normal, and that for Portuguese they are not all in the Portuguese list of Electrum v1 too. Missing: that proviso, see
`C81_restore_counterexample`. -/
theorem C81_restore_partial (v : Version) (l : Language) (hl : l ≠ .none) (hnorm : ∀ w ∈ wordList l, norm w = w)
    (e : Bytes) (hs : 17 ≤ e.length ∧ e.length ≤ 64)
    (ha : v = .twoFactor → 8 * e.length / 11 = 12 ∨ 20 ≤ 8 * e.length / 11) (limit : Nat)
    (hv : fromEntropy b checked norm form e (ofVersion v) l limit ≠ Electrum.invalid) :
    let m := fromEntropy b checked norm form e (ofVersion v) l limit
    (l = .pt → ∃ w ∈ m.base.base.words, w ∉ wordListV1 .pt) →
    fromWords b checked norm form m.base.base.words l = m := by
  intro m hpt
  rcases C80_grind b checked norm form hform v l hl e hs ha limit with ⟨j, hj, c, ws, h1, h2, h3, h4, h5⟩ | ⟨_, h⟩
  case inr => exact absurd h hv
  have hm : m = Electrum.make c ws l (ofVersion v) := h5
  have hwm : m.base.base.words = ws := by rw [hm]; rfl
  rw [hwm] at hpt ⊢
  rw [hm]
  have hcl := candidate_length hs.2 h1
  have hle : usableSize e.length ≤ e.length := Nat.sub_le _ _
  have hwe := spells_encoder l hl c (by omega) ws h2
  obtain ⟨_, w2, w3, w4⟩ := candidate_words l hl hs.2 h1
  rw [← hwe] at w2 w3 w4
  have hmap : ws.map norm = ws := by
    conv => rhs; rw [← List.map_id ws]
    exact List.map_congr_left fun w hw => hnorm w (w4 w hw)
  rw [C81_words b checked norm form l hl, if_neg (by rw [w2]; omega), if_neg, if_pos (fun w hw => by rw [hnorm w (w4 w hw)]; exact w4 w hw),
    hmap, w3]
  · congr 1
    refine ((C81_prefix b checked norm form hform l ws w4 (by omega)).1 v).2 ⟨h3, ?_⟩
    rw [w2]
    exact ha
  · intro hvalid
    have hne : v1FromWords norm ws l ≠ V1.invalid := by
      intro h
      rw [h] at hvalid
      exact absurd hvalid (by decide)
    obtain ⟨_, l', hl', hll, hin, heq⟩ := C37_decode_only norm l ws hne
    rcases hll with rfl | h
    · rcases hl' with rfl | rfl
      · rw [h3.2.1] at hvalid
        simp at hvalid
      · obtain ⟨w, hw, hnot⟩ := hpt rfl
        have := hin w hw
        rw [hnorm w (w4 w hw)] at this
        exact hnot this
    · exact hl h

end

/-! ### Instances and counterexamples -/

/-- Nineteen bytes of entropy: one byte is not used, the third entropy of the chain is of the standard version, 13 words. -/
def exampleEntropy : Bytes := [0, 0, 0, 91, 0, 0, 0, 91, 0, 0, 0, 91, 0, 0, 0, 91, 0xff, 0x55, 0x55]

theorem example_ground : fromEntropy .portable true id id exampleEntropy .standard .en 5 = Electrum.make
    [0x17, 0xb3, 0x83, 0x36, 0x19, 0x04, 0x0b, 0x8e, 0xd4, 0xdf, 0x2a, 0x6d, 0x75, 0x3d, 0xe6, 0x77, 0x48, 0x80]
    (["bless", "orchard", "snow", "craft", "doll", "shuffle", "fat", "torch", "hope", "prepare", "kangaroo", "update", "marine"].map Radix.ascii)
    .en .standard := by decide +kernel

example : fromEntropy .portable true id id exampleEntropy .standard .en 1 = Electrum.invalid := by decide +kernel

example : (17 ≤ exampleEntropy.length ∧ exampleEntropy.length ≤ 64) ∧ (∀ s : Bytes, (id s).length ≤ s.length) ∧
    (∀ w ∈ wordList .en, id w = w) ∧ fromEntropy .portable true id id exampleEntropy (ofVersion .standard) .en 5 ≠ Electrum.invalid :=
  ⟨by decide, fun _ => Nat.le_refl _, fun _ _ => rfl, by
    show fromEntropy .portable true id id exampleEntropy .standard .en 5 ≠ _
    rw [example_ground]; decide⟩

/-- Entropy of a Portuguese phrase of the standard version whose twelve words are in the Portuguese list of Electrum v1 too. -/
def sharedEntropy : Bytes :=
  [0x94, 0xfa, 0xbf, 0x4a, 0x55, 0xfd, 0x8c, 0xa1, 0x75, 0x2d, 0x70, 0xf2, 0xa3, 0x8e, 0x18, 0x73, 0x40]

/-- Its words. -/
def sharedWords : List Bytes := (["luneta", "rugoso", "rigoroso", "ocioso", "samurai", "dorsal", "rosto", "omitir", "tudo", "avulso",
  "iogurte", "talvez"].map Radix.ascii)

/-- The proviso is needed: this instance is generated as a standard one, and its words restore to an Electrum v1 instance with another
entropy and no seed. -/
theorem C81_restore_counterexample :
    fromEntropy .portable true id id sharedEntropy (ofVersion .standard) .pt 0 = Electrum.make sharedEntropy sharedWords .pt .standard ∧
    (fromWords .portable true id id sharedWords .pt).pre = .old ∧
    (fromWords .portable true id id sharedWords .pt).base.base.entropy ≠ sharedEntropy ∧
    isSeedable (fromWords .portable true id id sharedWords .pt).pre = false := by decide +kernel

/-- Lower case of ASCII letters: a normalization. -/
def lower (s : Bytes) : Bytes := s.map fun c => if 65 ≤ c ∧ c ≤ 90 then c + 32 else c

/-- The words of `example_ground` in capitals. -/
def capitals : List Bytes := (["BLESS", "ORCHARD", "SNOW", "CRAFT", "DOLL", "SHUFFLE", "FAT", "TORCH", "HOPE", "PREPARE", "KANGAROO",
  "UPDATE", "MARINE"].map Radix.ascii)

/-- Words that are not normal: the constructor and `is_prefix` see the standard version, `to_prefix` does not. -/
theorem C81_to_prefix_counterexample :
    (fromWords .portable true lower id capitals .en).pre = .standard ∧ isPrefix .portable true lower id capitals .standard = true ∧
    toPrefix .portable true lower id capitals = .none := by decide +kernel

/-- For normal words of one list, the two functions and the constructor agree. -/
theorem C81_to_prefix_partial (b : Sha.Build) (checked : Bool) (norm form : Bytes → Bytes) (words : List Bytes) (l : Language)
    (hl : l ≠ .none) (hw : ∀ w ∈ words, w ∈ wordList l) (hnorm : words.map norm = words) :
    toPrefix b checked norm form words = normalizedToPrefix b checked norm form words ∧
    (∀ p, isPrefix b checked norm form words p = normalizedIsPrefix b checked norm form words p) := by
  have hc : dictionaries.contains words .none ≠ .none := by
    rw [contains_none]
    have hmem : l ∈ languages := by cases l <;> first | decide | exact absurd rfl hl
    have hne : ∀ l ∈ languages, l ≠ .none := by decide
    split
    · rename_i l' hf
      exact hne l' (List.mem_of_find?_eq_some hf)
    · rename_i hf
      have := List.find?_eq_none.1 hf l hmem
      exact absurd (by simpa using hw) this
  unfold toPrefix isPrefix
  dsimp only
  rw [hnorm, if_neg hc]
  exact ⟨rfl, fun p => by rw [if_neg hc]⟩

/-- `is_prefix` is true of "none" for all words, those of a version too. -/
theorem C81_none_counterexample (b : Sha.Build) (checked : Bool) (norm form : Bytes → Bytes) (words : List Bytes) :
    isPrefix b checked norm form words .none = true := by
  unfold isPrefix normalizedIsPrefix
  dsimp only
  split
  · rfl
  · rw [if_neg (by decide), if_neg (by decide), if_neg]
    · split <;> rfl
    · rw [ambiguous_iff]; simp

end Verif.Electrum
