import Verif.Lemmas.Words
import Verif.Props.Pack
import Verif.Props.Mac
import Verif.Spec.Bip39
/-!
# C36: BIP39 mnemonics
-/
namespace Verif.Mnemonic
open Verif Verif.Bit Verif.Bit.Spec Verif.Pack

/-! ### The ten dictionaries -/

/-- The number of a language. -/
def number : Language → Nat
  | .en => 0 | .es => 1 | .it => 2 | .fr => 3 | .cs => 4 | .pt => 5 | .ja => 6 | .ko => 7 | .zhHans => 8 | .zhHant => 9 | .none => 10

/-- The catalog of a language. -/
def catalog : Language → List Nat
  | .en => Catalog.en | .es => Catalog.es | .it => Catalog.it | .fr => Catalog.fr | .cs => Catalog.cs | .pt => Catalog.pt
  | .ja => Catalog.ja | .ko => Catalog.ko | .zhHans => Catalog.zhHans | .zhHant => Catalog.zhHant | .none => []

/-- The word list of a language. -/
def wordList (l : Language) : List Bytes := (catalog l).map wordBytes

theorem catalog_found (l : Language) (h : l ≠ .none) : Catalog.found Catalog.mnemonicTree (2048 * number l) (catalog l) = true := by
  cases l
  · exact Catalog.en_found
  · exact Catalog.es_found
  · exact Catalog.it_found
  · exact Catalog.fr_found
  · exact Catalog.cs_found
  · exact Catalog.pt_found
  · exact Catalog.ja_found
  · exact Catalog.ko_found
  · exact Catalog.zhHans_found
  · exact Catalog.zhHant_found
  · exact absurd rfl h

theorem catalog_sized (l : Language) (h : l ≠ .none) : Catalog.sized 2048 (catalog l) = true := by
  cases l
  · exact Catalog.en_sized
  · exact Catalog.es_sized
  · exact Catalog.it_sized
  · exact Catalog.fr_sized
  · exact Catalog.cs_sized
  · exact Catalog.pt_sized
  · exact Catalog.ja_sized
  · exact Catalog.ko_sized
  · exact Catalog.zhHans_sized
  · exact Catalog.zhHant_sized
  · exact absurd rfl h

theorem wordList_length (l : Language) (h : l ≠ .none) : (wordList l).length = 2048 := by
  rw [wordList, List.length_map]
  exact (sized_spec (catalog_sized l h)).1

theorem number_inj {l l' : Language} (h : number l = number l') : l = l' := by
  cases l <;> cases l' <;> first | rfl | (exact absurd h (by decide))

/-- No word occurs twice in the ten lists, except that English and French share words (at other positions), and the two
Chinese lists share words (at the same positions). -/
theorem C36_shared (l l' : Language) (hl : l ≠ .none) (hl' : l' ≠ .none) (i j : Nat) (w : Bytes)
    (hi : (wordList l)[i]? = some w) (hj : (wordList l')[j]? = some w) :
    (l = l' ∧ i = j) ∨ ((l = .en ∧ l' = .fr) ∨ (l = .fr ∧ l' = .en)) ∨
    (((l = .zhHans ∧ l' = .zhHant) ∨ (l = .zhHant ∧ l' = .zhHans)) ∧ i = j) := by
  have hi2 : i < 2048 := by rw [← wordList_length l hl]; exact (List.getElem?_eq_some_iff.1 hi).1
  have hj2 : j < 2048 := by rw [← wordList_length l' hl']; exact (List.getElem?_eq_some_iff.1 hj).1
  have h := found_shared Catalog.mnemonic_pairs (catalog_found l hl) (catalog_found l' hl') (catalog_sized l hl) (catalog_sized l' hl') hi hj
  have hn : ∀ (l : Language) (k : Nat), k < 2048 → (2048 * number l + k) / 2048 = number l ∧ (2048 * number l + k) % 2048 = k :=
    fun l k hk => ⟨by omega, by omega⟩
  obtain ⟨a1, a2⟩ := hn l i hi2
  obtain ⟨b1, b2⟩ := hn l' j hj2
  simp only [Catalog.shared, a1, a2, b1, b2, Bool.or_eq_true, Bool.and_eq_true, beq_iff_eq] at h
  have z : ∀ {l : Language} {l' : Language}, number l = number l' → l = l' := number_inj
  rcases h with h | (⟨h1, h2⟩ | ⟨⟨h1, h2⟩, h3⟩) | (⟨h1, h2⟩ | ⟨⟨h1, h2⟩, h3⟩)
  · exact Or.inl ⟨z (by omega), by omega⟩
  · exact Or.inr (Or.inl (Or.inl ⟨z (l' := .en) h1, z (l' := .fr) h2⟩))
  · exact Or.inr (Or.inr ⟨Or.inl ⟨z (l' := .zhHans) h1, z (l' := .zhHant) h2⟩, h3⟩)
  · exact Or.inr (Or.inl (Or.inr ⟨z (l' := .fr) h2, z (l' := .en) h1⟩))
  · exact Or.inr (Or.inr ⟨Or.inr ⟨z (l' := .zhHant) h2, z (l' := .zhHans) h1⟩, h3.symm⟩)

theorem wordList_nodup (l : Language) (hl : l ≠ .none) (i j : Nat) (a : Bytes) (hi : (wordList l)[i]? = some a)
    (hj : (wordList l)[j]? = some a) : i = j := by
  rcases C36_shared l l hl hl i j a hi hj with h | h | h
  · exact h.2
  · rcases h with ⟨rfl, h⟩ | ⟨rfl, h⟩ <;> cases h
  · exact h.2

/-- Which lists are marked as sorted. -/
def isSorted : Language → Bool
  | .en | .it | .pt | .ko => true
  | _ => false

theorem find_language (l : Language) (hl : l ≠ .none) : dictionaries.find l = some ⟨l, isSorted l, wordList l⟩ := by
  cases l <;> first | rfl | exact absurd rfl hl

theorem dictionaries_eq : dictionaries = [.en, .es, .it, .fr, .cs, .pt, .ja, .ko, .zhHans, .zhHant].map
    (fun l => (⟨l, isSorted l, wordList l⟩ : Dictionary)) := rfl

theorem find_none : dictionaries.find .none = none := rfl

theorem good (l : Language) (hl : l ≠ .none) : Good 2048 ⟨l, isSorted l, wordList l⟩ := by
  rw [← wordList_length l hl]
  cases h : isSorted l with
  | false => exact good_unsorted l _ (wordList_nodup l hl)
  | true =>
    apply good_sorted
    cases l <;> first | (exact absurd h (by decide)) | skip
    · exact ordered_increasing _ Catalog.en_ordered
    · exact ordered_increasing _ Catalog.it_ordered
    · exact ordered_increasing _ Catalog.pt_ordered
    · exact ordered_increasing _ Catalog.ko_ordered

/-- Searching a word gives its position in the list, or a negative number if it isn't in the list. -/
theorem C36_index (l : Language) (hl : l ≠ .none) (w : Bytes) :
    (∀ i : Nat, (wordList l)[i]? = some w ↔ dictionaries.indexOne w l = (i : Int)) ∧
    (w ∉ wordList l ↔ dictionaries.indexOne w l < 0) := by
  have hg := good l hl
  have e : dictionaries.indexOne w l = (⟨l, isSorted l, wordList l⟩ : Dictionary).index w := by
    rw [Dictionaries.indexOne, find_language l hl]
  rw [e]
  refine ⟨fun i => ⟨fun h => hg.find i w h, fun h => ?_⟩, ⟨fun h => ?_, fun h hm => ?_⟩⟩
  · have := hg.member w (by omega)
    rw [h] at this
    simpa using this
  · apply Int.lt_of_not_ge
    intro h0
    exact h (List.mem_of_getElem? (hg.member w h0))
  · obtain ⟨i, hi⟩ := List.getElem?_of_mem hm
    have := hg.find i w hi
    omega

theorem contains_iff (l : Language) (hl : l ≠ .none) (ws : List Bytes) :
    (⟨l, isSorted l, wordList l⟩ : Dictionary).contains ws = true ↔ ∀ w ∈ ws, w ∈ wordList l := by
  have hg := good l hl
  simp only [Dictionary.contains, List.all_eq_true, decide_eq_true_eq]
  refine ⟨fun h w hw => List.mem_of_getElem? (hg.member w (h w hw)), fun h w hw => ?_⟩
  obtain ⟨i, hi⟩ := List.getElem?_of_mem (h w hw)
  rw [hg.find i w hi]
  omega

theorem contains_language (l : Language) (hl : l ≠ .none) (ws : List Bytes) :
    dictionaries.contains ws l = if (∀ w ∈ ws, w ∈ wordList l) then l else .none := by
  unfold Dictionaries.contains
  rw [if_pos hl, find_language l hl]
  dsimp only
  by_cases h : ∀ w ∈ ws, w ∈ wordList l
  · rw [if_pos h, if_pos ((contains_iff l hl ws).2 h)]
  · rw [if_neg h, if_neg (fun h' => h ((contains_iff l hl ws).1 h'))]

/-- Positions of words that are all in a list. -/
theorem numbers_of (l : Language) (hl : l ≠ .none) : ∀ ws : List Bytes, (∀ w ∈ ws, w ∈ wordList l) →
    ∃ ns : List Nat, (∀ n ∈ ns, n < 2048) ∧ ws.map some = ns.map (fun n => (wordList l)[n]?) ∧
      dictionaries.index ws l = ns.map fun n : Nat => (n : Int)
  | [], _ => ⟨[], by simp, rfl, by rw [Dictionaries.index, find_language l hl]; rfl⟩
  | w :: ws, h => by
    obtain ⟨ns, h1, h2, h3⟩ := numbers_of l hl ws (fun x hx => h x (by simp [hx]))
    obtain ⟨i, hi⟩ := List.getElem?_of_mem (h w (by simp))
    have hi2 : i < 2048 := by rw [← wordList_length l hl]; exact (List.getElem?_eq_some_iff.1 hi).1
    refine ⟨i :: ns, ?_, ?_, ?_⟩
    · intro n hn
      rcases List.mem_cons.1 hn with rfl | hn
      · exact hi2
      · exact h1 n hn
    · simp [hi, h2]
    · rw [Dictionaries.index, find_language l hl] at h3 ⊢
      simp only [List.map_cons] at h3 ⊢
      rw [h3, (good l hl).find i w hi]

theorem at_numbers (l : Language) (hl : l ≠ .none) (ns : List Nat) (h : ∀ n ∈ ns, n < 2048) :
    (dictionaries.at_ ns l).map some = ns.map (fun n => (wordList l)[n]?) := by
  rw [Dictionaries.at_, find_language l hl]
  dsimp only
  rw [List.map_map]
  apply List.map_congr_left
  intro n hn
  have hlt : n < (wordList l).length := by rw [wordList_length l hl]; exact h n hn
  simp [Dictionary.at_, hlt, List.getD_eq_getElem?_getD]

/-! ### Bits -/

theorem exists_groups : ∀ (m : Nat) (bs : List Bool), bs.length = 11 * m →
    ∃ ns : List Nat, ns.length = m ∧ (∀ n ∈ ns, n < 2048) ∧ ns.flatMap (numBits 11) = bs
  | 0, bs, h => ⟨[], rfl, by simp, by rw [List.length_eq_zero_iff.1 (by omega : bs.length = 0)]; rfl⟩
  | m + 1, bs, h => by
    obtain ⟨ns, h1, h2, h3⟩ := exists_groups m (bs.drop 11) (by rw [List.length_drop]; omega)
    have hl : (bs.take 11).length = 11 := by rw [List.length_take]; omega
    have ht := toNum_lt (bs.take 11)
    have hn := numBits_toNum (bs.take 11)
    rw [hl] at ht hn
    refine ⟨toNum (bs.take 11) :: ns, by simp [h1], ?_, ?_⟩
    · intro n hn
      rcases List.mem_cons.1 hn with rfl | hn
      · exact ht
      · exact h2 n hn
    · rw [List.flatMap_cons, h3, hn, List.take_append_drop]

theorem checksum_table : ∀ k < 9, 4 ≤ k → ∀ x < 256,
    numBits 8 (UInt8.ofNat (x &&& (255 <<< (8 - k)))).toNat = (numBits 8 x).take k ++ List.replicate (8 - k) false := by
  decide +kernel

section
variable {H S : Bytes → Bytes} (hH : ∀ e, e.length ≤ 32 → H e = S e ∧ S e ≠ [])
include hH

theorem checksum_bits (e : Bytes) (j : Nat) (hj : 4 ≤ j ∧ j ≤ 8) (he : e.length = 4 * j) :
    bitsOf [checksumByte H e] = (bitsOf (S e)).take (8 * e.length / 32) ++ List.replicate (8 - j) false := by
  obtain ⟨h1, h2⟩ := hH e (by omega)
  unfold checksumByte checksumBits
  dsimp only
  rw [h1, he, show 4 * j / 4 = j by omega, show 8 * (4 * j) / 32 = j by omega]
  cases hS : S e with
  | nil => exact absurd hS h2
  | cons x xs =>
    have := checksum_table j (by omega) hj.1 x.toNat x.toNat_lt
    rw [bitsOf_cons x, List.take_append_of_le_length (by rw [byteBits_length]; omega)]
    show numBits 8 _ ++ [] = _
    rw [List.append_nil]
    exact this

theorem encodes_iff (e : Bytes) (j : Nat) (hj : 4 ≤ j ∧ j ≤ 8) (he : e.length = 4 * j) (ns : List Nat) :
    ns.flatMap (numBits 11) = Spec.Bip39.message S e ↔ ns.length = 3 * j ∧ unpack2048 ns = e ++ [checksumByte H e] := by
  have hc := checksum_bits hH e j hj he
  have hb : bitsOf (e ++ [checksumByte H e]) = Spec.Bip39.message S e ++ List.replicate (8 - j) false := by
    rw [bitsOf_append, hc, Spec.Bip39.message, List.append_assoc]
  have hbl := congrArg List.length hb
  rw [bitsOf_length, List.length_append, List.length_append, List.length_replicate] at hbl
  simp only [List.length_cons, List.length_nil] at hbl
  obtain ⟨z, hz, hu⟩ := C34_unpack2048 ns
  have hul := congrArg List.length hu
  rw [bitsOf_length, List.length_append, Pack.flatMap_length, List.length_replicate] at hul
  constructor
  · intro h
    have hl := congrArg List.length h
    rw [Pack.flatMap_length] at hl
    have hn : ns.length = 3 * j := by omega
    refine ⟨hn, ?_⟩
    apply bitsOf_inj
    rw [hu, hb, h, show z = 8 - j by omega]
  · intro ⟨hn, h⟩
    rw [h, hb] at hu
    have hzj : z = 8 - j := by
      have := congrArg List.length hu
      rw [List.length_append, List.length_append, Pack.flatMap_length, List.length_replicate, List.length_replicate] at this
      omega
    rw [hzj] at hu
    exact (List.append_cancel_right hu).symm

omit hH in
theorem valid_size (e : Bytes) : Spec.Bip39.ValidSize e ↔ ∃ j, (4 ≤ j ∧ j ≤ 8) ∧ e.length = 4 * j := by
  simp only [Spec.Bip39.ValidSize, List.mem_cons, List.not_mem_nil, or_false]
  constructor
  · intro h
    exact ⟨e.length / 4, by omega, by omega⟩
  · rintro ⟨j, hj, h⟩
    omega

omit hH in
theorem isValidEntropySize_iff (e : Bytes) : isValidEntropySize e.length = true ↔ Spec.Bip39.ValidSize e := by
  simp only [isValidEntropySize, Spec.Bip39.ValidSize, List.mem_cons, List.not_mem_nil, or_false, Bool.and_eq_true, beq_iff_eq,
    decide_eq_true_eq]
  omega

/-- Encoding. -/
theorem encoder_spec (l : Language) (hl : l ≠ .none) (e : Bytes) (j : Nat) (hj : 4 ≤ j ∧ j ≤ 8) (he : e.length = 4 * j) :
    Spec.Bip39.Encodes S (wordList l) e (encoder H e l) ∧ (encoder H e l).length = 3 * j := by
  have hm : (Spec.Bip39.message S e).length = 11 * (3 * j) := by
    have hc := congrArg List.length (checksum_bits hH e j hj he)
    rw [bitsOf_length, List.length_append, List.length_replicate] at hc
    simp only [List.length_cons, List.length_nil] at hc
    rw [Spec.Bip39.message, List.length_append, bitsOf_length]
    omega
  obtain ⟨ns, h1, h2, h3⟩ := exists_groups (3 * j) _ hm
  have hu := ((encodes_iff hH e j hj he ns).1 h3).2
  have hp : pack2048 (e ++ [checksumByte H e]) = ns := by
    rw [← hu]
    refine C34_roundtrip2048 ns h2 ?_
    rw [hu, List.length_append, he]
    simp [maxSize]
    omega
  unfold encoder decode2048
  rw [hp]
  refine ⟨⟨ns, h2, h3, at_numbers l hl ns h2⟩, ?_⟩
  have := congrArg List.length (at_numbers l hl ns h2)
  simpa [h1] using this

/-- Decoding. -/
theorem decoder_spec (l : Language) (hl : l ≠ .none) (ws : List Bytes) (hw : ∀ w ∈ ws, w ∈ wordList l) (j : Nat)
    (hj : 4 ≤ j ∧ j ≤ 8) (hn : ws.length = 3 * j) (e : Bytes) :
    (decoder H ws l = e ∧ e ≠ []) ↔ (e.length = 4 * j ∧ Spec.Bip39.Encodes S (wordList l) e ws) := by
  obtain ⟨ns, h1, h2, h3⟩ := numbers_of l hl ws hw
  have hnl : ns.length = 3 * j := by
    have := congrArg List.length h2
    simp at this
    omega
  have hu : encode2048 ws l = some (unpack2048 ns) := by
    unfold encode2048
    dsimp only
    rw [h3, if_neg, if_neg]
    · rw [List.map_map]
      congr 2
      conv => rhs; rw [← List.map_id ns]
      apply List.map_congr_left
      intro n _
      simp
    · simp
    · cases ns with
      | nil => simp at hnl; omega
      | cons => simp
  obtain ⟨z, hz, hb⟩ := C34_unpack2048 ns
  have hbl := congrArg List.length hb
  rw [bitsOf_length, List.length_append, Pack.flatMap_length, List.length_replicate] at hbl
  have hul : (unpack2048 ns).length = 4 * j + 1 := by omega
  have hne : unpack2048 ns ≠ [] := by intro h; rw [h] at hul; simp at hul
  have hsplit := List.dropLast_concat_getLast hne
  have hdl : (unpack2048 ns).dropLast.length = 4 * j := by rw [List.length_dropLast]; omega
  have hunique : ∀ ms : List Nat, (∀ n ∈ ms, n < 2048) → ws.map some = ms.map (fun n => (wordList l)[n]?) → ms = ns := by
    intro ms hm hms
    rw [h2] at hms
    apply List.ext_getElem
    · have := congrArg List.length hms
      simpa using this.symm
    · intro i hi1 hi2
      have := congrArg (fun x => x[i]?) hms
      simp only [List.getElem?_map, List.getElem?_eq_getElem hi1, List.getElem?_eq_getElem hi2, Option.map_some] at this
      injection this with this
      have hlt : ns[i] < (wordList l).length := by rw [wordList_length l hl]; exact h1 _ (List.getElem_mem hi2)
      rw [List.getElem?_eq_getElem hlt] at this
      exact (wordList_nodup l hl ns[i] ms[i] _ (List.getElem?_eq_getElem hlt) this.symm).symm
  unfold decoder
  rw [hu]
  dsimp only
  constructor
  · rintro ⟨h, he⟩
    by_cases hc : (unpack2048 ns).getLastD 0 = checksumByte H (unpack2048 ns).dropLast
    · rw [if_pos hc] at h
      subst h
      refine ⟨hdl, ns, h1, ?_, h2⟩
      refine (encodes_iff hH _ j hj hdl ns).2 ⟨hnl, ?_⟩
      rw [← hc, List.getLastD_eq_getLast?, List.getLast?_eq_some_getLast hne]
      exact hsplit.symm
    · rw [if_neg hc] at h
      exact absurd h.symm he
  · rintro ⟨he, ms, hm1, hm2, hm3⟩
    have := hunique ms hm1 hm3
    subst this
    have hu2 := ((encodes_iff hH e j hj he ms).1 hm2).2
    rw [hu2]
    refine ⟨?_, by intro h; rw [h] at he; simp at he; omega⟩
    simp
end


/-! ### The properties, for SHA-256 as the library computes it -/

section
variable (b : Sha.Build) (checked : Bool)

theorem sha_agrees (e : Bytes) (he : e.length ≤ 32) :
    HashFn.sha256Hash b checked e = Spec.Hash.sha256.digest e ∧ Spec.Hash.sha256.digest e ≠ [] := by
  refine ⟨(HashFn.C58_functions b checked e (by omega)).2.2.2.1, ?_⟩
  intro h
  have := Hash.standard_length (Hash.Standard.sha256 (b := b)) e
  rw [h] at this
  cases this

/-- The words of a mnemonic made from entropy of a valid size, in any of the ten languages, are those of BIP39. -/
theorem C36_encode (l : Language) (hl : l ≠ .none) (e : Bytes) (he : Spec.Bip39.ValidSize e) :
    (fromEntropy (HashFn.sha256Hash b checked) e l).entropy = e ∧
    (fromEntropy (HashFn.sha256Hash b checked) e l).lingo = l ∧
    (fromEntropy (HashFn.sha256Hash b checked) e l).isValid = true ∧
    (fromEntropy (HashFn.sha256Hash b checked) e l).words.length = 3 * e.length / 4 ∧
    Spec.Bip39.Encodes Spec.Hash.sha256.digest (wordList l) e (fromEntropy (HashFn.sha256Hash b checked) e l).words := by
  obtain ⟨j, hj, hel⟩ := (valid_size e).1 he
  have hs := encoder_spec (sha_agrees b checked) l hl e j hj hel
  unfold fromEntropy
  rw [(isValidEntropySize_iff e).2 he, show dictionaries.exists_ l = true by rw [Dictionaries.exists_, find_language l hl]; rfl]
  refine ⟨rfl, rfl, ?_, ?_, hs.1⟩
  · cases e with
    | nil => simp at hel; omega
    | cons => rfl
  · show (encoder _ e l).length = _
    rw [hs.2]
    omega

/-- Entropy of any other size is refused. -/
theorem C36_encode_refused (l : Language) (e : Bytes) (he : ¬ Spec.Bip39.ValidSize e ∨ l = .none) :
    fromEntropy (HashFn.sha256Hash b checked) e l = .invalid := by
  unfold fromEntropy
  by_cases h : isValidEntropySize e.length = true
  · rcases he with he | rfl
    · exact absurd ((isValidEntropySize_iff e).1 h) he
    · rw [h]
      rfl
  · simp only [Bool.not_eq_true] at h
    rw [h]
    rfl

/-- The entropy encoded by words is unique. -/
theorem C36_unique (S : Bytes → Bytes) (l : Language) (hl : l ≠ .none) (e e' : Bytes) (ws : List Bytes)
    (he : Spec.Bip39.ValidSize e) (he' : Spec.Bip39.ValidSize e') (hS : ∀ e, S e ≠ [])
    (h : Spec.Bip39.Encodes S (wordList l) e ws) (h' : Spec.Bip39.Encodes S (wordList l) e' ws) : e = e' := by
  obtain ⟨j, hj, hel⟩ := (valid_size e).1 he
  obtain ⟨j', hj', hel'⟩ := (valid_size e').1 he'
  obtain ⟨ns, h1, h2, h3⟩ := h
  obtain ⟨ms, g1, g2, g3⟩ := h'
  have en := (encodes_iff (H := S) (S := S) (fun e _ => ⟨rfl, hS e⟩) e j hj hel ns).1 h2
  have em := (encodes_iff (H := S) (S := S) (fun e _ => ⟨rfl, hS e⟩) e' j' hj' hel' ms).1 g2
  have : ns = ms := by
    rw [h3] at g3
    apply List.ext_getElem
    · have := congrArg List.length g3
      simpa using this
    · intro i hi1 hi2
      have := congrArg (fun x => x[i]?) g3
      simp only [List.getElem?_map, List.getElem?_eq_getElem hi1, List.getElem?_eq_getElem hi2, Option.map_some] at this
      injection this with this
      have hlt : ns[i] < (wordList l).length := by rw [wordList_length l hl]; exact h1 _ (List.getElem_mem hi1)
      rw [List.getElem?_eq_getElem hlt] at this
      exact wordList_nodup l hl ns[i] ms[i] _ (List.getElem?_eq_getElem hlt) this.symm
  subst this
  have := en.2.symm.trans em.2
  exact (List.append_inj' this (by simp)).1

theorem encodes_members {S : Bytes → Bytes} {l : Language} {e : Bytes} {ws : List Bytes}
    (h : Spec.Bip39.Encodes S (wordList l) e ws) : ∀ w ∈ ws, w ∈ wordList l := by
  obtain ⟨ns, h1, h2, h3⟩ := h
  intro w hw
  have : some w ∈ ws.map some := List.mem_map.2 ⟨w, hw, rfl⟩
  rw [h3] at this
  obtain ⟨n, _, hn⟩ := List.mem_map.1 this
  exact List.mem_of_getElem? hn

theorem encodes_count {e : Bytes} {l : Language} {ws : List Bytes} (j : Nat) (hj : 4 ≤ j ∧ j ≤ 8) (hel : e.length = 4 * j)
    (h : Spec.Bip39.Encodes Spec.Hash.sha256.digest (wordList l) e ws) : ws.length = 3 * j := by
  obtain ⟨ns, h1, h2, h3⟩ := h
  have := ((encodes_iff (sha_agrees .portable true) e j hj hel ns).1 h2).1
  have h4 := congrArg List.length h3
  simp at h4
  omega

theorem isValidWordCount_iff (n : Nat) : isValidWordCount n = true ↔ ∃ j, (4 ≤ j ∧ j ≤ 8) ∧ n = 3 * j := by
  simp only [isValidWordCount, Bool.and_eq_true, beq_iff_eq, decide_eq_true_eq]
  constructor
  · intro h
    exact ⟨n / 3, by omega, by omega⟩
  · rintro ⟨j, hj, h⟩
    omega

/-- Words (normalized) that encode some entropy in the given language are accepted, and the mnemonic holds it. -/
theorem C36_decode (norm : Bytes → Bytes) (l : Language) (hl : l ≠ .none) (ws : List Bytes) (e : Bytes)
    (he : Spec.Bip39.ValidSize e) (h : Spec.Bip39.Encodes Spec.Hash.sha256.digest (wordList l) e (ws.map norm)) :
    fromWords (HashFn.sha256Hash b checked) norm ws l = ⟨e, ws.map norm, l⟩ := by
  obtain ⟨j, hj, hel⟩ := (valid_size e).1 he
  have hc := encodes_count j hj hel h
  have hm := encodes_members h
  have hd := (decoder_spec (sha_agrees b checked) l hl (ws.map norm) hm j hj hc e).2 ⟨hel, h⟩
  unfold fromWords
  rw [(isValidWordCount_iff ws.length).2 ⟨j, hj, by simpa using hc⟩]
  dsimp only
  rw [contains_language l hl, if_pos hm, if_neg (by decide), if_neg hl, if_neg (fun h => h.2 rfl), if_neg, hd.1, if_neg]
  · simpa using hd.2
  · simp only [isAmbiguous, Bool.and_eq_true, beq_iff_eq]
    intro hh
    exact hl hh.1.2

/-- Nothing else is accepted: a valid mnemonic's words encode its entropy, with a correct checksum. -/
theorem C36_decode_only (norm : Bytes → Bytes) (l : Language) (hl : l ≠ .none) (ws : List Bytes)
    (h : fromWords (HashFn.sha256Hash b checked) norm ws l ≠ .invalid) :
    ∃ e, Spec.Bip39.ValidSize e ∧ Spec.Bip39.Encodes Spec.Hash.sha256.digest (wordList l) e (ws.map norm) ∧
      fromWords (HashFn.sha256Hash b checked) norm ws l = ⟨e, ws.map norm, l⟩ := by
  unfold fromWords at h ⊢
  by_cases hc : isValidWordCount ws.length = true
  · rw [hc] at h ⊢
    dsimp only at h ⊢
    rw [if_neg (by decide), contains_language l hl] at h
    rw [if_neg (by decide), contains_language l hl]
    by_cases hm : ∀ w ∈ ws.map norm, w ∈ wordList l
    · rw [if_pos hm, if_neg hl, if_neg (fun h => h.2 rfl)] at h
      rw [if_pos hm, if_neg hl, if_neg (fun h => h.2 rfl)]
      have ha : ¬ isAmbiguous (ws.map norm) l l = true := by
        simp only [isAmbiguous, Bool.and_eq_true, beq_iff_eq]
        intro hh
        exact hl hh.1.2
      rw [if_neg ha] at h ⊢
      obtain ⟨j, hj, hn⟩ := (isValidWordCount_iff ws.length).1 hc
      by_cases hd : (decoder (HashFn.sha256Hash b checked) (ws.map norm) l).isEmpty = true
      · rw [if_pos hd] at h
        exact absurd rfl h
      · rw [if_neg hd]
        have := (decoder_spec (sha_agrees b checked) l hl (ws.map norm) hm j hj (by simpa using hn) _).1 ⟨rfl, by simpa using hd⟩
        exact ⟨_, (valid_size _).2 ⟨j, hj, this.1⟩, this.2, rfl⟩
    · rw [if_neg hm] at h
      exact absurd rfl h
  · simp only [Bool.not_eq_true] at hc
    rw [hc] at h
    exact absurd rfl h

/-- The words of any entropy give it back, in the language they were made in, whatever the normalization does to other text. -/
theorem C36_roundtrip (norm : Bytes → Bytes) (l : Language) (hl : l ≠ .none) (hnorm : ∀ w ∈ wordList l, norm w = w) (e : Bytes)
    (he : Spec.Bip39.ValidSize e) :
    fromWords (HashFn.sha256Hash b checked) norm (fromEntropy (HashFn.sha256Hash b checked) e l).words l
      = fromEntropy (HashFn.sha256Hash b checked) e l := by
  obtain ⟨h1, h2, _, _, h5⟩ := C36_encode b checked l hl e he
  have hid : (fromEntropy (HashFn.sha256Hash b checked) e l).words.map norm = (fromEntropy (HashFn.sha256Hash b checked) e l).words := by
    conv => rhs; rw [← List.map_id (fromEntropy (HashFn.sha256Hash b checked) e l).words]
    exact List.map_congr_left (fun w hw => hnorm w (encodes_members h5 w hw))
  rw [C36_decode b checked norm l hl _ e he (by rw [hid]; exact h5), hid]
  generalize hm : fromEntropy (HashFn.sha256Hash b checked) e l = m at *
  cases m
  simp_all

/-- The ten languages in search order. -/
def languages : List Language := [.en, .es, .it, .fr, .cs, .pt, .ja, .ko, .zhHans, .zhHant]

open Classical in
theorem contains_none (ws : List Bytes) : dictionaries.contains ws .none =
    match languages.find? (fun l => decide (∀ w ∈ ws, w ∈ wordList l)) with
    | some l => l
    | none => .none := by
  unfold Dictionaries.contains
  rw [if_neg (by decide), dictionaries_eq, List.find?_map]
  have : languages.find? ((fun d : Dictionary => d.contains ws) ∘ fun l => (⟨l, isSorted l, wordList l⟩ : Dictionary))
      = languages.find? (fun l => decide (∀ w ∈ ws, w ∈ wordList l)) := by
    have hne : ∀ l ∈ languages, l ≠ .none := by decide
    have : ∀ ls : List Language, (∀ l ∈ ls, l ≠ .none) →
        ls.find? ((fun d : Dictionary => d.contains ws) ∘ fun l => (⟨l, isSorted l, wordList l⟩ : Dictionary))
        = ls.find? (fun l => decide (∀ w ∈ ws, w ∈ wordList l)) := by
      intro ls
      induction ls with
      | nil => intro _; rfl
      | cons x ls ih =>
        intro h
        have hx : (⟨x, isSorted x, wordList x⟩ : Dictionary).contains ws = decide (∀ w ∈ ws, w ∈ wordList x) := by
          by_cases hc : ∀ w ∈ ws, w ∈ wordList x
          · rw [(contains_iff x (h x (by simp)) ws).2 hc, decide_eq_true hc]
          · rw [decide_eq_false hc]
            cases hd : (⟨x, isSorted x, wordList x⟩ : Dictionary).contains ws with
            | false => rfl
            | true => exact absurd ((contains_iff x (h x (by simp)) ws).1 hd) hc
        rw [List.find?_cons, List.find?_cons, Function.comp, hx, ih (fun l hl => h l (by simp [hl]))]
    exact this languages hne
  show (match Option.map _ (languages.find? _) with | some d => Dictionary.identifier d | none => Language.none) = _
  rw [this]
  cases languages.find? (fun l => decide (∀ w ∈ ws, w ∈ wordList l)) <;> rfl

/-- Without naming the language the words of any entropy still give that entropy back, in whichever language is found; the
only exception are words that are all both English and French, which are refused. -/
theorem C36_unspecified (norm : Bytes → Bytes) (l : Language) (hl : l ≠ .none) (hnorm : ∀ w ∈ wordList l, norm w = w) (e : Bytes)
    (he : Spec.Bip39.ValidSize e) :
    let ws := (fromEntropy (HashFn.sha256Hash b checked) e l).words
    let found := fromWords (HashFn.sha256Hash b checked) norm ws .none
    (found.entropy = e ∧ found.words = ws) ∨
    (found = .invalid ∧ (l = .en ∨ l = .fr) ∧ ∀ w ∈ ws, w ∈ wordList .en ∧ w ∈ wordList .fr) := by
  intro ws found
  obtain ⟨_, _, _, _, h5⟩ := C36_encode b checked l hl e he
  have hmem : ∀ w ∈ ws, w ∈ wordList l := encodes_members h5
  have hid : ws.map norm = ws := by
    conv => rhs; rw [← List.map_id ws]
    exact List.map_congr_left (fun w hw => hnorm w (hmem w hw))
  obtain ⟨j, hj, hel⟩ := (valid_size e).1 he
  have hc : ws.length = 3 * j := encodes_count j hj hel h5
  have hlang : l ∈ languages := by cases l <;> first | decide | exact absurd rfl hl
  classical
  -- the language found
  obtain ⟨l', hl'⟩ : ∃ l', languages.find? (fun l => decide (∀ w ∈ ws, w ∈ wordList l)) = some l' := by
    cases hf : languages.find? (fun l => decide (∀ w ∈ ws, w ∈ wordList l)) with
    | some l' => exact ⟨l', rfl⟩
    | none =>
      rw [List.find?_eq_none] at hf
      exact absurd (decide_eq_true hmem) (hf l hlang)
  have hmem' : ∀ w ∈ ws, w ∈ wordList l' := by
    have := List.find?_some hl'
    simpa using this
  have hne' : l' ≠ .none := by
    intro h
    have := List.mem_of_find?_eq_some hl'
    rw [h] at this
    exact absurd this (by decide)
  have hlex : dictionaries.contains ws .none = l' := by rw [contains_none, hl']
  have hfound : found = if isAmbiguous ws .none l' then .invalid
      else if (decoder (HashFn.sha256Hash b checked) ws l').isEmpty then .invalid
      else ⟨decoder (HashFn.sha256Hash b checked) ws l', ws, l'⟩ := by
    show fromWords _ _ _ _ = _
    unfold fromWords
    rw [(isValidWordCount_iff ws.length).2 ⟨j, hj, hc⟩]
    dsimp only
    rw [hid, hlex, if_neg (by decide), if_neg hne', if_neg (fun h => h.1 rfl)]
  -- the same entropy is encoded in the language found, unless it is the English and French case
  have hamb : ∀ h : l' = .en, isAmbiguous ws .none l' = true ↔ ∀ w ∈ ws, w ∈ wordList .fr := by
    intro h
    subst h
    simp only [isAmbiguous, contains_language .fr (by decide)]
    by_cases hf : ∀ w ∈ ws, w ∈ wordList .fr
    · simp only [if_pos hf]
      exact ⟨fun _ => hf, fun _ => by decide⟩
    · simp only [if_neg hf]
      exact ⟨fun h => absurd h (by decide), fun h => absurd h hf⟩
  have hamb2 : l' ≠ .en → isAmbiguous ws .none l' = false := by
    intro h
    simp [isAmbiguous, h]
  have same : Spec.Bip39.Encodes Spec.Hash.sha256.digest (wordList l') e ws → isAmbiguous ws .none l' = false →
      found.entropy = e ∧ found.words = ws := by
    intro h ha
    have hd := (decoder_spec (sha_agrees b checked) l' hne' ws hmem' j hj hc e).2 ⟨hel, h⟩
    rw [hfound, ha, if_neg (by decide), hd.1, if_neg (by simpa using hd.2)]
    exact ⟨rfl, rfl⟩
  by_cases hll : l' = l
  · subst hll
    by_cases h1 : l' = .en ∧ ∀ w ∈ ws, w ∈ wordList .fr
    · right
      refine ⟨?_, Or.inl h1.1, fun w hw => ⟨by rw [← h1.1]; exact hmem' w hw, h1.2 w hw⟩⟩
      rw [hfound, (hamb h1.1).2 h1.2, if_pos rfl]
    · left
      apply same h5
      by_cases h2 : l' = .en
      · cases ha : isAmbiguous ws .none l' with
        | false => rfl
        | true => exact absurd ⟨h2, (hamb h2).1 ha⟩ h1
      · exact hamb2 h2
  · -- a word in both lists
    have hshared : ∀ w ∈ ws, ∀ i j : Nat, (wordList l)[i]? = some w → (wordList l')[j]? = some w →
        ((l = .en ∧ l' = .fr) ∨ (l = .fr ∧ l' = .en)) ∨ (((l = .zhHans ∧ l' = .zhHant) ∨ (l = .zhHant ∧ l' = .zhHans)) ∧ i = j) := by
      intro w _ i j hi hj
      rcases C36_shared l l' hl hne' i j w hi hj with h | h | h
      · exact absurd h.1.symm hll
      · exact Or.inl h
      · exact Or.inr h
    obtain ⟨w0, hw0⟩ : ∃ w, w ∈ ws := by
      cases hws : ws with
      | nil => rw [hws] at hc; simp at hc; omega
      | cons w _ => exact ⟨w, by simp⟩
    obtain ⟨i0, hi0⟩ := List.getElem?_of_mem (hmem w0 hw0)
    obtain ⟨j0, hj0⟩ := List.getElem?_of_mem (hmem' w0 hw0)
    rcases hshared w0 hw0 i0 j0 hi0 hj0 with (⟨h1, h2⟩ | ⟨h1, h2⟩) | ⟨h3, _⟩
    · -- English words found as French: but English is searched first
      exfalso
      rw [h1] at hmem
      have : languages.find? (fun l => decide (∀ w ∈ ws, w ∈ wordList l)) = some .en :=
        List.find?_cons_of_pos (decide_eq_true hmem)
      rw [this] at hl'
      injection hl' with hl'
      rw [h2] at hl'
      cases hl'
    · right
      rw [h1] at hmem
      rw [h2] at hmem'
      refine ⟨?_, Or.inr h1, fun w hw => ⟨hmem' w hw, hmem w hw⟩⟩
      rw [hfound, (hamb h2).2 hmem, if_pos rfl]
    · left
      have hnot : ¬ ((l = .en ∧ l' = .fr) ∨ (l = .fr ∧ l' = .en)) := by
        rcases h3 with ⟨h3, h4⟩ | ⟨h3, h4⟩ <;> rw [h3, h4] <;> decide
      apply same
      · obtain ⟨ns, g1, g2, g3⟩ := h5
        refine ⟨ns, g1, g2, ?_⟩
        have : ∀ (ws : List Bytes) (ns : List Nat), (∀ w ∈ ws, w ∈ wordList l') → (∀ w ∈ ws, ∀ i j : Nat, (wordList l)[i]? = some w →
            (wordList l')[j]? = some w → i = j) →
            ws.map some = ns.map (fun n => (wordList l)[n]?) → ws.map some = ns.map (fun n => (wordList l')[n]?) := by
          intro ws
          induction ws with
          | nil => intro ns _ _ h; cases ns <;> simp_all
          | cons w ws ih =>
            intro ns hm hs h
            cases ns with
            | nil => simp at h
            | cons n ns =>
              simp only [List.map_cons, List.cons.injEq] at h ⊢
              refine ⟨?_, ih ns (fun x hx => hm x (by simp [hx])) (fun x hx => hs x (by simp [hx])) h.2⟩
              obtain ⟨k, hk⟩ := List.getElem?_of_mem (hm w (by simp))
              rw [hs w (by simp) n k h.1.symm hk, hk]
        refine this ws ns hmem' (fun w hw i j hi hj => ?_) g3
        rcases hshared w hw i j hi hj with h | h
        · exact absurd h hnot
        · exact h.2
      · apply hamb2
        rcases h3 with ⟨_, h4⟩ | ⟨_, h4⟩ <;> rw [h4] <;> decide

/-- The seed is PBKDF2 with HMAC-SHA512 of the sentence, salted with "mnemonic" and the passphrase, 2048 iterations, 512 bits. -/
theorem C36_seed (nfkd : Bytes → Bytes) (words : List Bytes) (passphrase : Bytes)
    (hw : (join [0x20] words).length + 512 ≤ 2 ^ 61) (hp : (nfkd passphrase).length + 2048 ≤ 2 ^ 61) :
    seeder b checked nfkd words passphrase = Spec.Mac.pbkdf2 (Spec.Mac.hmac Spec.Hash.sha512.digest 128) 64
      (join [0x20] words) ("mnemonic".toList.map (fun c => UInt8.ofNat c.toNat) ++ nfkd passphrase) Spec.Bip39.iterations 64 := by
  have := Hmac.C59_pbkdf2 (Hash.Standard.sha512 (b := b)) checked (join [0x20] words) (Radix.ascii "mnemonic" ++ nfkd passphrase) 2048 64 hw
    (by rw [List.length_append, show (Radix.ascii "mnemonic").length = 8 by decide]; omega)
  exact this

end

/-! ### Instances -/

/-- The published vector of sixteen zero bytes: eleven times "abandon", then "about". -/
example : (fromEntropy (HashFn.sha256Hash .portable true) (List.replicate 16 0) .en).words
    = List.replicate 11 (Radix.ascii "abandon") ++ [Radix.ascii "about"] := by decide +kernel

/-- Read back without a language, and with a wrong checksum. -/
example : (fromWords (HashFn.sha256Hash .portable true) id (List.replicate 11 (Radix.ascii "abandon") ++ [Radix.ascii "about"]) .none).entropy
      = List.replicate 16 0 ∧
    fromWords (HashFn.sha256Hash .portable true) id (List.replicate 12 (Radix.ascii "abandon")) .none = .invalid := by decide +kernel

example : Spec.Bip39.ValidSize (List.replicate 16 0) ∧ (∀ w ∈ wordList .ja, id w = w) := ⟨by unfold Spec.Bip39.ValidSize; decide, fun _ _ => rfl⟩

end Verif.Mnemonic
