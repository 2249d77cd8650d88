import Verif.Props.Bech32
/-!
# C57: witness addresses
-/
namespace Verif.Bech32
open Verif Verif.Pack

deriving instance DecidableEq for Except

theorem splitLast_append (sep : UInt8) (p q : Bytes) (h : sep ∉ q) : splitLast sep (p ++ [sep] ++ q) = some (p, q) := by
  unfold splitLast
  rw [if_pos (by simp)]
  have hr : (p ++ [sep] ++ q).reverse = q.reverse ++ sep :: p.reverse := by simp
  have hq : ∀ c ∈ q.reverse, (decide (c ≠ sep)) = true := by
    intro c hc
    rw [decide_eq_true_iff]
    rintro rfl
    exact h (List.mem_reverse.1 hc)
  rw [hr, List.dropWhile_append_of_pos hq, List.takeWhile_append_of_pos hq, List.dropWhile_cons_of_neg (by simp), List.takeWhile_cons_of_neg (by simp)]
  simp

theorem splitLast_some {sep : UInt8} {s p q : Bytes} (h : splitLast sep s = some (p, q)) : s = p ++ [sep] ++ q ∧ sep ∉ q := by
  by_cases hm : sep ∈ s
  · obtain ⟨a, b, hs, hb⟩ : ∃ a b : Bytes, s = a ++ [sep] ++ b ∧ sep ∉ b := by
      clear h
      induction s with
      | nil => exact absurd hm (by simp)
      | cons c s ih =>
        by_cases h2 : sep ∈ s
        · obtain ⟨a, b, rfl, hb⟩ := ih h2
          exact ⟨c :: a, b, rfl, hb⟩
        · rcases List.mem_cons.1 hm with rfl | h3
          · exact ⟨[], s, rfl, h2⟩
          · exact absurd h3 h2
    rw [hs, splitLast_append sep a b hb] at h
    injection h with h
    injection h with h1 h2
    subst h1 h2
    exact ⟨hs, hb⟩
  · unfold splitLast at h
    rw [if_neg hm] at h
    exact absurd h (by simp)

theorem lowerChar_props : ∀ c : UInt8, (c < 128 ↔ lowerChar c < 128) ∧ lowerChar (lowerChar c) = lowerChar c ∧ ¬ (65 ≤ lowerChar c ∧ lowerChar c ≤ 90) :=
  Radix.forall_byte (by decide +kernel)

theorem lower_base32 : ∀ c ∈ base32Chars, lowerChar c = c ∧ c < 128 ∧ c ≠ 49 := by decide +kernel

theorem toLower_append (a b : Bytes) : toLower (a ++ b) = toLower a ++ toLower b := List.map_append

theorem toLower_of_base32 {s : Bytes} (h : ∀ c ∈ s, c ∈ base32Chars) : toLower s = s := by
  unfold toLower
  conv => rhs; rw [← List.map_id s]
  exact List.map_congr_left fun c hc => (lower_base32 c (h c hc)).1

theorem not_mixed_of_lower {s : Bytes} (h : toLower s = s) : mixedCase s = false := by
  unfold mixedCase
  have : (s.any fun c => decide (65 ≤ c) && decide (c ≤ 90)) = false := by
    rw [List.any_eq_false]
    intro c hc hh
    rw [Bool.and_eq_true, decide_eq_true_iff, decide_eq_true_iff] at hh
    have hl : lowerChar c = c := by
      obtain ⟨c', -, rfl⟩ := List.mem_map.1 (show c ∈ toLower s by rw [h]; exact hc)
      exact (lowerChar_props c').2.1
    exact (lowerChar_props c).2.2 (by rw [hl]; exact hh)
  rw [this, Bool.and_false]

theorem isAscii_iff (s : Bytes) : isAscii s = true ↔ ∀ c ∈ s, c < 128 := by
  unfold isAscii; rw [List.all_eq_true]; simp only [decide_eq_true_eq]

theorem isAscii_toLower (s : Bytes) : isAscii (toLower s) = isAscii s := by
  rw [Bool.eq_iff_iff, isAscii_iff, isAscii_iff]
  unfold toLower
  simp only [List.forall_mem_map]
  exact forall_congr' fun c => imp_congr_right fun _ => (lowerChar_props c).1.symm

theorem toLower_idem (s : Bytes) : toLower (toLower s) = toLower s := by
  unfold toLower
  rw [List.map_map]
  exact List.map_congr_left fun c _ => (lowerChar_props c).2.1

theorem parsePrefix_none (p : Bytes) (strict : Bool) : parsePrefix p strict = none ↔
    toLower p = p ∧ 1 ≤ p.length ∧ p.length ≤ 78 ∧ (∀ c ∈ p, 33 ≤ c ∧ c ≤ 126) ∧ (strict = true → p = mainnet ∨ p = testnet) := by
  unfold parsePrefix
  have hany : (p.any fun c => decide (c < 33) || decide (c > 126)) = true ↔ ¬ ∀ c ∈ p, 33 ≤ c ∧ c ≤ 126 := by
    rw [List.any_eq_true]
    constructor
    · rintro ⟨c, hc, h⟩ hh
      have := hh c hc
      rw [Bool.or_eq_true, decide_eq_true_iff, decide_eq_true_iff] at h
      rcases h with h | h
      · exact absurd this.1 (by rw [UInt8.not_le]; exact h)
      · exact absurd this.2 (by rw [UInt8.not_le]; exact h)
    · intro h
      apply Classical.byContradiction
      intro hn
      apply h
      intro c hc
      constructor
      · rw [← UInt8.not_lt]; intro h2; exact hn ⟨c, hc, by simp [h2]⟩
      · rw [← UInt8.not_lt]; intro h2; exact hn ⟨c, hc, by simp [h2]⟩
  by_cases ha : isAscii p = true
  · rw [ha]
    by_cases hl : toLower p = p
    · by_cases h1 : p.length < 1
      · simp [h1, hl]; omega
      · by_cases h2 : p.length > 90 - 2 - 4 - 6
        · simp only [hl, h1, h2]; simp; omega
        · by_cases h3 : (p.any fun c => decide (c < 33) || decide (c > 126)) = true
          · simp only [hl, h1, h2, h3]; simp; intro _ _ h; exact absurd h (hany.1 h3)
          · have h4 : ∀ c ∈ p, 33 ≤ c ∧ c ≤ 126 := Classical.byContradiction fun hn => h3 (hany.2 hn)
            simp only [hl, h1, h2, h3]
            by_cases h5 : strict = true ∧ p ≠ mainnet ∧ p ≠ testnet
            · rw [if_pos h5]
              simp
              intro _ _ _
              exact ⟨h5.1, h5.2⟩
            · rw [if_neg h5]
              simp
              refine ⟨by omega, by omega, h4, ?_⟩
              intro hs
              apply Classical.byContradiction
              intro hn
              exact h5 ⟨hs, fun h => hn (.inl h), fun h => hn (.inr h)⟩
    · simp [hl]
  · simp only [ha]
    simp
    intro _ _ _ h
    exfalso
    apply ha
    rw [isAscii_iff]
    intro c hc
    have := (h c hc).2
    exact Nat.lt_of_le_of_lt (show c.toNat ≤ 126 from this) (by decide)

/-- Sizes of witness programs that are accepted for a version. -/
def Sized (strict : Bool) (version size : Nat) : Prop :=
  version = 0 ∧ (size = 20 ∨ size = 32) ∨ version = 1 ∧ size = 32 ∨ 2 ≤ version ∧ version ≤ 16 ∧ 2 ≤ size ∧ size ≤ 40 ∧ strict = false

theorem parseProgram_iff (v : Nat) (p : Bytes) (strict : Bool) : parseProgram v p strict ≠ .invalid ↔ Sized strict v p.length := by
  unfold parseProgram Sized
  by_cases h : ¬ v ≤ 16 ∨ ¬ (2 ≤ p.length ∧ p.length ≤ 40)
  · rw [if_pos h]; simp; omega
  · rw [if_neg h]
    by_cases h0 : v = 0
    · rw [if_pos h0]
      split
      · simp; omega
      · split
        · simp; omega
        · simp; omega
    · rw [if_neg h0]
      by_cases h1 : v = 1
      · rw [if_pos h1]
        split
        · simp; omega
        · simp; omega
      · rw [if_neg h1]
        cases strict <;> simp <;> omega

theorem decodeGroups_iff {s : Bytes} (ha : ∀ c ∈ s, c < 128) (hl : toLower s = s) (g : List Nat) :
    decodeGroups s = .ok g ↔ (∀ v ∈ g, v < 32) ∧ s = encodeGroups g := by
  constructor
  · intro h
    have hacc := C33_base32_accepts s ha
    rcases hacc with ⟨⟨g', h1, h2⟩, -, h3⟩ | ⟨h1, -⟩
    · rw [h] at h1
      injection h1 with h1
      subst h1
      have hs : encodeGroups g = s := h2.trans hl
      refine ⟨?_, hs.symm⟩
      unfold decodeGroups at h
      split at h
      · exact absurd h (by simp)
      · have key : ∀ (s : Bytes) (out g : List Nat), (∀ v ∈ out, v < 32) → decodeLoop s out = .ok g → ∀ v ∈ g, v < 32 := by
          intro s
          induction s with
          | nil =>
            intro out g ho h
            unfold decodeLoop at h
            injection h with h
            subst h
            exact ho
          | cons c s ih =>
            intro out g ho h
            unfold decodeLoop at h
            split at h
            · exact absurd h (by simp)
            · rename_i v hv
              split at h
              · exact absurd h (by simp)
              · rename_i hne
                refine ih _ _ ?_ h
                intro w hw
                rcases List.mem_append.1 hw with hw | hw
                · exact ho w hw
                · rw [List.mem_singleton.1 hw]
                  have hall : ∀ v ∈ base32Table, v = 0xff ∨ v.toNat < 32 := by decide +kernel
                  exact (hall v (List.mem_of_getElem? hv)).resolve_left hne
        exact key s [] g (by simp) h
    · rw [h] at h1
      exact absurd h1 (by simp)
  · rintro ⟨h1, rfl⟩
    exact (C33_base32 [] (by decide) g h1).2.1

theorem encodeGroups_length (g : List Nat) : (encodeGroups g).length = g.length := List.length_map _

/-- **C57**: which texts are addresses, and what they mean. -/
theorem C57_accepts (s : Bytes) (strict : Bool) (a : Address) : parseAddress s strict = .ok a ↔
    mixedCase s = false ∧ s.length ≤ 90 ∧ ∃ g : List Nat, (∀ v ∈ g, v < 32) ∧ toLower s = a.prefix_ ++ [49] ++ encodeGroups g ∧
      a.prefix_ ≠ [] ∧ (∀ c ∈ a.prefix_, 33 ≤ c ∧ c ≤ 126) ∧ (strict = true → a.prefix_ = mainnet ∨ a.prefix_ = testnet) ∧
      11 ≤ g.length ∧ g.length ≤ 71 ∧
      checksum (expandPrefix a.prefix_ ++ g) = (if a.version = 0 then 1 else 0x2bc830a3) ∧
      g.headD 0 = a.version ∧ a.program = pack32 ((g.drop 1).take (g.length - 7)) ∧ Sized strict a.version a.program.length := by
  unfold parseAddress
  constructor
  · intro h
    split at h
    · exact absurd h (by simp)
    rename_i ha
    split at h
    · exact absurd h (by simp)
    rename_i hm
    split at h
    · exact absurd h (by simp)
    rename_i hlen
    split at h
    · exact absurd h (by simp)
    rename_i p q hsp
    split at h
    · exact absurd h (by simp)
    rename_i hp
    split at h
    · exact absurd h (by simp)
    rename_i h1
    split at h
    · exact absurd h (by simp)
    rename_i h2
    split at h
    · exact absurd h (by simp)
    · exact absurd h (by simp)
    rename_i g hg
    split at h
    · exact absurd h (by simp)
    rename_i v prog hv
    split at h
    · exact absurd h (by simp)
    rename_i hver
    split at h
    · exact absurd h (by simp)
    rename_i hprog
    injection h with h
    subst h
    obtain ⟨hs, hq⟩ := splitLast_some hsp
    have hasc : ∀ c ∈ toLower s, c < 128 := by
      rw [← isAscii_iff, isAscii_toLower]; simpa using ha
    have hqm : ∀ c ∈ q, c ∈ toLower s := by intro c hc; rw [hs]; simp [hc]
    have hql : toLower q = q := by
      have h3 := toLower_idem s
      rw [hs, toLower_append, toLower_append] at h3
      exact (List.append_inj' h3 (by unfold toLower; simp)).2
    obtain ⟨hg1, hg2⟩ := (decodeGroups_iff (fun c hc => hasc c (hqm c hc)) hql g).1 hg
    obtain ⟨hp1, hp2, hp3, hp4, hp5⟩ := (parsePrefix_none p strict).1 hp
    have hgl : q.length = g.length := by rw [hg2, encodeGroups_length]
    have hsome := (C35_constant p g).1 (by rw [hv]; rfl)
    unfold verifyChecked at hv
    split at hv
    · exact absurd hv (by simp)
    split at hv
    · injection hv with hv
      injection hv with hv1 hv2
      subst hv1 hv2
      refine ⟨by simpa using hm, by omega, g, hg1, by rw [hs, ← hg2], ?_, hp4, hp5, by omega, by omega, hsome.2, rfl, rfl, (parseProgram_iff _ _ _).1 hprog⟩
      rintro hnil
      rw [show p = [] from hnil] at hp2
      exact absurd hp2 (by simp)
    · exact absurd hv (by simp)
  · rintro ⟨hm, hlen, g, hg, hs, hp1, hp2, hp3, h11, h71, hc, hv, hprog, hsz⟩
    have hb : ∀ c ∈ encodeGroups g, c ∈ base32Chars := (C33_base32 [] (by decide) g hg).2.2.1
    have hpl : toLower a.prefix_ = a.prefix_ := by
      have h3 := toLower_idem s
      rw [hs, toLower_append, toLower_append] at h3
      exact (List.append_inj (List.append_inj' h3 (by unfold toLower; simp)).1 (by unfold toLower; simp)).1
    have hasc : isAscii s = true := by
      rw [← isAscii_toLower, isAscii_iff, hs]
      intro c hc
      rcases List.mem_append.1 hc with hc | hc
      · rcases List.mem_append.1 hc with hc | hc
        · exact Nat.lt_of_le_of_lt (show c.toNat ≤ 126 from (hp2 c hc).2) (by decide)
        · rw [List.mem_singleton.1 hc]; decide
      · exact (lower_base32 c (hb c hc)).2.1
    have hlen2 : (toLower s).length = s.length := by unfold toLower; simp
    rw [hs] at hlen2
    simp only [List.length_append, List.length_singleton, encodeGroups_length] at hlen2
    have hpp : parsePrefix a.prefix_ strict = none :=
      (parsePrefix_none _ _).2 ⟨hpl, by have := List.length_pos_iff.2 hp1; omega, by omega, hp2, hp3⟩
    have hsp := splitLast_append 49 a.prefix_ (encodeGroups g) (fun h => (lower_base32 _ (hb _ h)).2.2 rfl)
    have hdg : decodeGroups (encodeGroups g) = .ok g := (C33_base32 [] (by decide) g hg).2.1
    have hvc : verifyChecked a.prefix_ g = some (a.version, a.program) := by
      unfold verifyChecked
      rw [if_neg (by omega), if_pos, hv, hprog]
      unfold verifyChecksum constant
      rw [beq_iff_eq, hv]; exact hc
    have hv16 : a.version ≤ 16 := by unfold Sized at hsz; omega
    rw [hs, hsp]
    simp only [hasc, hm, hpp, hdg, hvc, encodeGroups_length]
    rw [if_neg (by simp), if_neg (by simp), if_neg (by omega), if_neg (by omega), if_neg (by omega), if_neg (by omega), if_neg ((parseProgram_iff _ _ _).2 hsz)]

/-- Which parameters make an address. -/
theorem C57_parameters (program p : Bytes) (v : Nat) : fromParameters program v p = some ⟨p, v, program⟩ ↔
    toLower p = p ∧ 1 ≤ p.length ∧ p.length ≤ 78 ∧ (∀ c ∈ p, 33 ≤ c ∧ c ≤ 126) ∧ Sized false v program.length := by
  have h1 := parsePrefix_none p false
  have h2 := parseProgram_iff v program false
  unfold fromParameters
  by_cases h : parsePrefix p false = none
  · simp only [h, ne_eq, not_true, if_false]
    have h3 := h1.1 h
    by_cases h4 : parseProgram v program false = .invalid
    · rw [if_pos h4]
      exact ⟨(fun h => nomatch h), fun hh => absurd h4 (h2.2 hh.2.2.2.2)⟩
    · rw [if_neg h4]
      exact ⟨fun _ => ⟨h3.1, h3.2.1, h3.2.2.1, h3.2.2.2.1, h2.1 h4⟩, fun _ => rfl⟩
  · rw [if_pos h]
    exact ⟨(fun h => nomatch h), fun hh => absurd (h1.2 ⟨hh.1, hh.2.1, hh.2.2.1, hh.2.2.2.1, fun h => nomatch h⟩) h⟩

theorem unpack_length (d : Bytes) (hd : d.length ≤ maxSize) : (unpack32 d).length = (8 * d.length + 4) / 5 := by
  obtain ⟨-, j, hj, h⟩ := C34_unpack32 d hd
  have hl := congrArg List.length h
  rw [flatMap_length, List.length_append, Bit.bitsOf_length, List.length_replicate] at hl
  omega

theorem built_lt (v : Nat) (hv : v < 32) (program p : Bytes) (hp : program.length ≤ maxSize) : ∀ w ∈ buildChecked v program p, w < 32 := by
  unfold buildChecked
  rw [if_neg (by omega)]
  unfold appendChecksum
  intro w hw
  rcases List.mem_append.1 hw with hw | hw
  · rcases List.mem_cons.1 hw with rfl | hw
    · exact hv
    · exact (C34_unpack32 program hp).1 w hw
  · unfold expandChecksum at hw
    simp only [List.mem_cons, List.not_mem_nil, or_false] at hw
    rcases hw with rfl | rfl | rfl | rfl | rfl | rfl <;> exact Nat.mod_lt _ (by decide)

theorem encoded_length (a : Address) (hv : a.version < 32) (hp : a.program.length ≤ maxSize) :
    (encoded a).length = a.prefix_.length + 8 + (8 * a.program.length + 4) / 5 := by
  unfold encoded
  rw [List.length_append, List.length_append, encodeGroups_length]
  unfold buildChecked
  rw [if_neg (by omega), verify_built_length, List.length_cons (a := a.version), unpack_length _ hp, List.length_singleton]
  omega

/-- The encoding of an address made from parameters, in lower case or all in upper case, is read as that address, if it is not longer than
90 characters. -/
theorem C57_encoded_parses_partial (a : Address) (h : fromParameters a.program a.version a.prefix_ = some a) (hl : (encoded a).length ≤ 90)
    (s : Bytes) (hs : toLower s = encoded a) (hm : mixedCase s = false) : parseAddress s false = .ok a := by
  obtain ⟨h1, h2, h3, h4, h5⟩ := (C57_parameters a.program a.prefix_ a.version).1 h
  have hv : a.version ≤ 16 := by unfold Sized at h5; omega
  have hp : 2 ≤ a.program.length ∧ a.program.length ≤ 40 := by unfold Sized at h5; omega
  have hpm : a.program.length ≤ maxSize := by unfold maxSize; omega
  have hbl : (buildChecked a.version a.program a.prefix_).length = 7 + (8 * a.program.length + 4) / 5 := by
    unfold buildChecked
    rw [if_neg (by omega), verify_built_length, List.length_cons, unpack_length _ hpm]; omega
  have hlen : (toLower s).length = s.length := by unfold toLower; simp
  have hb := C35_built a.version (by omega) a.program a.prefix_ hpm
  have hc := (C35_constant a.prefix_ (buildChecked a.version a.program a.prefix_)).1 (by rw [hb]; rfl)
  unfold verifyChecked at hb
  rw [if_neg (by omega)] at hb
  split at hb
  · injection hb with hb
    injection hb with hb1 hb2
    rw [hb1] at hc
    refine (C57_accepts s false a).2 ⟨hm, by rw [← hlen, hs]; exact hl, buildChecked a.version a.program a.prefix_, built_lt _ (by omega) _ _ hpm, hs, ?_, h4,
      (fun h => nomatch h), by omega, by omega, hc.2, hb1, hb2.symm, h5⟩
    intro hn
    rw [hn] at h2
    exact absurd h2 (by simp)
  · exact absurd hb (by simp)

/-- Parameters are accepted whose encoding is too long to be read back. -/
theorem C57_too_long_counterexample : ∃ a : Address, fromParameters a.program a.version a.prefix_ = some a ∧ parseAddress (encoded a) false = .error .addressTooLong := by
  have h : (encoded ⟨List.replicate 20 97, 2, List.replicate 40 0⟩).length > 90 := by
    rw [encoded_length _ (by decide) (by decide)]; decide
  refine ⟨⟨List.replicate 20 97, 2, List.replicate 40 0⟩, by decide +kernel, ?_⟩
  have hb := built_lt 2 (by decide) (List.replicate 40 0) (List.replicate 20 97) (by decide)
  have hchars := (C33_base32 [] (by decide) _ hb).2.2.1
  have hlow : toLower (encoded ⟨List.replicate 20 97, 2, List.replicate 40 0⟩) = encoded ⟨List.replicate 20 97, 2, List.replicate 40 0⟩ := by
    unfold encoded
    rw [toLower_append, toLower_of_base32 hchars]
    congr 1
  have hasc : isAscii (encoded ⟨List.replicate 20 97, 2, List.replicate 40 0⟩) = true := by
    rw [isAscii_iff]
    intro c hc
    unfold encoded at hc
    rcases List.mem_append.1 hc with hc | hc
    · have : ∀ c ∈ (List.replicate 20 97 ++ [49] : Bytes), c < 128 := by decide +kernel
      exact this c hc
    · exact (lower_base32 c (hchars c hc)).2.1
  unfold parseAddress
  rw [hasc, not_mixed_of_lower hlow, if_neg (by simp), if_neg (by simp), if_pos h]

/-- An accepted address whose payload has fewer than five bits of padding is the encoding of what was read. -/
theorem C57_reencodes_partial (s : Bytes) (strict : Bool) (a : Address) (h : parseAddress s strict = .ok a)
    (hpad : 5 * (s.length - a.prefix_.length - 8) % 8 < 5) : toLower s = encoded a := by
  obtain ⟨-, hl, g, hg, hs, -, -, -, h11, h71, hc, hv, hprog, hsz⟩ := (C57_accepts s strict a).1 h
  have hlen : (toLower s).length = s.length := by unfold toLower; simp
  rw [hs] at hlen
  simp only [List.length_append, List.length_singleton, encodeGroups_length] at hlen
  rw [hs]
  unfold encoded
  congr 2
  -- the middle groups are the expansion of the program
  have hmid : unpack32 a.program = (g.drop 1).take (g.length - 7) := by
    have hp0 : a.program.length ≠ 0 := by unfold Sized at hsz; omega
    have hpm : a.program.length ≤ maxSize := by unfold Sized at hsz; unfold maxSize; omega
    have hml : ((g.drop 1).take (g.length - 7)).length = g.length - 7 := by rw [List.length_take, List.length_drop]; omega
    rw [hprog] at hpm hp0 ⊢
    refine (C34_repack32 _ (fun v hv => hg v (List.mem_of_mem_drop (List.mem_of_mem_take hv))) hpm).2 ⟨by rw [hml, Nat.mul_comm, show g.length - 7 = s.length - a.prefix_.length - 8 by omega]; exact hpad, ?_⟩
    apply Classical.byContradiction
    intro hne
    have := (C34_pack32 ((g.drop 1).take (g.length - 7))).2 hne
    rw [this] at hp0
    exact hp0 rfl
  have hv32 : a.version < 32 := by unfold Sized at hsz; omega
  unfold buildChecked
  rw [if_neg (by omega), hmid]
  unfold appendChecksum
  -- both end in six groups that give the same constant
  obtain ⟨x, g', rfl⟩ : ∃ x g', g = x :: g' := by
    cases g with
    | nil => exact absurd h11 (by simp)
    | cons x g' => exact ⟨x, g', rfl⟩
  have hx : x = a.version := hv
  subst hx
  rw [List.drop_succ_cons, List.drop_zero, List.length_cons]
  rw [List.length_cons] at h11
  have hsplit : a.version :: g' = (a.version :: g'.take (g'.length + 1 - 7)) ++ g'.drop (g'.length + 1 - 7) := by
    rw [List.cons_append, List.take_append_drop]
  conv => lhs; rw [hsplit]
  congr 1
  generalize hd : g'.drop (g'.length + 1 - 7) = tail at *
  have htl : tail.length = 6 := by rw [← hd, List.length_drop]; omega
  have htlt : ∀ v ∈ tail, v < 32 := fun v hv => hg v (List.mem_cons_of_mem _ (by rw [← hd] at hv; exact List.mem_of_mem_drop hv))
  rw [hsplit] at hc
  generalize a.version :: g'.take (g'.length + 1 - 7) = body at hc
  rw [← List.append_assoc, checksum_eq, run_append, run_split, htl] at hc
  rw [checksum_eq, run_append, show constant a.version = if a.version = 0 then 1 else 0x2bc830a3 from rfl, ← hc]
  rw [← Nat.xor_assoc, Nat.xor_self, Nat.zero_xor]
  -- expansion inverts the run over six groups
  obtain ⟨a0, a1, a2, a3, a4, a5, rfl⟩ : ∃ a0 a1 a2 a3 a4 a5, tail = [a0, a1, a2, a3, a4, a5] := by
    match tail, htl with
    | [a0, a1, a2, a3, a4, a5], _ => exact ⟨a0, a1, a2, a3, a4, a5, rfl⟩
  have e0 : a0 < 32 := htlt a0 (by simp)
  have e1 : a1 < 32 := htlt a1 (by simp)
  have e2 : a2 < 32 := htlt a2 (by simp)
  have e3 : a3 < 32 := htlt a3 (by simp)
  have e4 : a4 < 32 := htlt a4 (by simp)
  have e5 : a5 < 32 := htlt a5 (by simp)
  have hr : run 0 [a0, a1, a2, a3, a4, a5] = ((((a0 * 32 + a1) * 32 + a2) * 32 + a3) * 32 + a4) * 32 + a5 := by
    have := expand_run (c := ((((a0 * 32 + a1) * 32 + a2) * 32 + a3) * 32 + a4) * 32 + a5) (by omega)
    conv => rhs; rw [← this]
    congr 1
    unfold expandChecksum
    simp only [Nat.shiftRight_eq_div_pow, List.cons.injEq, and_true]
    refine ⟨?_, ?_, ?_, ?_, ?_, ?_⟩ <;> omega
  rw [hr]
  unfold expandChecksum
  simp only [Nat.shiftRight_eq_div_pow, List.cons.injEq, and_true]
  refine ⟨?_, ?_, ?_, ?_, ?_, ?_⟩ <;> omega

/-- With one group too many (five or more bits of padding, which BIP173 forbids) a text is still accepted, so two texts give one address. -/
theorem C57_overlong_counterexample : ∃ (s : Bytes) (a : Address), parseAddress s true = .ok a ∧ toLower s ≠ encoded a := by
  refine ⟨mainnet ++ [49] ++ encodeGroups (appendChecksum (List.replicate 34 0) mainnet 0), ⟨mainnet, 0, List.replicate 20 0⟩, ?_, ?_⟩
  · decide +kernel
  · intro h
    have := congrArg List.length h
    revert this
    rw [encoded_length _ (by decide) (by decide)]
    decide +kernel

/-- **C57**: changing one character of the payload to another character of the alphabet (in either case) is always rejected. -/
theorem C57_single_error (p before after : Bytes) (x y : UInt8) (strict strict' : Bool) (a : Address)
    (h : parseAddress (p ++ [49] ++ (before ++ x :: after)) strict = .ok a) (hsep : 49 ∉ before ++ x :: after)
    (hy : lowerChar y ∈ base32Chars) (hne : lowerChar y ≠ lowerChar x) :
    ∀ b, parseAddress (p ++ [49] ++ (before ++ y :: after)) strict' ≠ .ok b := by
  intro b h2
  obtain ⟨-, -, g, hg, hs, -, -, -, h11, -, hc, hv, -, -⟩ := (C57_accepts _ _ _).1 h
  obtain ⟨-, -, g2, hg2, hs2, -, -, -, h112, -, hc2, hv2, -, -⟩ := (C57_accepts _ _ _).1 h2
  have hinj : ∀ c : UInt8, lowerChar c = 49 ↔ c = 49 := Radix.forall_byte (by decide +kernel)
  have hlow49 : toLower [49] = [49] := rfl
  have hno : ∀ t : Bytes, 49 ∉ t → 49 ∉ toLower t := by
    intro t ht hm
    obtain ⟨c, hc, he⟩ := List.mem_map.1 hm
    rw [hinj] at he
    subst he
    exact ht hc
  have hnog : ∀ g : List Nat, (∀ v ∈ g, v < 32) → (49 : UInt8) ∉ encodeGroups g := fun g hg hm =>
    (lower_base32 _ ((C33_base32 [] (by decide) g hg).2.2.1 _ hm)).2.2 rfl
  rw [toLower_append, toLower_append, hlow49] at hs hs2
  have hsep2 : 49 ∉ before ++ y :: after := by
    intro hm
    rcases List.mem_append.1 hm with hm | hm
    · exact hsep (by simp [hm])
    · rcases List.mem_cons.1 hm with rfl | hm
      · exact (lower_base32 _ hy).2.2 rfl
      · exact hsep (by simp [hm])
  have k1 := splitLast_append 49 (toLower p) (toLower (before ++ x :: after)) (hno _ hsep)
  have k1' := splitLast_append 49 a.prefix_ (encodeGroups g) (hnog g hg)
  rw [hs, k1'] at k1
  injection k1 with k1
  injection k1 with kp kg
  have k2 := splitLast_append 49 (toLower p) (toLower (before ++ y :: after)) (hno _ hsep2)
  have k2' := splitLast_append 49 b.prefix_ (encodeGroups g2) (hnog g2 hg2)
  rw [hs2, k2'] at k2
  injection k2 with k2
  injection k2 with kp2 kg2
  rw [toLower_append] at kg kg2
  have cut : ∀ (g : List Nat) (u : Bytes) (c : UInt8) (w : Bytes), encodeGroups g = u ++ c :: w →
      ∃ a v b, g = a ++ v :: b ∧ encodeGroups a = u ∧ base32Chars.getD v 0 = c ∧ encodeGroups b = w := by
    intro g u c w e
    obtain ⟨a, r, rfl, e1, e2⟩ := List.map_eq_append_iff.1 e
    obtain ⟨v, r', rfl, e3, e4⟩ := List.map_eq_cons_iff.1 e2
    exact ⟨a, v, r', rfl, e1, e3, e4⟩
  obtain ⟨a1, v1, b1, rfl, ea1, ev1, eb1⟩ := cut g _ _ _ kg
  obtain ⟨a2, v2, b2, rfl, ea2, ev2, eb2⟩ := cut g2 _ _ _ kg2
  have einj : ∀ g h : List Nat, (∀ v ∈ g, v < 32) → (∀ v ∈ h, v < 32) → encodeGroups g = encodeGroups h → g = h := by
    intro g h hg hh e
    have e1 := (C33_base32 [] (by decide) g hg).2.1
    have e2 := (C33_base32 [] (by decide) h hh).2.1
    rw [e, e2] at e1
    injection e1 with e1
    exact e1.symm
  have ea : a1 = a2 := einj _ _ (fun v hv => hg v (by simp [hv])) (fun v hv => hg2 v (by simp [hv])) (ea1.trans ea2.symm)
  have eb : b1 = b2 := einj _ _ (fun v hv => hg v (by simp [hv])) (fun v hv => hg2 v (by simp [hv])) (eb1.trans eb2.symm)
  subst ea eb
  have hp : a.prefix_ = b.prefix_ := kp.trans kp2.symm
  refine absurd (C35_single_error a.prefix_ a1 b1 v1 v2 (hg v1 (by simp)) (hg2 v2 (by simp)) ?_ ((C35_constant _ _).2 ⟨by omega, by rw [hc, hv]⟩)) ?_
  · rintro rfl
    exact hne (ev2.symm.trans ev1)
  · rw [← ne_eq, ← Option.isSome_iff_ne_none, C35_constant, hp]
    exact ⟨by omega, by rw [hc2, hv2]⟩

/-- Addresses: pay to witness key hash and taproot. -/
example : fromParameters (List.replicate 20 7) 0 mainnet = some ⟨mainnet, 0, List.replicate 20 7⟩ ∧
    (encoded ⟨mainnet, 0, List.replicate 20 7⟩).length = 42 ∧ parseAddress (encoded ⟨mainnet, 0, List.replicate 20 7⟩) true = .ok ⟨mainnet, 0, List.replicate 20 7⟩ := by
  refine ⟨by decide +kernel, by rw [encoded_length _ (by decide) (by decide)]; decide, by decide +kernel⟩

end Verif.Bech32
