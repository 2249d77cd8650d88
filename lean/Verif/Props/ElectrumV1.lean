import Verif.Props.Mnemonic
import Verif.Spec.ElectrumV1
/-!
# C37: Electrum v1 mnemonics
-/
namespace Verif.Mnemonic
open Verif

/-- The two languages. -/
def IsV1 (l : Language) : Prop := l = .en ∨ l = .pt

/-- The word list of a language. -/
def wordListV1 : Language → List Bytes
  | .en => Catalog.v1En.map wordBytes
  | .pt => Catalog.v1Pt.map wordBytes
  | _ => []

theorem find_v1 (l : Language) (hl : IsV1 l) : dictionariesV1.find l = some ⟨l, false, wordListV1 l⟩ := by
  rcases hl with rfl | rfl <;> rfl

theorem goodV1 (l : Language) (hl : IsV1 l) : Good 1626 ⟨l, false, wordListV1 l⟩ := by
  rcases hl with rfl | rfl
  · have hlen : (wordListV1 .en).length = 1626 := by
      rw [wordListV1, List.length_map]; exact (sized_spec Catalog.v1En_sized).1
    rw [← hlen]
    refine good_unsorted _ _ fun i j a hi hj => ?_
    have h := found_shared Catalog.v1_pairs Catalog.v1En_found Catalog.v1En_found Catalog.v1En_sized Catalog.v1En_sized hi hj
    have hi2 : i < 1626 := by rw [← hlen]; exact (List.getElem?_eq_some_iff.1 hi).1
    have hj2 : j < 1626 := by rw [← hlen]; exact (List.getElem?_eq_some_iff.1 hj).1
    simp only [Bool.and_eq_true, beq_iff_eq] at h
    omega
  · have hlen : (wordListV1 .pt).length = 1626 := by
      rw [wordListV1, List.length_map]; exact (sized_spec Catalog.v1Pt_sized).1
    rw [← hlen]
    refine good_unsorted _ _ fun i j a hi hj => ?_
    have h := found_shared Catalog.v1_pairs Catalog.v1Pt_found Catalog.v1Pt_found Catalog.v1Pt_sized Catalog.v1Pt_sized hi hj
    have hi2 : i < 1626 := by rw [← hlen]; exact (List.getElem?_eq_some_iff.1 hi).1
    have hj2 : j < 1626 := by rw [← hlen]; exact (List.getElem?_eq_some_iff.1 hj).1
    simp only [Bool.and_eq_true, beq_iff_eq] at h
    omega

/-- The word at a number. -/
def wordAt (l : Language) (i : Nat) : Bytes := (wordListV1 l).getD i []

theorem at_v1 (l : Language) (hl : IsV1 l) (i : Nat) (hi : i < 1626) : (dictionariesV1.at_ [i] l).headD [] = wordAt l i := by
  rw [Dictionaries.at_, find_v1 l hl]
  have hlen := (goodV1 l hl).size
  simp only [List.map_cons, List.map_nil, List.headD_cons, Dictionary.at_]
  rw [if_pos (by rw [hlen]; exact hi)]
  rfl

theorem wordAt_get (l : Language) (hl : IsV1 l) (i : Nat) (hi : i < 1626) : (wordListV1 l)[i]? = some (wordAt l i) := by
  have hlen := (goodV1 l hl).size
  rw [wordAt, List.getD_eq_getElem?_getD, List.getElem?_eq_getElem (by rw [hlen]; exact hi)]
  rfl

theorem index_v1 (l : Language) (hl : IsV1 l) (i : Nat) (hi : i < 1626) : dictionariesV1.indexOne (wordAt l i) l = i := by
  rw [Dictionaries.indexOne, find_v1 l hl]
  exact (goodV1 l hl).find i _ (wordAt_get l hl i hi)

/-! ### Arithmetic of triplets -/

theorem triplet_eq (x : Nat) : v1Triplet x = Spec.ElectrumV1.encode x := by
  simp only [v1Triplet, Spec.ElectrumV1.encode, Nat.div_one, Nat.add_zero, Nat.div_div_eq_div_mul]

theorem value_eq (a b c : Nat) (ha : a < 1626) : v1Value a b c = Spec.ElectrumV1.decode a b c := by
  simp only [v1Value, flooredModulo, v1Size, Spec.ElectrumV1.decode]
  rw [Int.fmod_eq_emod_of_nonneg _ (by decide), Int.fmod_eq_emod_of_nonneg _ (by decide), Int.fmod_eq_emod_of_nonneg _ (by decide)]
  have e1 : ((a : Int) - 0) % 1626 = a := by omega
  have h1 := Int.emod_nonneg ((b : Int) - a) (show (1626 : Int) ≠ 0 by decide)
  have h2 := Int.emod_nonneg ((c : Int) - b) (show (1626 : Int) ≠ 0 by decide)
  have e2 : ((b : Int) - a).emod 1626 = ((b : Int) - a) % 1626 := rfl
  have e3 : ((c : Int) - b).emod 1626 = ((c : Int) - b) % 1626 := rfl
  rw [e1, e2, e3]
  generalize ((b : Int) - a) % 1626 = p at *
  generalize ((c : Int) - b) % 1626 = q at *
  omega

theorem undo (q w : Nat) : ((((q + w) % 1626 : Nat) : Int) - w).emod 1626 = ((q % 1626 : Nat) : Int) := by
  have : ∀ y : Int, y.emod 1626 = y % 1626 := fun _ => rfl
  rw [this]
  omega

/-- The differences as natural numbers. -/
theorem diff_nat (a b : Nat) (ha : a < 1626) (hb : b < 1626) : ∃ p : Nat, p < 1626 ∧ ((b : Int) - a).emod 1626 = p ∧ (p + a) % 1626 = b := by
  have : ∀ y : Int, y.emod 1626 = y % 1626 := fun _ => rfl
  rw [this]
  refine ⟨(((b : Int) - a) % 1626).toNat, by omega, by omega, by omega⟩

/-- The three numbers of a 32 bit number give it back. -/
theorem C37_number (x : Nat) (hx : x < 2 ^ 32) : ∃ a b c, Spec.ElectrumV1.encode x = [a, b, c] ∧ a < 1626 ∧ b < 1626 ∧ c < 1626 ∧
    Spec.ElectrumV1.decode a b c = x := by
  refine ⟨_, _, _, rfl, Nat.mod_lt _ (by decide), Nat.mod_lt _ (by decide), Nat.mod_lt _ (by decide), ?_⟩
  simp only [Spec.ElectrumV1.decode]
  rw [undo, undo]
  have h1 : x / 1626 / 1626 < 1626 := by omega
  have h2 := Nat.div_add_mod x 1626
  have h3 := Nat.div_add_mod (x / 1626) 1626
  rw [Nat.mod_eq_of_lt h1]
  generalize x / 1626 / 1626 = q2 at *
  generalize x / 1626 % 1626 = r2 at *
  generalize x / 1626 = q1 at *
  generalize x % 1626 = r1 at *
  omega

/-- Any three numbers: the value is at most `0x1003ca7a7`, and encoding it gives the numbers back. -/
theorem C37_words (a b c : Nat) (ha : a < 1626) (hb : b < 1626) (hc : c < 1626) :
    Spec.ElectrumV1.encode (Spec.ElectrumV1.decode a b c) = [a, b, c] ∧ Spec.ElectrumV1.decode a b c ≤ 0x1003ca7a7 := by
  obtain ⟨p, hp, e1, f1⟩ := diff_nat a b ha hb
  obtain ⟨r, hr, e2, f2⟩ := diff_nat b c hb hc
  have e : Spec.ElectrumV1.decode a b c = a + 1626 * (p + 1626 * r) := by
    simp only [Spec.ElectrumV1.decode]
    rw [e1, e2]
    omega
  rw [e]
  refine ⟨?_, by omega⟩
  simp only [Spec.ElectrumV1.encode]
  have g1 : (a + 1626 * (p + 1626 * r)) % 1626 = a := by omega
  have g2 : (a + 1626 * (p + 1626 * r)) / 1626 = p + 1626 * r := by omega
  have g3 : (p + 1626 * r) / 1626 = r := by omega
  have g4 : (p + 1626 * r + a) % 1626 = b := by omega
  rw [g1, g2, g3, g4, f2]

/-! ### Mnemonics -/

theorem beNat4 (a b c d : UInt8) : beNat [a, b, c, d] = a.toNat * 2 ^ 24 + b.toNat * 2 ^ 16 + c.toNat * 2 ^ 8 + d.toNat := by
  simp only [beNat, List.reverse_cons, List.reverse_nil, List.nil_append, List.cons_append, leNat]
  omega

/-- The 32 bit numbers of entropy. -/
abbrev quads := Spec.ElectrumV1.quads

theorem encoder_go (l : Language) (hl : IsV1 l) : ∀ (f : Nat) (e : Bytes), e.length % 4 = 0 → e.length < f →
    v1Encoder.go l f e = ((quads e).flatMap Spec.ElectrumV1.encode).map (wordAt l)
  | 0, _, _, h => absurd h (by omega)
  | f + 1, e, h4, hf => by
    match e, h4, hf with
    | [], _, _ => rfl
    | [_], h, _ => simp at h
    | [_, _], h, _ => simp at h
    | [_, _, _], h, _ => simp at h
    | a :: b :: c :: d :: e, h4, hf =>
      simp only [List.length_cons] at h4 hf
      have ih := encoder_go l hl f e (by omega) (by omega)
      rw [v1Encoder.go]
      simp only [List.isEmpty_cons, Bool.false_eq_true, if_false, List.length_cons]
      have e0 : 4 - (e.length + 1 + 1 + 1 + 1) = 0 := by omega
      rw [e0]
      simp only [List.replicate_zero, List.append_nil, List.take_succ_cons, List.take_zero, List.drop_succ_cons, List.drop_zero,
        quads, Spec.ElectrumV1.quads, List.flatMap_cons, List.map_append]
      rw [ih, triplet_eq, beNat4]
      congr 1
      apply List.map_congr_left
      intro i hi
      apply at_v1 l hl
      simp only [Spec.ElectrumV1.encode, List.mem_cons, List.not_mem_nil, or_false] at hi
      omega

theorem encoder_eq (l : Language) (hl : IsV1 l) (e : Bytes) (h : e.length % 4 = 0) :
    v1Encoder e l = ((quads e).flatMap Spec.ElectrumV1.encode).map (wordAt l) := encoder_go l hl _ e h (by omega)

/-- The word numbers taken in threes. -/
abbrev values := Spec.ElectrumV1.values

theorem decoder_eq (l : Language) (hl : IsV1 l) : ∀ (ns : List Nat), (∀ n ∈ ns, n < 1626) →
    v1Decoder (ns.map (wordAt l)) l =
      ⟨(values ns).flatMap fun v => beBytes 4 (v % 2 ^ 32), (values ns).map fun v => decide (2 ^ 32 ≤ v)⟩
  | [], _ => rfl
  | [_], _ => rfl
  | [_, _], _ => rfl
  | a :: b :: c :: ns, h => by
    have ih := decoder_eq l hl ns (fun n hn => h n (by simp [hn]))
    have ha := h a (by simp)
    have hb := h b (by simp)
    have hc := h c (by simp)
    simp only [List.map_cons, v1Decoder, index_v1 l hl a ha, index_v1 l hl b hb, index_v1 l hl c hc, value_eq a b c ha, ih, values,
      Spec.ElectrumV1.values, List.flatMap_cons]
    generalize Spec.ElectrumV1.decode a b c = v
    have e1 : ((v : Int) % 2 ^ 32).toNat = v % 2 ^ 32 := by omega
    have e2 : decide ((v : Int) > 2 ^ 32 - 1) = decide (2 ^ 32 ≤ v) := by
      rw [decide_eq_decide]; omega
    rw [e1, e2]

/-- The quads of bytes and the values of numbers are inverse to each other. -/
theorem values_encode : ∀ e : Bytes, e.length % 4 = 0 → values ((quads e).flatMap Spec.ElectrumV1.encode) = quads e
  | [], _ => rfl
  | [_], h => by simp at h
  | [_, _], h => by simp at h
  | [_, _, _], h => by simp at h
  | a :: b :: c :: d :: e, h => by
    simp only [List.length_cons] at h
    have ih := values_encode e (by omega)
    have hx : a.toNat * 2 ^ 24 + b.toNat * 2 ^ 16 + c.toNat * 2 ^ 8 + d.toNat < 2 ^ 32 := by
      have := a.toNat_lt; have := b.toNat_lt; have := c.toNat_lt; have := d.toNat_lt
      omega
    obtain ⟨x, y, z, e1, _, _, _, e2⟩ := C37_number _ hx
    simp only [quads, Spec.ElectrumV1.quads, List.flatMap_cons] at ih ⊢
    rw [e1]
    simp only [List.cons_append, List.nil_append, values, Spec.ElectrumV1.values]
    rw [e2]
    congr 1

theorem quads_bytes : ∀ e : Bytes, e.length % 4 = 0 → (quads e).flatMap (fun v => beBytes 4 (v % 2 ^ 32)) = e
  | [], _ => rfl
  | [_], h => by simp at h
  | [_, _], h => by simp at h
  | [_, _, _], h => by simp at h
  | a :: b :: c :: d :: e, h => by
    simp only [List.length_cons] at h
    have ih := quads_bytes e (by omega)
    simp only [quads, Spec.ElectrumV1.quads, List.flatMap_cons] at ih ⊢
    rw [ih]
    have hx : a.toNat * 2 ^ 24 + b.toNat * 2 ^ 16 + c.toNat * 2 ^ 8 + d.toNat < 2 ^ 32 := by
      have := a.toNat_lt; have := b.toNat_lt; have := c.toNat_lt; have := d.toNat_lt
      omega
    have hb := leBytes_leNat [d, c, b, a]
    rw [Nat.mod_eq_of_lt hx, ← beNat4, beNat, beBytes]
    simp only [List.length_cons, List.length_nil, List.reverse_cons, List.reverse_nil, List.nil_append, List.cons_append] at hb ⊢
    rw [hb]
    rfl

/-! ### Text of the seed -/

theorem hex_digits : ∀ n < 256, Radix.toHexHi (UInt8.ofNat n) = UInt8.ofNat (if n / 16 < 10 then 48 + n / 16 else 87 + n / 16) ∧
    Radix.toHexLo (UInt8.ofNat n) = UInt8.ofNat (if n % 16 < 10 then 48 + n % 16 else 87 + n % 16) := by
  decide +kernel

/-- Four bytes of a number in hexadecimal, with the overflow digit, are the number in hexadecimal. -/
theorem hex8_eq (v : Nat) (hv : v < 2 ^ 33) :
    (if 2 ^ 32 ≤ v then Radix.ascii "1" else []) ++ Radix.encode16 (beBytes 4 (v % 2 ^ 32)) = Spec.ElectrumV1.hex8 v := by
  have e : Radix.encode16 (beBytes 4 (v % 2 ^ 32)) = (List.range 8).map fun i =>
      UInt8.ofNat (if v / 16 ^ (8 - 1 - i) % 16 < 10 then 48 + v / 16 ^ (8 - 1 - i) % 16 else 87 + v / 16 ^ (8 - 1 - i) % 16) := by
    have h1 := hex_digits (v / 2 ^ 24 % 256) (by omega)
    have h2 := hex_digits (v / 2 ^ 16 % 256) (by omega)
    have h3 := hex_digits (v / 2 ^ 8 % 256) (by omega)
    have h4 := hex_digits (v % 256) (by omega)
    have eb : beBytes 4 (v % 2 ^ 32) = [UInt8.ofNat (v / 2 ^ 24 % 256), UInt8.ofNat (v / 2 ^ 16 % 256), UInt8.ofNat (v / 2 ^ 8 % 256), UInt8.ofNat (v % 256)] := by
      simp only [beBytes, leBytes, List.reverse_cons, List.reverse_nil, List.nil_append, List.cons_append]
      rw [show v % 2 ^ 32 / 256 / 256 / 256 % 256 = v / 2 ^ 24 % 256 by omega, show v % 2 ^ 32 / 256 / 256 % 256 = v / 2 ^ 16 % 256 by omega,
        show v % 2 ^ 32 / 256 % 256 = v / 2 ^ 8 % 256 by omega, show v % 2 ^ 32 % 256 = v % 256 by omega]
    rw [eb]
    simp only [Radix.encode16, List.flatMap_cons, List.flatMap_nil, h1.1, h1.2, h2.1, h2.2, h3.1, h3.2, h4.1, h4.2, List.cons_append,
      List.nil_append]
    rw [show List.range 8 = [0, 1, 2, 3, 4, 5, 6, 7] from rfl]
    simp only [List.map_cons, List.map_nil]
    rw [show v / 2 ^ 24 % 256 / 16 = v / 16 ^ (8 - 1 - 0) % 16 by simp only [Nat.reduceSub, Nat.reducePow]; omega, show v / 2 ^ 24 % 256 % 16 = v / 16 ^ (8 - 1 - 1) % 16 by simp only [Nat.reduceSub, Nat.reducePow]; omega,
      show v / 2 ^ 16 % 256 / 16 = v / 16 ^ (8 - 1 - 2) % 16 by simp only [Nat.reduceSub, Nat.reducePow]; omega, show v / 2 ^ 16 % 256 % 16 = v / 16 ^ (8 - 1 - 3) % 16 by simp only [Nat.reduceSub, Nat.reducePow]; omega,
      show v / 2 ^ 8 % 256 / 16 = v / 16 ^ (8 - 1 - 4) % 16 by simp only [Nat.reduceSub, Nat.reducePow]; omega, show v / 2 ^ 8 % 256 % 16 = v / 16 ^ (8 - 1 - 5) % 16 by simp only [Nat.reduceSub, Nat.reducePow]; omega,
      show v % 256 / 16 = v / 16 ^ (8 - 1 - 6) % 16 by simp only [Nat.reduceSub, Nat.reducePow]; omega, show v % 256 % 16 = v / 16 ^ (8 - 1 - 7) % 16 by simp only [Nat.reduceSub, Nat.reducePow]; omega]
  rw [e]
  unfold Spec.ElectrumV1.hex8
  by_cases h : 2 ^ 32 ≤ v
  · rw [if_pos h, if_neg (by omega : ¬ v < 16 ^ 8)]
    dsimp only
    have h9 : v / 16 ^ 8 % 16 = 1 := by simp only [Nat.reduceSub, Nat.reducePow]; omega
    rw [show List.range 8 = [0, 1, 2, 3, 4, 5, 6, 7] from rfl, show List.range 9 = [0, 1, 2, 3, 4, 5, 6, 7, 8] from rfl]
    simp only [List.map_cons, List.map_nil, Nat.sub_zero, Nat.reduceSub]
    rw [h9]
    rfl
  · rw [if_neg h, if_pos (by omega : v < 16 ^ 8)]
    rfl

theorem values_lt : ∀ ns : List Nat, (∀ n ∈ ns, n < 1626) → ∀ v ∈ values ns, v < 2 ^ 33
  | [], _, _, h => by simp [values, Spec.ElectrumV1.values] at h
  | [_], _, _, h => by simp [values, Spec.ElectrumV1.values] at h
  | [_, _], _, _, h => by simp [values, Spec.ElectrumV1.values] at h
  | a :: b :: c :: ns, hn, v, h => by
    simp only [values, Spec.ElectrumV1.values, List.mem_cons] at h
    rcases h with rfl | h
    · have := (C37_words a b c (hn _ (by simp)) (hn _ (by simp)) (hn _ (by simp))).2
      omega
    · exact values_lt ns (fun n h => hn n (by simp [h])) v h

theorem seed_go : ∀ vs : List Nat, (∀ v ∈ vs, v < 2 ^ 33) →
    seedEntropy.go (vs.map fun v => decide (2 ^ 32 ≤ v)) (vs.flatMap fun v => beBytes 4 (v % 2 ^ 32)) = vs.flatMap Spec.ElectrumV1.hex8
  | [], _ => rfl
  | v :: vs, h => by
    have ih := seed_go vs (fun x hx => h x (by simp [hx]))
    simp only [List.map_cons, List.flatMap_cons, seedEntropy.go]
    have hl : (beBytes 4 (v % 2 ^ 32)).length = 4 := beBytes_length _ _
    rw [List.take_append_of_le_length (by omega), List.drop_append_of_le_length (by omega), List.take_of_length_le (by omega),
      List.drop_of_length_le (by omega), List.nil_append, ih, ← hex8_eq v (h v (by simp))]
    simp only [decide_eq_true_eq]

theorem encode16_quads : ∀ e : Bytes, e.length % 4 = 0 → Radix.encode16 e = (quads e).flatMap Spec.ElectrumV1.hex8
  | [], _ => rfl
  | [_], h => by simp at h
  | [_, _], h => by simp at h
  | [_, _, _], h => by simp at h
  | a :: b :: c :: d :: e, h => by
    simp only [List.length_cons] at h
    have ih := encode16_quads e (by omega)
    have hq := quads_bytes [a, b, c, d] (by simp)
    simp only [quads, Spec.ElectrumV1.quads, List.flatMap_cons, List.flatMap_nil, List.append_nil] at ih hq ⊢
    have hx : a.toNat * 2 ^ 24 + b.toNat * 2 ^ 16 + c.toNat * 2 ^ 8 + d.toNat < 2 ^ 32 := by
      have := a.toNat_lt; have := b.toNat_lt; have := c.toNat_lt; have := d.toNat_lt
      omega
    rw [← ih, ← hex8_eq _ (by omega), if_neg (by omega), hq]
    rfl

/-! ### Sizes -/

theorem mnEncode_lt (e : Bytes) : ∀ n ∈ Spec.ElectrumV1.mnEncode e, n < 1626 := by
  intro n hn
  obtain ⟨x, -, hx⟩ := List.mem_flatMap.1 hn
  simp only [Spec.ElectrumV1.encode, List.mem_cons, List.not_mem_nil, or_false] at hx
  omega

theorem mnEncode_length : ∀ e : Bytes, e.length % 4 = 0 → (Spec.ElectrumV1.mnEncode e).length = 3 * (e.length / 4)
  | [], _ => rfl
  | [_], h => by simp at h
  | [_, _], h => by simp at h
  | [_, _, _], h => by simp at h
  | a :: b :: c :: d :: e, h => by
    simp only [List.length_cons] at h
    have ih := mnEncode_length e (by omega)
    simp only [Spec.ElectrumV1.mnEncode, Spec.ElectrumV1.quads, List.flatMap_cons, List.length_append, List.length_cons] at ih ⊢
    rw [ih]
    simp only [Spec.ElectrumV1.encode, List.length_cons, List.length_nil]
    omega

theorem quads_lt : ∀ e : Bytes, ∀ v ∈ quads e, v < 2 ^ 32
  | [], _, h => by simp [quads, Spec.ElectrumV1.quads] at h
  | [_], _, h => by simp [quads, Spec.ElectrumV1.quads] at h
  | [_, _], _, h => by simp [quads, Spec.ElectrumV1.quads] at h
  | [_, _, _], _, h => by simp [quads, Spec.ElectrumV1.quads] at h
  | a :: b :: c :: d :: e, v, h => by
    simp only [quads, Spec.ElectrumV1.quads, List.mem_cons] at h
    rcases h with rfl | h
    · have := a.toNat_lt; have := b.toNat_lt; have := c.toNat_lt; have := d.toNat_lt
      omega
    · exact quads_lt e v h

theorem values_length : ∀ ns : List Nat, (values ns).length = ns.length / 3
  | [] => rfl
  | [_] => by simp [values, Spec.ElectrumV1.values]
  | [_, _] => by simp [values, Spec.ElectrumV1.values]
  | a :: b :: c :: ns => by
    have ih := values_length ns
    simp only [values, Spec.ElectrumV1.values, List.length_cons] at ih ⊢
    omega

theorem quads_values : ∀ vs : List Nat, (∀ v ∈ vs, v < 2 ^ 32) → quads (vs.flatMap fun v => beBytes 4 (v % 2 ^ 32)) = vs
  | [], _ => rfl
  | v :: vs, h => by
    have ih := quads_values vs (fun x hx => h x (by simp [hx]))
    have hv := h v (by simp)
    simp only [List.flatMap_cons, beBytes, leBytes, List.reverse_cons, List.reverse_nil, List.nil_append, List.cons_append, quads,
      Spec.ElectrumV1.quads] at ih ⊢
    rw [ih]
    simp only [UInt8.toNat_ofNat']
    congr 1
    omega

theorem encode_values : ∀ ns : List Nat, (∀ n ∈ ns, n < 1626) → ns.length % 3 = 0 → (values ns).flatMap Spec.ElectrumV1.encode = ns
  | [], _, _ => rfl
  | [_], _, h => by simp at h
  | [_, _], _, h => by simp at h
  | a :: b :: c :: ns, hn, h => by
    simp only [List.length_cons] at h
    have ih := encode_values ns (fun n h => hn n (by simp [h])) (by omega)
    simp only [values, Spec.ElectrumV1.values, List.flatMap_cons] at ih ⊢
    rw [ih, (C37_words a b c (hn _ (by simp)) (hn _ (by simp)) (hn _ (by simp))).1]
    rfl

/-! ### Instances -/

/-- Entropy of 16 or 32 bytes becomes the words of the Python code, other sizes and languages are refused. -/
theorem C37_encode (e : Bytes) (l : Language) :
    ((e.length = 16 ∨ e.length = 32) ∧ IsV1 l →
      v1FromEntropy e l = ⟨⟨e, (Spec.ElectrumV1.mnEncode e).map (wordAt l), l⟩, []⟩ ∧
      seedEntropy (v1FromEntropy e l) = (quads e).flatMap Spec.ElectrumV1.hex8) ∧
    (¬ ((e.length = 16 ∨ e.length = 32) ∧ IsV1 l) → v1FromEntropy e l = V1.invalid) := by
  refine ⟨fun ⟨hs, hl⟩ => ?_, fun h => ?_⟩
  · have h4 : e.length % 4 = 0 := by omega
    have h1 : v1FromEntropy e l = ⟨⟨e, (Spec.ElectrumV1.mnEncode e).map (wordAt l), l⟩, []⟩ := by
      rw [v1FromEntropy, if_neg (by simp; omega), if_neg (by simp [Dictionaries.exists_, find_v1 l hl]), encoder_eq l hl e h4]
      rfl
    refine ⟨h1, ?_⟩
    rw [h1, seedEntropy]
    simp only [List.isEmpty_nil, if_true]
    rw [encode16_quads e h4]
  · rw [v1FromEntropy]
    by_cases hs : e.length = 16 ∨ e.length = 32
    · have hl : ¬ IsV1 l := fun hl => h ⟨hs, hl⟩
      rw [if_neg (by simp; omega), if_pos]
      cases l <;> first | rfl | (exact absurd (Or.inl rfl) hl) | (exact absurd (Or.inr rfl) hl)
    · rw [if_pos (by simp; omega)]

theorem contains_v1 (l : Language) (hl : IsV1 l) (ws : List Bytes) :
    dictionariesV1.contains ws l = if (∀ w ∈ ws, w ∈ wordListV1 l) then l else .none := by
  have hg := goodV1 l hl
  have hc : (⟨l, false, wordListV1 l⟩ : Dictionary).contains ws = true ↔ ∀ w ∈ ws, w ∈ wordListV1 l := by
    simp only [Dictionary.contains, List.all_eq_true, decide_eq_true_eq]
    refine ⟨fun h w hw => List.mem_of_getElem? (hg.member w (h w hw)), fun h w hw => ?_⟩
    obtain ⟨i, hi⟩ := List.getElem?_of_mem (h w hw)
    rw [hg.find i w hi]
    omega
  have hn : l ≠ .none := by rcases hl with rfl | rfl <;> decide
  unfold Dictionaries.contains
  rw [if_pos hn, find_v1 l hl]
  dsimp only
  by_cases h : ∀ w ∈ ws, w ∈ wordListV1 l
  · rw [if_pos h, if_pos (hc.2 h)]
  · rw [if_neg h, if_neg (fun h' => h (hc.1 h'))]

/-- Without a language: the English list if it has all words, otherwise the Portuguese list if it has all words. -/
theorem contains_v1_none (ws : List Bytes) : dictionariesV1.contains ws .none =
    if (∀ w ∈ ws, w ∈ wordListV1 .en) then .en else if (∀ w ∈ ws, w ∈ wordListV1 .pt) then .pt else .none := by
  have h1 := contains_v1 .en (Or.inl rfl) ws
  have h2 := contains_v1 .pt (Or.inr rfl) ws
  unfold Dictionaries.contains at h1 h2 ⊢
  rw [if_pos (by decide), find_v1 _ (Or.inl rfl)] at h1
  rw [if_pos (by decide), find_v1 _ (Or.inr rfl)] at h2
  rw [if_neg (by decide)]
  dsimp only at h1 h2
  show (match List.find? (fun d => d.contains ws) [(⟨.en, false, wordListV1 .en⟩ : Dictionary), ⟨.pt, false, wordListV1 .pt⟩] with
    | some d => d.identifier | none => .none) = _
  cases ha : (⟨.en, false, wordListV1 .en⟩ : Dictionary).contains ws with
  | true =>
    rw [if_pos ha] at h1
    rw [List.find?_cons_of_pos (by simpa using ha)]
    by_cases hq : ∀ w ∈ ws, w ∈ wordListV1 .en
    · rw [if_pos hq]
    · rw [if_neg hq] at h1; cases h1
  | false =>
    rw [if_neg (by simp [ha])] at h1
    rw [List.find?_cons_of_neg (by simp [ha])]
    have hq : ¬ ∀ w ∈ ws, w ∈ wordListV1 .en := fun hq => by rw [if_pos hq] at h1; cases h1
    rw [if_neg hq]
    cases hb : (⟨.pt, false, wordListV1 .pt⟩ : Dictionary).contains ws with
    | true =>
      rw [if_pos hb] at h2
      rw [List.find?_cons_of_pos (by simpa using hb), ← h2]
    | false =>
      rw [if_neg (by simp [hb])] at h2
      rw [List.find?_cons_of_neg (by simp [hb]), ← h2]
      rfl

/-- Words of a list are words at numbers. -/
theorem numbers_v1 (l : Language) (hl : IsV1 l) : ∀ ws : List Bytes, (∀ w ∈ ws, w ∈ wordListV1 l) →
    ∃ ns : List Nat, (∀ n ∈ ns, n < 1626) ∧ ws = ns.map (wordAt l)
  | [], _ => ⟨[], by simp, rfl⟩
  | w :: ws, h => by
    obtain ⟨ns, h1, h2⟩ := numbers_v1 l hl ws (fun x hx => h x (by simp [hx]))
    obtain ⟨i, hi⟩ := List.getElem?_of_mem (h w (by simp))
    have hi2 : i < 1626 := by rw [← (goodV1 l hl).size]; exact (List.getElem?_eq_some_iff.1 hi).1
    have hw := wordAt_get l hl i hi2
    rw [hi] at hw
    refine ⟨i :: ns, ?_, ?_⟩
    · intro n hn
      rcases List.mem_cons.1 hn with rfl | hn
      · exact hi2
      · exact h1 n hn
    · rw [List.map_cons, ← h2, Option.some.inj hw]

/-- The numbers of words are unique. -/
theorem numbers_v1_inj (l : Language) (hl : IsV1 l) : ∀ ns ms : List Nat, (∀ n ∈ ns, n < 1626) → (∀ n ∈ ms, n < 1626) →
    ns.map (wordAt l) = ms.map (wordAt l) → ns = ms
  | [], [], _, _, _ => rfl
  | [], _ :: _, _, _, h => by simp at h
  | _ :: _, [], _, _, h => by simp at h
  | a :: ns, b :: ms, hn, hm, h => by
    simp only [List.map_cons, List.cons.injEq] at h
    have h1 := index_v1 l hl a (hn a (by simp))
    rw [h.1, index_v1 l hl b (hm b (by simp))] at h1
    rw [numbers_v1_inj l hl ns ms (fun x hx => hn x (by simp [hx])) (fun x hx => hm x (by simp [hx])) h.2]
    congr 1
    omega

theorem wordAt_mem (l : Language) (hl : IsV1 l) (i : Nat) (hi : i < 1626) : wordAt l i ∈ wordListV1 l :=
  List.mem_of_getElem? (wordAt_get l hl i hi)

/-- Twelve or twenty four words of the named list are accepted, and the text that is hashed to the seed is the text of the Python
code, whether or not values overflow. -/
theorem C37_decode (norm : Bytes → Bytes) (l : Language) (hl : IsV1 l) (words : List Bytes) (ns : List Nat)
    (hc : words.length = 12 ∨ words.length = 24) (hn : ∀ n ∈ ns, n < 1626) (hw : words.map norm = ns.map (wordAt l)) :
    v1FromWords norm words l = ⟨⟨(values ns).flatMap (fun v => beBytes 4 (v % 2 ^ 32)), ns.map (wordAt l), l⟩,
      (values ns).map fun v => decide (2 ^ 32 ≤ v)⟩ ∧
    seedEntropy (v1FromWords norm words l) = Spec.ElectrumV1.mnDecode ns := by
  have hnone : l ≠ .none := by rcases hl with rfl | rfl <;> decide
  have hlen : ns.length = words.length := by simpa using (congrArg List.length hw).symm
  have h1 : v1FromWords norm words l = ⟨⟨(values ns).flatMap (fun v => beBytes 4 (v % 2 ^ 32)), ns.map (wordAt l), l⟩,
      (values ns).map fun v => decide (2 ^ 32 ≤ v)⟩ := by
    unfold v1FromWords
    dsimp only
    rw [if_neg (by simp; omega), hw, contains_v1 l hl, if_pos (fun w h => ?_), if_neg hnone, if_neg (fun h => h.2 rfl), decoder_eq l hl ns hn]
    obtain ⟨i, hi, rfl⟩ := List.mem_map.1 h
    exact wordAt_mem l hl i (hn i hi)
  refine ⟨h1, ?_⟩
  rw [h1, seedEntropy]
  dsimp only
  have hv : (values ns) ≠ [] := by
    match ns, hlen with
    | [], h => simp at h; omega
    | [_], h => simp at h; omega
    | [_, _], h => simp at h; omega
    | _ :: _ :: _ :: _, _ => simp [values, Spec.ElectrumV1.values]
  rw [if_neg (by simpa using hv), if_neg, seed_go _ (values_lt ns hn)]
  · rfl
  · rw [List.length_map, List.length_flatMap]
    simp only [beBytes_length]
    simp [List.map_const', Nat.mul_comm]

/-- Other words are refused. -/
theorem C37_decode_only (norm : Bytes → Bytes) (l : Language) (words : List Bytes) (h : v1FromWords norm words l ≠ V1.invalid) :
    (words.length = 12 ∨ words.length = 24) ∧
    ∃ l', IsV1 l' ∧ (l = l' ∨ l = .none) ∧ (∀ w ∈ words, norm w ∈ wordListV1 l') ∧ v1FromWords norm words l = v1FromWords norm words l' := by
  unfold v1FromWords at h ⊢
  dsimp only at h ⊢
  by_cases hc : words.length = 12 ∨ words.length = 24
  case neg => rw [if_pos (by simp; omega)] at h; exact absurd rfl h
  refine ⟨hc, ?_⟩
  have hb : ¬ ((!(words.length == 12 || words.length == 24)) = true) := by simp; omega
  simp only [if_neg hb] at h ⊢
  by_cases hv : IsV1 l
  · refine ⟨l, hv, Or.inl rfl, ?_, rfl⟩
    rw [contains_v1 l hv] at h
    by_cases hm : ∀ w ∈ words.map norm, w ∈ wordListV1 l
    · exact fun w hw => hm _ (List.mem_map_of_mem hw)
    · rw [if_neg hm, if_pos rfl] at h; exact absurd rfl h
  · by_cases hl : l = .none
    · subst hl
      rw [contains_v1_none] at h ⊢
      by_cases he : ∀ w ∈ words.map norm, w ∈ wordListV1 .en
      · refine ⟨.en, Or.inl rfl, Or.inr rfl, fun w hw => he _ (List.mem_map_of_mem hw), ?_⟩
        rw [contains_v1 _ (Or.inl rfl)]
        simp only [if_pos he]
        simp
      · by_cases hp : ∀ w ∈ words.map norm, w ∈ wordListV1 .pt
        · refine ⟨.pt, Or.inr rfl, Or.inr rfl, fun w hw => hp _ (List.mem_map_of_mem hw), ?_⟩
          rw [contains_v1 _ (Or.inr rfl)]
          simp only [if_pos hp, if_neg he]
          simp
        · rw [if_neg he, if_neg hp, if_pos rfl] at h; exact absurd rfl h
    · exfalso
      apply h
      have : dictionariesV1.contains (words.map norm) l = .none := by
        unfold Dictionaries.contains
        rw [if_pos hl]
        cases l <;> first | rfl | (exact absurd (Or.inl rfl) hv) | (exact absurd (Or.inr rfl) hv)
      rw [this, if_pos rfl]

/-- The words of entropy read back (the normalisation leaves dictionary words as they are) give the entropy, no value
overflows and the same text is hashed. -/
theorem C37_roundtrip (norm : Bytes → Bytes) (l : Language) (hl : IsV1 l) (hnorm : ∀ w ∈ wordListV1 l, norm w = w) (e : Bytes)
    (he : e.length = 16 ∨ e.length = 32) :
    (v1FromWords norm (v1FromEntropy e l).base.words l).base = (v1FromEntropy e l).base ∧
    (v1FromWords norm (v1FromEntropy e l).base.words l).overflow = false ∧
    seedEntropy (v1FromWords norm (v1FromEntropy e l).base.words l) = seedEntropy (v1FromEntropy e l) := by
  obtain ⟨h1, h2⟩ := (C37_encode e l).1 ⟨he, hl⟩
  have h4 : e.length % 4 = 0 := by omega
  have hn := mnEncode_lt e
  have hlen := mnEncode_length e h4
  rw [h2, h1]
  dsimp only
  have hw : ((Spec.ElectrumV1.mnEncode e).map (wordAt l)).map norm = (Spec.ElectrumV1.mnEncode e).map (wordAt l) := by
    rw [List.map_map]
    apply List.map_congr_left
    intro i hi
    exact hnorm _ (wordAt_mem l hl i (hn i hi))
  obtain ⟨g1, g2⟩ := C37_decode norm l hl _ _ (by rw [List.length_map]; omega) hn hw
  have hv : values (Spec.ElectrumV1.mnEncode e) = quads e := values_encode e h4
  rw [g2, g1, hv, Spec.ElectrumV1.mnDecode]
  refine ⟨?_, ?_, ?_⟩
  · dsimp only
    rw [quads_bytes e h4]
  · rw [V1.overflow, List.any_map, List.any_eq_false]
    intro v hv
    have := quads_lt e v hv
    simp
    omega
  · rw [show Spec.ElectrumV1.values (Spec.ElectrumV1.mnEncode e) = quads e from hv]

/-- Words none of whose values overflow are the words of the entropy they give. -/
theorem C37_reencode (norm : Bytes → Bytes) (l : Language) (hl : IsV1 l) (words : List Bytes)
    (hv : v1FromWords norm words l ≠ V1.invalid) (ho : (v1FromWords norm words l).overflow = false) :
    (v1FromEntropy (v1FromWords norm words l).base.entropy l).base = (v1FromWords norm words l).base := by
  have hnone : l ≠ .none := by rcases hl with rfl | rfl <;> decide
  obtain ⟨hc, l', _, hll, hm, _⟩ := C37_decode_only norm l words hv
  have hll : l = l' := by rcases hll with h | h; exact h; exact absurd h hnone
  subst hll
  obtain ⟨ns, hn, hw⟩ := numbers_v1 l hl (words.map norm) (by
    intro w hw
    obtain ⟨x, hx, rfl⟩ := List.mem_map.1 hw
    exact hm x hx)
  have hlen : ns.length = words.length := by simpa using (congrArg List.length hw).symm
  obtain ⟨g1, -⟩ := C37_decode norm l hl words ns hc hn hw
  rw [g1] at ho ⊢
  dsimp only at ho ⊢
  have hlt : ∀ v ∈ values ns, v < 2 ^ 32 := by
    intro v hv
    rw [V1.overflow, List.any_map, List.any_eq_false] at ho
    have := ho v hv
    simp at this
    omega
  have hs : ((values ns).flatMap fun v => beBytes 4 (v % 2 ^ 32)).length = 4 * (words.length / 3) := by
    rw [List.length_flatMap]
    simp only [beBytes_length]
    rw [← hlen, ← values_length ns]
    simp [List.map_const', Nat.mul_comm]
  obtain ⟨g2, -⟩ := (C37_encode _ l).1 ⟨by rw [hs]; omega, hl⟩
  rw [g2]
  dsimp only
  congr 2
  have hq : quads ((values ns).flatMap fun v => beBytes 4 (v % 2 ^ 32)) = values ns := quads_values _ hlt
  rw [Spec.ElectrumV1.mnEncode, show Spec.ElectrumV1.quads _ = values ns from hq]
  exact encode_values ns hn (by omega)

/-- Words with a value that overflows are not the words of any entropy. -/
theorem C37_overflow (norm : Bytes → Bytes) (l : Language) (hl : IsV1 l) (hnorm : ∀ w ∈ wordListV1 l, norm w = w) (words : List Bytes)
    (ho : (v1FromWords norm words l).overflow = true) (e : Bytes) : (v1FromEntropy e l).base.words ≠ words := by
  intro h
  by_cases he : e.length = 16 ∨ e.length = 32
  · have := (C37_roundtrip norm l hl hnorm e he).2.1
    rw [h, ho] at this
    cases this
  · rw [(C37_encode e l).2 (fun h => he h.1)] at h
    rw [← h] at ho
    exact absurd (show (v1FromWords norm [] l).overflow = false from rfl) (by rw [show (V1.invalid.base.words) = [] from rfl] at ho; rw [ho]; decide)

/-! ### Non-vacuity -/

example : v1FromEntropy (List.replicate 16 0xff) .en ≠ V1.invalid := by
  rw [((C37_encode (List.replicate 16 0xff) .en).1 ⟨Or.inl rfl, Or.inl rfl⟩).1]
  intro h
  exact absurd (congrArg (fun m => m.base.lingo) h) (by decide)

/-- The largest value of three words overflows: 0x1003ca7a7. -/
example : Spec.ElectrumV1.decode 1625 1624 1623 = 0x1003ca7a7 ∧ Spec.ElectrumV1.hex8 0x1003ca7a7 = Radix.ascii "1003ca7a7" := by decide +kernel

/-- A mnemonic that overflows. -/
example : (v1FromWords id ([1625, 1624, 1623, 1625, 1624, 1623, 1625, 1624, 1623, 1, 2, 3].map (wordAt .en)) .en).overflow = true := by
  rw [(C37_decode id .en (Or.inl rfl) _ [1625, 1624, 1623, 1625, 1624, 1623, 1625, 1624, 1623, 1, 2, 3] (Or.inl rfl) (by decide) (by simp)).1]
  decide +kernel

/-- The first word of the English list. -/
example : wordAt .en 0 = Radix.ascii "like" := by decide +kernel

end Verif.Mnemonic
