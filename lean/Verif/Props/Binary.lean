import Verif.Model.Binary
import Verif.Props.Pack
import Verif.Props.Arith
/-!
# C66: `binary` is a vector of bits
-/
namespace Verif.Binary
open Verif Verif.Bit Verif.Bit.Spec Verif.Pack

/-- The value holds the given bits: most significant first in its bytes, zero padded to a whole number of bytes. -/
def Holds (x : Binary) (l : List Bool) : Prop :=
  x.bits = l.length ∧ ∃ k < 8, bitsOf x.bytes = l ++ List.replicate k false

/-- The text of bits. -/
def text (l : List Bool) : Bytes := l.map fun b => if b then 0x31 else 0x30

/-- The first bits of data, continued by zeros. -/
def firstBits (n : Nat) (d : Bytes) : List Bool := (bitsOf d ++ List.replicate n false).take n

/-- Lexicographic order of bit strings, a prefix first. -/
inductive Before : List Bool → List Bool → Prop where
  | short (b : Bool) (l : List Bool) : Before [] (b :: l)
  | bit (l r : List Bool) : Before (false :: l) (true :: r)
  | cons (b : Bool) {l r : List Bool} : Before l r → Before (b :: l) (b :: r)

theorem text_length (l : List Bool) : (text l).length = l.length := by simp [text]

theorem text_inj {l r : List Bool} (h : text l = text r) : l = r := by
  unfold text at h
  refine (List.map_inj_right ?_).1 h
  intro a b; cases a <;> cases b <;> decide

theorem byteCount_spec (n : Nat) : 8 * byteCount n = n + (8 - n % 8) % 8 := by
  unfold byteCount
  split <;> omega

/-- The helper uses of arithmetic in the code are those of C40. -/
theorem byteCount_arith (n : Nat) (h : n < 2 ^ 64) : (byteCount n : Int) = Arith.ceilingedDivide Arith.u64 n 8 := by
  unfold byteCount Arith.ceilingedDivide Arith.truncatedDivide Arith.isCeilinged Arith.signsDiffer Arith.isNegative Arith.Ty.cast Arith.Ty.min Arith.u64
  simp only [Nat.reducePow] at h
  have e1 : (n : Int).tdiv 8 = ((n / 8 : Nat) : Int) := by
    rw [Int.tdiv_eq_ediv_of_nonneg (by omega)]; rfl
  have e2 : (n : Int).tmod 8 = ((n % 8 : Nat) : Int) := by
    rw [Int.tmod_eq_emod_of_nonneg (by omega)]; rfl
  simp only [e1, e2]
  by_cases hm : n % 8 = 0
  · simp [hm]; omega
  · simp [hm]; omega

theorem foldBits (l : List Bool) (w : Writer) (h : w.WF) :
    ((text l).foldl (fun w c => w.writeBit (c == 0x31)) w).WF ∧
    ((text l).foldl (fun w c => w.writeBit (c == 0x31)) w).bits = w.bits ++ l := by
  induction l generalizing w with
  | nil => exact ⟨h, by simp [text]⟩
  | cons b l ih =>
    obtain ⟨h1, h2⟩ := writeBit_spec w h b
    have e : ((if b then (0x31 : UInt8) else 0x30) == 0x31) = b := by cases b <;> decide
    have : text (b :: l) = (if b then 0x31 else 0x30) :: text l := rfl
    rw [this, List.foldl_cons, e]
    obtain ⟨h3, h4⟩ := ih _ h1
    exact ⟨h3, by rw [h4, h2]; simp⟩

theorem base2_iff (t : Bytes) : isBase2 t = true ↔ ∃ l, t = text l := by
  unfold isBase2
  constructor
  · intro h
    refine ⟨t.map (· == 0x31), ?_⟩
    unfold text
    rw [List.map_map]
    refine (List.map_id t).symm.trans (List.map_congr_left fun c hc => ?_)
    have := List.all_eq_true.1 h c hc
    rw [Bool.or_eq_true, beq_iff_eq, beq_iff_eq] at this
    rcases this with rfl | rfl <;> decide
  · rintro ⟨l, rfl⟩
    rw [List.all_eq_true]
    intro c hc
    obtain ⟨b, -, rfl⟩ := List.mem_map.1 hc
    cases b <;> decide

theorem ofString_text (l : List Bool) : Holds (ofString (text l)) l := by
  unfold ofString
  rw [if_neg (by simp [(base2_iff _).2 ⟨l, rfl⟩])]
  obtain ⟨h1, h2⟩ := foldBits l _ init_wf
  obtain ⟨k, hk, h3⟩ := flush_spec _ h1
  exact ⟨text_length l, k, hk, by rw [h3, h2]; rfl⟩

/-- **C66** A text of zeros and ones gives the vector of those bits, any other text the empty vector. -/
theorem C66_string (t : Bytes) : (∀ l, t = text l → Holds (ofString t) l) ∧ ((¬ ∃ l, t = text l) → Holds (ofString t) []) := by
  refine ⟨fun l e => e ▸ ofString_text l, fun h => ?_⟩
  unfold ofString
  rw [if_pos (by simp [Bool.eq_false_iff.2 (fun hh => h ((base2_iff _).1 hh))])]
  exact ⟨rfl, 0, by decide, rfl⟩

/-- The buffer the code allocates is the size that is written. -/
theorem holds_size {x : Binary} {l : List Bool} (h : Holds x l) : x.bytes.length = byteCount x.bits := by
  obtain ⟨h1, k, hk, h2⟩ := h
  have := congrArg List.length h2
  rw [bitsOf_length, List.length_append, List.length_replicate] at this
  have := byteCount_spec x.bits
  omega

theorem bits_replicate (n : Nat) : bitsOf (List.replicate n 0) = List.replicate (8 * n) false := by
  induction n with
  | zero => rfl
  | succ n ih =>
    rw [List.replicate_succ, bitsOf_cons, ih, Nat.mul_succ, Nat.add_comm, List.replicate_add]
    rfl

theorem maskRight_bits (b : UInt8) : ∀ n < 8, byteBits (maskRight b n) = (byteBits b).take (8 - n) ++ List.replicate n false :=
  forall_byte (p := fun b => ∀ n < 8, byteBits (maskRight b n) = (byteBits b).take (8 - n) ++ List.replicate n false) (by decide +kernel) b

theorem bits_take (d : Bytes) (n : Nat) : bitsOf (d.take n) = (bitsOf d).take (8 * n) := by
  by_cases h : n ≤ d.length
  · conv_rhs => rw [← List.take_append_drop n d, bitsOf_append]
    rw [List.take_left' (by rw [bitsOf_length, List.length_take]; omega)]
  · rw [List.take_of_length_le (by omega), List.take_of_length_le (by rw [bitsOf_length]; omega)]

theorem resize_bits (d : Bytes) (m : Nat) : bitsOf (resize d m) = (bitsOf d ++ List.replicate (8 * m) false).take (8 * m) := by
  unfold resize
  rw [bitsOf_append, bits_take, bits_replicate, List.take_append, bitsOf_length, List.take_replicate]
  congr 2
  omega

theorem resize_length (d : Bytes) (m : Nat) : (resize d m).length = m := by
  unfold resize; simp; omega

/-- **C66** Construction from data takes the first bits, with zeros after the data, and clears the rest of the last byte. -/
theorem C66_data (n : Nat) (d : Bytes) : Holds (ofData n d) (firstBits n d) := by
  have hc := byteCount_spec n
  have hf : (firstBits n d).length = n := by unfold firstBits; simp
  refine ⟨hf.symm, (8 - n % 8) % 8, by omega, ?_⟩
  unfold ofData
  have hrl := resize_length d (byteCount n)
  have hrb := resize_bits d (byteCount n)
  generalize resize d (byteCount n) = r at *
  dsimp only
  rcases List.eq_nil_or_concat r with rfl | ⟨i, b, rfl⟩
  · have : n = 0 := by rw [List.length_nil] at hrl; unfold byteCount at hrl; split at hrl <;> omega
    subst this
    rfl
  · rw [List.concat_eq_append, List.getLast?_append] at *
    simp only [List.getLast?_singleton, Option.some_or, List.dropLast_append_cons, List.dropLast_singleton, List.append_nil] at *
    rw [bitsOf_append, bitsOf_cons] at hrb ⊢
    rw [maskRight_bits b _ (by omega)]
    rw [List.length_append, List.length_singleton] at hrl
    have hi := bitsOf_length i
    have e0 : bitsOf ([] : Bytes) = [] := rfl
    rw [e0, List.append_nil] at hrb ⊢
    rw [← List.append_assoc]
    congr 1
    have key : bitsOf i ++ (byteBits b).take (8 - (8 - n % 8) % 8) = (bitsOf i ++ byteBits b).take n := by
      rw [List.take_append, List.take_of_length_le (l := bitsOf i) (by omega), hi]
      congr 2
      omega
    rw [key, hrb, List.take_take, Nat.min_eq_left (by omega)]
    unfold firstBits
    rw [List.take_append, List.take_append, List.take_replicate, List.take_replicate]
    congr 2
    omega

theorem loop_eq (d : Bytes) : ∀ (fuel p : Nat) (r : Bit.Reader), At d p r → p ≤ 8 * d.length → 8 * d.length < fuel + p →
    encodedLoop fuel r = text ((bitsOf d).drop p) := by
  intro fuel
  induction fuel with
  | zero => intro p r h hp hf; omega
  | succ fuel ih =>
    intro p r h hp hf
    unfold encodedLoop
    by_cases he : p = 8 * d.length
    · rw [if_pos ((exhausted_at h).2 he), List.drop_of_length_le (by rw [bitsOf_length]; omega)]; rfl
    · rw [if_neg (fun hh => he ((exhausted_at h).1 hh))]
      obtain ⟨h1, h2⟩ := readBit_at h (by omega)
      rw [ih (p + 1) _ h2 (by omega) (by omega), drop_cons_of_getElem h1]
      rfl

/-- **C66** The text is the bits. -/
theorem C66_encoded {x : Binary} {l : List Bool} (h : Holds x l) (hs : x.bytes.length ≤ maxSize) : encoded x = text l := by
  obtain ⟨h1, k, hk, h2⟩ := h
  unfold encoded
  rw [loop_eq x.bytes _ 0 _ (init_at _ hs) (by omega) (by omega), List.drop_zero, h2, h1]
  unfold resize
  rw [text_length, List.length_append, show l.length - (l.length + (List.replicate k false).length) = 0 by omega]
  simp [text]

/-- **C66** Text and vector are inverse: the text is read back as the same value, and a text of bits is printed back. -/
theorem C66_roundtrip {x : Binary} {l : List Bool} (h : Holds x l) (hs : x.bytes.length ≤ maxSize) :
    ofString (encoded x) = x ∧ encoded (ofString (text l)) = text l := by
  have h' := ofString_text l
  have hu : ∀ {x y : Binary}, Holds x l → Holds y l → x = y := by
    rintro ⟨a, b⟩ ⟨c, d⟩ h g
    have e1 : a = c := h.1.trans g.1.symm
    have e2 : b.length = d.length := by have := holds_size h; have := holds_size g; dsimp only at *; rw [e1] at *; omega
    obtain ⟨-, k, -, h2⟩ := h
    obtain ⟨-, j, -, g2⟩ := g
    dsimp only at *
    have e3 : k = j := by
      have := congrArg List.length h2; have := congrArg List.length g2
      rw [bitsOf_length, List.length_append, List.length_replicate] at *
      omega
    rw [e1, bitsOf_inj (h2.trans (e3 ▸ g2.symm))]
  have e := hu h' h
  refine ⟨by rw [C66_encoded h hs, e], ?_⟩
  rw [e, C66_encoded h hs]

/-- **C66** Values are equal exactly if they hold the same bits, and then all their fields agree. -/
theorem C66_equal {x y : Binary} {l r : List Bool} (hx : Holds x l) (hy : Holds y r) (h1 : x.bytes.length ≤ maxSize) (h2 : y.bytes.length ≤ maxSize) :
    (same x y = true ↔ l = r) ∧ (same x y = true ↔ x = y) := by
  have key : same x y = true ↔ l = r := by
    unfold same
    rw [C66_encoded hx h1, C66_encoded hy h2, beq_iff_eq]
    exact ⟨text_inj, fun h => h ▸ rfl⟩
  refine ⟨key, fun h => ?_, ?_⟩
  · have e := key.1 h
    subst e
    rw [← (C66_roundtrip hx h1).1, ← (C66_roundtrip hy h2).1, C66_encoded hx h1, C66_encoded hy h2]
  · rintro rfl
    unfold same; simp

theorem textLess_iff : ∀ l r : List Bool, textLess (text l) (text r) = true ↔ Before l r
  | _, [] => by
    refine ⟨fun h => ?_, fun h => by cases h⟩
    simp [text, textLess] at h
  | [], b :: r => ⟨fun _ => .short b r, fun _ => rfl⟩
  | a :: l, b :: r => by
    have ih := textLess_iff l r
    have e : textLess (text (a :: l)) (text (b :: r)) = if (if a then (0x31 : UInt8) else 0x30) < (if b then 0x31 else 0x30) then true else
      if (if b then (0x31 : UInt8) else 0x30) < (if a then 0x31 else 0x30) then false else textLess (text l) (text r) := rfl
    rw [e]
    cases a <;> cases b
    · refine ⟨fun h => .cons _ (ih.1 h), fun h => ?_⟩
      cases h with | cons _ h => exact ih.2 h
    · exact ⟨fun _ => .bit _ _, fun _ => rfl⟩
    · refine ⟨fun h => ?_, fun h => by cases h⟩
      simp at h
    · refine ⟨fun h => .cons _ (ih.1 h), fun h => ?_⟩
      cases h with | cons _ h => exact ih.2 h

/-- **C66** The order is the lexicographic order of the bits. -/
theorem C66_order {x y : Binary} {l r : List Bool} (hx : Holds x l) (hy : Holds y r) (h1 : x.bytes.length ≤ maxSize) (h2 : y.bytes.length ≤ maxSize) :
    less x y = true ↔ Before l r := by
  unfold less
  rw [C66_encoded hx h1, C66_encoded hy h2]
  exact textLess_iff l r

/-- **C66** Indexing a position of the vector (or of its padding, or one at least eight times its size) gives
the bit at the index and zero beyond the last bit; positions between are `C66_index_counterexample`. -/
theorem C66_index {x : Binary} {l : List Bool} (h : Holds x l) (i : Nat) (hi : i < 8 * x.bytes.length ∨ 8 * x.bits ≤ i) :
    index x i = some (l.getD i false) := by
  have hsz := holds_size h
  obtain ⟨h1, k, hk, h2⟩ := h
  have hc := byteCount_spec x.bits
  unfold index
  dsimp only
  rcases hi with hi | hi
  · have hb : i / 8 < x.bytes.length := by omega
    have hbits : i / 8 < x.bits := by
      have : byteCount x.bits ≤ x.bits := by unfold byteCount; split <;> omega
      omega
    rw [if_pos hbits, List.getElem?_eq_getElem hb, Option.map_some]
    have := bitsOf_getElem x.bytes (i / 8) (i % 8) (by omega) _ (List.getElem?_eq_getElem hb)
    rw [show 8 * (i / 8) + i % 8 = i by omega, h2] at this
    congr 1
    rw [List.getD_eq_getElem?_getD]
    by_cases hl : i < l.length
    · rw [List.getElem?_append_left hl] at this
      rw [this]; rfl
    · rw [List.getElem?_append_right (by omega), List.getElem?_replicate] at this
      rw [List.getElem?_eq_none (by omega)]
      split at this
      · exact (Option.some.inj this).symm
      · cases this
  · rw [if_neg (by omega), List.getD_eq_getElem?_getD, List.getElem?_eq_none (by omega)]
    rfl

/-- The guard compares a byte position with the number of bits: of nine bits, the index 16 reads outside of the two bytes. -/
theorem C66_index_counterexample : Holds (ofString (text (List.replicate 9 true))) (List.replicate 9 true) ∧
    index (ofString (text (List.replicate 9 true))) 16 = none := by
  exact ⟨ofString_text _, by decide +kernel⟩

/-- Non-vacuity: ten bits of three bytes. -/
example : ofData 10 [0xa5, 0xff, 0x01] = ⟨10, [0xa5, 0xc0]⟩ ∧ encoded (ofData 10 [0xa5, 0xff, 0x01]) = text [true, false, true, false, false, true, false, true, true, true] ∧
    ofString (text [true, false, true, false, false, true, false, true, true, true]) = ⟨10, [0xa5, 0xc0]⟩ ∧ index (ofData 10 [0xa5, 0xff, 0x01]) 9 = some true ∧
    less (ofData 2 [0x40]) (ofData 1 [0x80]) = true := by
  decide +kernel

end Verif.Binary
