import Verif.Model.Endian
import Verif.Props.BitOps
import Verif.Props.Der
/-!
# C88: byte order conversions

`leNat`/`beNat` are the value of bytes in little and big endian order, `leBytes`/`beBytes` the bytes of a value (Model/Stream).
-/
namespace Verif.Endian
open Verif.BitOps

variable {w : Nat}

/-- The value of an integer of a signed or unsigned type. -/
def value (signed : Bool) (v : BitVec w) : Int := if signed then v.toInt else v.toNat

theorem low_toNat (v : BitVec w) : (low v).toNat = v.toNat % 256 := by
  unfold low
  rw [UInt8.toNat_ofBitVec, BitVec.toNat_setWidth]

theorem low_value (hw : 8 ≤ w) (signed : Bool) (v : BitVec w) : (((low v).toNat : Nat) : Int) = value signed v % 256 := by
  rw [low_toNat]
  unfold value
  cases signed
  · simp
  · have hd : (256 : Int) ∣ ((2 ^ w : Nat) : Int) := by
      obtain ⟨k, rfl⟩ := Nat.exists_eq_add_of_le hw
      rw [Nat.pow_add, Int.natCast_mul]; exact ⟨((2 ^ k : Nat) : Int), rfl⟩
    rw [if_pos rfl, BitVec.toInt_eq_toNat_cond]
    split
    · simp
    · obtain ⟨c, hc⟩ := hd
      omega

theorem shiftByte_value (signed : Bool) (v : BitVec w) : value signed (shiftByte signed v) = value signed v / 256 := by
  unfold value shiftByte
  cases signed
  · simp [BitVec.toNat_ushiftRight, Nat.shiftRight_eq_div_pow]
  · simp [BitVec.toInt_sshiftRight, Int.shiftRight_eq_div_pow]

/-- The bytes from the low end. -/
def bytesOf (signed : Bool) : Nat → BitVec w → Bytes
  | 0, _ => []
  | n + 1, v => low v :: bytesOf signed n (shiftByte signed v)

theorem bytesOf_length (signed : Bool) (n : Nat) (v : BitVec w) : (bytesOf signed n v).length = n := by
  induction n generalizing v with
  | zero => rfl
  | succ n ih => simp [bytesOf, ih]

theorem emod_split (x m : Int) (hm : 0 < m) : x % (256 * m) = x % 256 + 256 * (x / 256 % m) := by
  have h1 := Int.mul_ediv_add_emod x 256
  have h2 := Int.mul_ediv_add_emod (x / 256) m
  have h3 := Int.emod_nonneg (x / 256) (show m ≠ 0 by omega)
  have h4 := Int.emod_lt_of_pos (x / 256) hm
  have e : x = (x % 256 + 256 * (x / 256 % m)) + (256 * m) * (x / 256 / m) := by
    rw [Int.mul_assoc]; omega
  rw [e, Int.add_mul_emod_self_left, ← e]
  exact Int.emod_eq_of_lt (by omega) (by omega)

theorem bytesOf_value (hw : 8 ≤ w) (signed : Bool) (n : Nat) (v : BitVec w) : ((leNat (bytesOf signed n v) : Nat) : Int) = value signed v % 256 ^ n := by
  induction n generalizing v with
  | zero => simp [bytesOf, leNat]
  | succ n ih =>
    rw [bytesOf, leNat, Int.natCast_add, Int.natCast_mul]
    rw [ih, low_value hw signed, shiftByte_value, Int.pow_succ, Int.mul_comm (256 ^ n) 256, emod_split _ _ (Int.pow_pos (by decide))]
    rfl

theorem toLittleLoop_eq (signed : Bool) (left byte : Nat) (data : Bytes) (v : BitVec w) (h : byte + left = data.length) :
    toLittleLoop signed left byte data v = data.take byte ++ bytesOf signed left v := by
  induction left generalizing byte data v with
  | zero =>
    rw [toLittleLoop, bytesOf, List.append_nil, List.take_of_length_le (by omega)]
  | succ n ih =>
    rw [toLittleLoop, ih _ _ _ (by simp; omega), bytesOf]
    rw [List.take_add_one, List.take_set_of_le (Nat.le_refl _)]
    simp [List.getElem?_set_self (show byte < data.length by omega)]

theorem toBigLoop_eq (signed : Bool) (n : Nat) (data : Bytes) (v : BitVec w) (h : n ≤ data.length) :
    toBigLoop signed n data v = (bytesOf signed n v).reverse ++ data.drop n := by
  induction n generalizing data v with
  | zero => simp [toBigLoop, bytesOf]
  | succ n ih =>
    rw [toBigLoop, ih _ _ (by simp; omega), bytesOf, List.drop_set, if_neg (by omega), Nat.sub_self]
    have : (data.drop n).set 0 (low v) = low v :: data.drop (n + 1) := by
      rw [List.drop_eq_getElem_cons (show n < data.length by omega), List.set_cons_zero]
    rw [this]
    simp

/-- C88. An integer of two or more bytes (any width up) fills data of any size, in either order: the data is the value of the integer modulo the
size, that is zero or sign extended if the data is longer and cut to its low bytes if it is shorter. -/
theorem C88_fill (hw : 8 < w) (signed : Bool) (data : Bytes) (v : BitVec w) :
    ((toLittleData signed data v).length = data.length ∧
      ((leNat (toLittleData signed data v) : Nat) : Int) = value signed v % 256 ^ data.length) ∧
    ((toBigData signed data v).length = data.length ∧
      ((beNat (toBigData signed data v) : Nat) : Int) = value signed v % 256 ^ data.length) := by
  unfold toLittleData toBigData
  rw [if_neg (by omega), if_neg (by omega), toLittleLoop_eq _ _ _ _ _ (by omega), toBigLoop_eq _ _ _ _ (Nat.le_refl _)]
  simp only [List.take_zero, List.nil_append, List.drop_length, List.append_nil, List.length_reverse, bytesOf_length, beNat, List.reverse_reverse, true_and]
  exact ⟨bytesOf_value (by omega) _ _ _, bytesOf_value (by omega) _ _ _⟩

/-- C88. Counterexample: of a one byte integer only the first byte of the data is written, so that it does not fill big endian data longer than
one byte, and a negative one is not extended in either order, as the same number in two bytes is. -/
theorem C88_fill_counterexample :
    toBigEndianSize 4 false 5#8 = [5, 0, 0, 0] ∧ toBigEndianSize 4 false 5#16 = [0, 0, 0, 5] ∧
    toLittleEndianSize 4 true (BitVec.ofInt 8 (-1)) = [255, 0, 0, 0] ∧ toLittleEndianSize 4 true (BitVec.ofInt 16 (-1)) = [255, 255, 255, 255] := by decide

theorem pushByte_ofNat (hw : 8 ≤ w) (n : Nat) (b : UInt8) : pushByte (BitVec.ofNat w n) b = BitVec.ofNat w (256 * n + b.toNat) := by
  apply BitVec.eq_of_toNat_eq
  have hb : b.toNat < 2 ^ 8 := b.toBitVec.isLt
  have hb' : b.toBitVec.toNat = b.toNat := rfl
  obtain ⟨k, rfl⟩ := Nat.exists_eq_add_of_le hw
  have hp : 2 ^ (8 + k) = 256 * 2 ^ k := by rw [Nat.pow_add]
  have hle : 2 ^ 8 ≤ 2 ^ (8 + k) := Nat.pow_le_pow_right (by decide) hw
  unfold pushByte
  rw [BitVec.toNat_or, BitVec.toNat_shiftLeft, BitVec.toNat_setWidth, hb', BitVec.toNat_ofNat, BitVec.toNat_ofNat, Nat.shiftLeft_eq,
    Nat.mod_eq_of_lt (show b.toNat < 2 ^ (8 + k) by omega), Nat.mod_mul_mod]
  rw [Nat.mul_comm n, hp, show (2 : Nat) ^ 8 = 256 by rfl, Nat.mul_mod_mul_left]
  rw [show (256 : Nat) = 2 ^ 8 by rfl, ← Nat.two_pow_add_eq_or_of_lt hb]
  rw [show (2 : Nat) ^ 8 = 256 by rfl] at *
  rw [Nat.mod_mul, Nat.mul_add_mod]
  rw [Nat.mod_eq_of_lt hb, show (256 * n + b.toNat) / 256 = n by omega]
  omega

theorem foldl_push (hw : 8 ≤ w) (data : Bytes) (n : Nat) :
    data.foldl pushByte (BitVec.ofNat w n) = BitVec.ofNat w (n * 256 ^ data.length + beNat data) := by
  induction data generalizing n with
  | nil => simp [beNat, leNat]
  | cons b t ih =>
    rw [List.foldl_cons, pushByte_ofNat hw, ih, Der.beNat_cons, List.length_cons, Nat.pow_succ]
    congr 1
    rw [Nat.add_mul, Nat.mul_comm 256 n, Nat.mul_assoc n 256, Nat.mul_comm 256 (256 ^ _), Nat.add_assoc]

theorem foldr_push (hw : 8 ≤ w) (data : Bytes) :
    data.foldr (fun byte value => pushByte value byte) (0 : BitVec w) = BitVec.ofNat w (leNat data) := by
  induction data with
  | nil => rfl
  | cons b t ih => rw [List.foldr_cons, ih, pushByte_ofNat hw, leNat, Nat.add_comm]

theorem one_byte (data : Bytes) : (data.headD 0).toBitVec.setWidth 8 = BitVec.ofNat 8 (beNat (data.take 1)) := by
  cases data with
  | nil => rfl
  | cons b t =>
    apply BitVec.eq_of_toNat_eq
    simp [beNat, leNat]

/-- C88. An integer read from data of any size is the value of the first `length` bytes of it (the first `sizeof` bytes for an integral), in
either order; shorter data reads as its own value, and no data as zero. -/
theorem C88_read (hw : 8 < w) (length : Nat) (data : Bytes) :
    fromBigData w length data = BitVec.ofNat w (beNat (data.take length)) ∧
    fromLittleData w length data = BitVec.ofNat w (leNat (data.take length)) := by
  have e : data.take (min length data.length) = data.take length := by
    rw [List.take_eq_take_iff]; omega
  unfold fromBigData fromLittleData
  rw [if_neg (by omega), if_neg (by omega), e, foldr_push (by omega)]
  refine ⟨?_, rfl⟩
  have := foldl_push (w := w) (by omega) (data.take length) 0
  rw [Nat.zero_mul, Nat.zero_add] at this
  exact this

/-- C88. The same for integrals of one to eight bytes, where `length` is the size of the type. -/
theorem C88_read_integral (hw : w = 8 ∨ w = 16 ∨ w = 32 ∨ w = 64) (data : Bytes) :
    fromBigEndian w data = BitVec.ofNat w (beNat (data.take (w / 8))) ∧
    fromLittleEndian w data = BitVec.ofNat w (leNat (data.take (w / 8))) := by
  by_cases h : w = 8
  · subst h
    refine ⟨one_byte data, (one_byte data).trans ?_⟩
    cases data <;> rfl
  · exact C88_read (by omega) _ _

theorem byteOf_eq (hw : 8 ≤ w) (i : Nat) (v : BitVec w) : byteOf i v = UInt8.ofNat (v.toNat / 256 ^ i % 256) := by
  apply UInt8.toNat_inj.1
  unfold byteOf
  rw [UInt8.toNat_ofBitVec, UInt8.toNat_ofNat', BitVec.toNat_setWidth]
  have e : shiftRight v (8 * i) &&& unmaskRight (BitVec.allOnes w) 8 = unmaskRight (shiftRight v (8 * i)) 8 := by
    apply BitVec.eq_of_getLsbD_eq
    intro j hj
    rw [BitVec.getLsbD_and, (C87_mask _ 8).2.1 j hj, (C87_mask _ 8).2.1 j hj, BitVec.getLsbD_allOnes]
    cases (shiftRight v (8 * i)).getLsbD j <;> simp [hj]
  rw [e, (C87_mask _ 8).2.2.2.2.2.2.2.2, (C87_shift v _).2.1, Nat.pow_mul]

theorem assign_range (offset : Nat) (f : Nat → Nat) (v : BitVec w) (n a : Nat) (data : Bytes) (h : a + offset + n ≤ data.length) :
    assign offset f v (List.range' a n) data =
      data.take (a + offset) ++ (List.range' a n).map (fun i => byteOf (f i) v) ++ data.drop (a + offset + n) := by
  induction n generalizing a data with
  | zero => simp [assign]
  | succ n ih =>
    rw [List.range'_succ, assign, ih (a + 1) _ (by simp; omega), List.map_cons]
    rw [show a + 1 + offset = (a + offset) + 1 by omega, List.take_add_one, List.take_set_of_le (Nat.le_refl _),
      List.getElem?_set_self (by omega), List.drop_set, if_pos (by omega)]
    simp
    congr 1
    omega

/-- Data overwritten at an offset. -/
def overwrite (data : Bytes) (offset : Nat) (bytes : Bytes) : Bytes := data.take offset ++ bytes ++ data.drop (offset + bytes.length)

/-- C88. The unrolled writes store the bytes of the value, in either order, at the offset and change no other byte. -/
theorem C88_write_at (hw : w = 8 ∨ w = 16 ∨ w = 32 ∨ w = 64) (offset : Nat) (data : Bytes) (h : offset + w / 8 ≤ data.length) (v : BitVec w) :
    toBig offset data v = overwrite data offset (beBytes (w / 8) v.toNat) ∧
    toLittle offset data v = overwrite data offset (leBytes (w / 8) v.toNat) := by
  unfold overwrite
  rw [beBytes_length, leBytes_length]
  unfold toBig toLittle
  rcases hw with rfl | rfl | rfl | rfl
  · rw [if_neg (by decide), if_neg (by decide), if_neg (by decide), if_pos rfl, if_neg (by decide), if_neg (by decide), if_neg (by decide)]
    rw [show [0] = List.range' 0 1 by rfl, assign_range _ _ _ _ _ _ (by omega)]
    simp only [List.range'_one, List.map_cons, List.map_nil, byteOf_eq (show 8 ≤ 8 by decide), beBytes, leBytes, Nat.zero_add]
    exact ⟨by simp, by simp⟩
  · rw [if_neg (by decide), if_neg (by decide), if_pos rfl, if_neg (by decide), if_neg (by decide), if_pos rfl]
    rw [show [0, 1] = List.range' 0 2 by rfl, assign_range _ _ _ _ _ _ (by omega), assign_range _ _ _ _ _ _ (by omega)]
    rw [show List.range' 0 2 = [0, 1] by rfl]
    simp only [List.map_cons, List.map_nil, byteOf_eq (show 8 ≤ 16 by decide), beBytes, leBytes, Nat.zero_add]
    exact ⟨by simp, by simp⟩
  · rw [if_neg (by decide), if_pos rfl, if_neg (by decide), if_pos rfl]
    rw [show [0, 1, 2, 3] = List.range' 0 4 by rfl, assign_range _ _ _ _ _ _ (by omega), assign_range _ _ _ _ _ _ (by omega)]
    rw [show List.range' 0 4 = [0, 1, 2, 3] by rfl]
    simp only [List.map_cons, List.map_nil, byteOf_eq (show 8 ≤ 32 by decide), beBytes, leBytes, Nat.zero_add, Nat.div_div_eq_div_mul]
    exact ⟨by simp, by simp⟩
  · rw [if_pos rfl, if_pos rfl]
    rw [show [0, 1, 2, 3, 4, 5, 6, 7] = List.range' 0 8 by rfl, assign_range _ _ _ _ _ _ (by omega), assign_range _ _ _ _ _ _ (by omega)]
    rw [show List.range' 0 8 = [0, 1, 2, 3, 4, 5, 6, 7] by rfl]
    simp only [List.map_cons, List.map_nil, byteOf_eq (show 8 ≤ 64 by decide), beBytes, leBytes, Nat.zero_add, Nat.div_div_eq_div_mul]
    exact ⟨by simp, by simp⟩


/-- The pairs of the unrolled reads. -/
def bigPairs : Nat → Nat → List (Nat × Nat)
  | 0, _ => []
  | n + 1, a => (a, 8 * n) :: bigPairs n (a + 1)

def littlePairs : Nat → Nat → List (Nat × Nat)
  | 0, _ => []
  | n + 1, a => (a, 8 * a) :: littlePairs n (a + 1)

theorem term_eq (hw : 8 ≤ w) (b : UInt8) (s : Nat) : (b.toBitVec.setWidth w) <<< s = BitVec.ofNat w (b.toNat * 2 ^ s) := by
  apply BitVec.eq_of_toNat_eq
  have hb' : b.toBitVec.toNat = b.toNat := rfl
  have hle : 2 ^ 8 ≤ 2 ^ w := Nat.pow_le_pow_right (by decide) hw
  have hb : b.toNat < 2 ^ 8 := b.toBitVec.isLt
  rw [BitVec.toNat_shiftLeft, BitVec.toNat_setWidth, hb', BitVec.toNat_ofNat, Nat.shiftLeft_eq, Nat.mod_eq_of_lt (show b.toNat < 2 ^ w by omega)]

theorem pow8 (n : Nat) : 2 ^ (8 * n) = 256 ^ n := by rw [Nat.pow_mul]

theorem gather_big (hw : 8 ≤ w) (offset : Nat) (data : Bytes) (n a : Nat) (h : a + offset + n ≤ data.length) :
    gather w offset data (bigPairs n a) = BitVec.ofNat w (beNat ((data.drop (a + offset)).take n)) := by
  induction n generalizing a with
  | zero => simp [bigPairs, gather, beNat, leNat]
  | succ n ih =>
    rw [bigPairs, gather, ih (a + 1) (by omega), term_eq hw, ← BitVec.ofNat_or, List.drop_eq_getElem_cons (show a + offset < data.length by omega),
      List.take_succ_cons, Der.beNat_cons, List.getD_eq_getElem?_getD, List.getElem?_eq_getElem (by omega), Option.getD_some]
    have hl : (List.take n (List.drop (a + offset + 1) data)).length = n := by simp; omega
    have hlt := Der.beNat_lt (List.take n (List.drop (a + offset + 1) data))
    rw [hl] at hlt ⊢
    rw [show a + 1 + offset = a + offset + 1 by omega, Nat.mul_comm, ← Nat.two_pow_add_eq_or_of_lt (by rw [pow8]; exact hlt), pow8, Nat.mul_comm]

theorem gather_little (hw : 8 ≤ w) (offset : Nat) (data : Bytes) (n a : Nat) (h : a + offset + n ≤ data.length) :
    gather w offset data (littlePairs n a) = BitVec.ofNat w (256 ^ a * leNat ((data.drop (a + offset)).take n)) := by
  induction n generalizing a with
  | zero => simp [littlePairs, gather, leNat]
  | succ n ih =>
    rw [littlePairs, gather, ih (a + 1) (by omega), term_eq hw, ← BitVec.ofNat_or, List.drop_eq_getElem_cons (show a + offset < data.length by omega),
      List.take_succ_cons, leNat, List.getD_eq_getElem?_getD, List.getElem?_eq_getElem (by omega), Option.getD_some]
    have hb : (data[a + offset]).toNat < 2 ^ 8 := (data[a + offset]).toBitVec.isLt
    have hlt : (data[a + offset]).toNat * 2 ^ (8 * a) < 2 ^ (8 * (a + 1)) := by
      rw [show 8 * (a + 1) = 8 + 8 * a by omega, Nat.pow_add]
      exact Nat.mul_lt_mul_of_pos_right hb (Nat.pow_pos (by decide))
    rw [show a + 1 + offset = a + offset + 1 by omega, Nat.or_comm, ← pow8 (a + 1), ← Nat.two_pow_add_eq_or_of_lt hlt, pow8, pow8, Nat.pow_succ,
      Nat.mul_add, Nat.mul_assoc, Nat.add_comm, Nat.mul_comm (UInt8.toNat _)]

/-- C88. The unrolled reads are the value of the bytes at the offset. -/
theorem C88_read_at (hw : w = 8 ∨ w = 16 ∨ w = 32 ∨ w = 64) (offset : Nat) (data : Bytes) (h : offset + w / 8 ≤ data.length) :
    fromBig w offset data = BitVec.ofNat w (beNat ((data.drop offset).take (w / 8))) ∧
    fromLittle w offset data = BitVec.ofNat w (leNat ((data.drop offset).take (w / 8))) := by
  have B : ∀ n, 0 + offset + n ≤ data.length → 8 ≤ w → gather w offset data (bigPairs n 0) = BitVec.ofNat w (beNat ((data.drop offset).take n)) := fun n hn hw => by
    rw [gather_big hw _ _ _ _ hn, Nat.zero_add]
  have L : ∀ n, 0 + offset + n ≤ data.length → 8 ≤ w → gather w offset data (littlePairs n 0) = BitVec.ofNat w (leNat ((data.drop offset).take n)) := fun n hn hw => by
    rw [gather_little hw _ _ _ _ hn, Nat.zero_add, Nat.pow_zero, Nat.one_mul]
  unfold fromBig fromLittle
  rcases hw with rfl | rfl | rfl | rfl
  · exact ⟨B 1 (by omega) (by decide), L 1 (by omega) (by decide)⟩
  · exact ⟨B 2 (by omega) (by decide), L 2 (by omega) (by decide)⟩
  · exact ⟨B 4 (by omega) (by decide), L 4 (by omega) (by decide)⟩
  · exact ⟨B 8 (by omega) (by decide), L 8 (by omega) (by decide)⟩

/-- Byte `i` of a value is byte `k - 1 - i` of the other: then the bytes of one are those of the other reversed. -/
theorem byte_bits (x : BitVec w) (i : Nat) : UInt8.ofNat (x.toNat / 256 ^ i % 256) = UInt8.ofBitVec ((x >>> (8 * i)).setWidth 8) := by
  apply UInt8.toNat_inj.1
  have : (UInt8.ofBitVec ((x >>> (8 * i)).setWidth 8)).toNat = ((x >>> (8 * i)).setWidth 8).toNat := rfl
  rw [this, BitVec.toNat_setWidth, BitVec.toNat_ushiftRight, Nat.shiftRight_eq_div_pow, pow8]
  simp

theorem byte_eq {x y : BitVec w} {i j : Nat} (h : ∀ b < 8, x.getLsbD (8 * i + b) = y.getLsbD (8 * j + b)) :
    UInt8.ofNat (x.toNat / 256 ^ i % 256) = UInt8.ofNat (y.toNat / 256 ^ j % 256) := by
  rw [byte_bits, byte_bits]
  congr 1
  apply BitVec.eq_of_getLsbD_eq
  intro b hb
  rw [BitVec.getLsbD_setWidth, BitVec.getLsbD_setWidth, BitVec.getLsbD_ushiftRight, BitVec.getLsbD_ushiftRight, h b hb]

theorem le_eq_be {k : Nat} {x y : BitVec w} (h : ∀ i < k, ∀ b < 8, x.getLsbD (8 * i + b) = y.getLsbD (8 * (k - 1 - i) + b)) :
    leBytes k x.toNat = beBytes k y.toNat := by
  have G : ∀ n v, leBytes n v = (List.range n).map fun i => UInt8.ofNat (v / 256 ^ i % 256) := by
    intro n
    induction n with
    | zero => intro v; rfl
    | succ n ih =>
      intro v
      rw [leBytes, ih, List.range_succ_eq_map, List.map_cons, List.map_map]
      simp [Nat.pow_succ, Nat.div_div_eq_div_mul, Nat.mul_comm]
  rw [beBytes, G, G]
  apply List.ext_getElem
  · simp
  · intro i h1 h2
    simp only [List.getElem_map, List.getElem_range, List.getElem_reverse, List.length_map, List.length_range]
    exact byte_eq fun b hb => h i (by simpa using h1) b hb

theorem swap16_bits (v : BitVec 16) (i : Nat) (hi : i < 2) (b : Nat) (hb : b < 8) : (swap16 v).getLsbD (8 * i + b) = v.getLsbD (8 * (2 - 1 - i) + b) := by
  unfold swap16
  rw [BitVec.getLsbD_or, BitVec.getLsbD_shiftLeft, BitVec.getLsbD_ushiftRight]
  obtain rfl | rfl : i = 0 ∨ i = 1 := by omega
  · have h : b < 16 := by omega
    simp [h, hb]
  · have h : 8 + b < 16 := by omega
    have h2 : 16 ≤ 8 + (8 + b) := by omega
    simp [h, BitVec.getLsbD_of_ge v _ h2]


theorem swap32_bits (v : BitVec 32) (i : Nat) (hi : i < 4) (b : Nat) (hb : b < 8) : (swap32 v).getLsbD (8 * i + b) = v.getLsbD (8 * (4 - 1 - i) + b) := by
  have m1 : ∀ j < 32, (0x00ff0000#32).getLsbD j = decide (16 ≤ j ∧ j < 24) := by decide
  have m2 : ∀ j < 32, (0x0000ff00#32).getLsbD j = decide (8 ≤ j ∧ j < 16) := by decide
  unfold swap32
  have hj : 8 * i + b < 32 := by omega
  simp only [BitVec.getLsbD_or, BitVec.getLsbD_and, BitVec.getLsbD_shiftLeft, BitVec.getLsbD_ushiftRight, m1 _ hj, m2 _ hj, hj, decide_true, Bool.true_and]
  obtain rfl | rfl | rfl | rfl : i = 0 ∨ i = 1 ∨ i = 2 ∨ i = 3 := by omega
  · rw [decide_eq_true (show 8 * 0 + b < 24 by omega), decide_eq_true (show 8 * 0 + b < 8 by omega),
      decide_eq_false (show ¬ (8 ≤ 8 * 0 + b ∧ 8 * 0 + b < 16) by omega), show 24 + (8 * 0 + b) = 8 * (4 - 1 - 0) + b by omega]
    simp
  · rw [decide_eq_true (show 8 * 1 + b < 24 by omega), decide_eq_true (show (8 ≤ 8 * 1 + b ∧ 8 * 1 + b < 16) by omega),
      decide_eq_false (show ¬ (16 ≤ 8 * 1 + b ∧ 8 * 1 + b < 24) by omega), BitVec.getLsbD_of_ge v (24 + (8 * 1 + b)) (by omega),
      show 8 + (8 * 1 + b) = 8 * (4 - 1 - 1) + b by omega]
    simp
  · rw [decide_eq_true (show 8 * 2 + b < 24 by omega), decide_eq_false (show ¬ (8 ≤ 8 * 2 + b ∧ 8 * 2 + b < 16) by omega),
      decide_eq_true (show (16 ≤ 8 * 2 + b ∧ 8 * 2 + b < 24) by omega), BitVec.getLsbD_of_ge v (24 + (8 * 2 + b)) (by omega),
      decide_eq_false (show ¬ 8 * 2 + b < 8 by omega), show 8 * 2 + b - 8 = 8 * (4 - 1 - 2) + b by omega]
    simp
  · rw [decide_eq_false (show ¬ 8 * 3 + b < 24 by omega), decide_eq_false (show ¬ (8 ≤ 8 * 3 + b ∧ 8 * 3 + b < 16) by omega),
      decide_eq_false (show ¬ (16 ≤ 8 * 3 + b ∧ 8 * 3 + b < 24) by omega), BitVec.getLsbD_of_ge v (24 + (8 * 3 + b)) (by omega),
      show 8 * 3 + b - 24 = 8 * (4 - 1 - 3) + b by omega]
    simp

/-- A masked term of the swap, by its distance. -/
theorem left_term (v m : BitVec 64) (s lo : Nat) (hm : ∀ j < 64, m.getLsbD j = decide (lo ≤ j ∧ j < lo + 8)) (hs : s ≤ lo) (j : Nat) (hj : j < 64) :
    ((v <<< s) &&& m).getLsbD j = (decide (lo ≤ j ∧ j < lo + 8) && v.getLsbD (j - s)) := by
  rw [BitVec.getLsbD_and, hm j hj, BitVec.getLsbD_shiftLeft]
  by_cases h : lo ≤ j ∧ j < lo + 8
  · have : ¬ j < s := by omega
    simp [h, hj, this]
  · simp [h]

theorem right_term (v m : BitVec 64) (s lo : Nat) (hm : ∀ j < 64, m.getLsbD j = decide (lo ≤ j ∧ j < lo + 8)) (j : Nat) (hj : j < 64) :
    ((v >>> s) &&& m).getLsbD j = (decide (lo ≤ j ∧ j < lo + 8) && v.getLsbD (s + j)) := by
  rw [BitVec.getLsbD_and, hm j hj, BitVec.getLsbD_ushiftRight, Bool.and_comm]

theorem swap64_bits (v : BitVec 64) (i : Nat) (hi : i < 8) (b : Nat) (hb : b < 8) : (swap64 v).getLsbD (8 * i + b) = v.getLsbD (8 * (8 - 1 - i) + b) := by
  have hj : 8 * i + b < 64 := by omega
  generalize hjd : 8 * i + b = j at *
  have e : (swap64 v).getLsbD j = ((decide (56 ≤ j) && v.getLsbD (j - 56)) || (decide (48 ≤ j ∧ j < 48 + 8) && v.getLsbD (j - 40)) ||
      (decide (40 ≤ j ∧ j < 40 + 8) && v.getLsbD (j - 24)) || (decide (32 ≤ j ∧ j < 32 + 8) && v.getLsbD (j - 8)) ||
      (decide (24 ≤ j ∧ j < 24 + 8) && v.getLsbD (8 + j)) || (decide (16 ≤ j ∧ j < 16 + 8) && v.getLsbD (24 + j)) ||
      (decide (8 ≤ j ∧ j < 8 + 8) && v.getLsbD (40 + j)) || v.getLsbD (56 + j)) := by
    unfold swap64
    rw [BitVec.getLsbD_or, BitVec.getLsbD_or, BitVec.getLsbD_or, BitVec.getLsbD_or, BitVec.getLsbD_or, BitVec.getLsbD_or, BitVec.getLsbD_or,
      left_term v _ 40 48 (by decide) (by decide) j hj, left_term v _ 24 40 (by decide) (by decide) j hj,
      left_term v _ 8 32 (by decide) (by decide) j hj, right_term v _ 8 24 (by decide) j hj, right_term v _ 24 16 (by decide) j hj,
      right_term v _ 40 8 (by decide) j hj, BitVec.getLsbD_shiftLeft, BitVec.getLsbD_ushiftRight]
    by_cases h : j < 56
    · have : ¬ 56 ≤ j := by omega
      simp [h, this]
    · have : 56 ≤ j := by omega
      simp [h, hj, this]
  rw [e]
  have hlast : 1 ≤ i → v.getLsbD (56 + j) = false := fun h => BitVec.getLsbD_of_ge v _ (by omega)
  have D : ∀ lo, lo ≠ i → decide (8 * lo ≤ j ∧ j < 8 * lo + 8) = false := fun lo h => decide_eq_false (by omega)
  have T : decide (8 * i ≤ j ∧ j < 8 * i + 8) = true := decide_eq_true (by omega)
  have Z : i ≠ 7 → decide (56 ≤ j) = false := fun h => decide_eq_false (by omega)
  have d6 := D 6; have d5 := D 5; have d4 := D 4; have d3 := D 3; have d2 := D 2; have d1 := D 1
  obtain rfl | rfl | rfl | rfl | rfl | rfl | rfl | rfl : i = 0 ∨ i = 1 ∨ i = 2 ∨ i = 3 ∨ i = 4 ∨ i = 5 ∨ i = 6 ∨ i = 7 := by omega
  · rw [Z (by decide), d6 (by decide), d5 (by decide), d4 (by decide), d3 (by decide), d2 (by decide), d1 (by decide)]
    simp only [Bool.false_and, Bool.false_or]; congr 1; omega
  · rw [Z (by decide), d6 (by decide), d5 (by decide), d4 (by decide), d3 (by decide), d2 (by decide), hlast (by decide), T]
    simp only [Bool.false_and, Bool.false_or, Bool.true_and, Bool.or_false]; congr 1; omega
  · rw [Z (by decide), d6 (by decide), d5 (by decide), d4 (by decide), d3 (by decide), d1 (by decide), hlast (by decide), T]
    simp only [Bool.false_and, Bool.false_or, Bool.true_and, Bool.or_false]; congr 1; omega
  · rw [Z (by decide), d6 (by decide), d5 (by decide), d4 (by decide), d2 (by decide), d1 (by decide), hlast (by decide), T]
    simp only [Bool.false_and, Bool.false_or, Bool.true_and, Bool.or_false]; congr 1; omega
  · rw [Z (by decide), d6 (by decide), d5 (by decide), d3 (by decide), d2 (by decide), d1 (by decide), hlast (by decide), T]
    simp only [Bool.false_and, Bool.false_or, Bool.true_and, Bool.or_false]; congr 1; omega
  · rw [Z (by decide), d6 (by decide), d4 (by decide), d3 (by decide), d2 (by decide), d1 (by decide), hlast (by decide), T]
    simp only [Bool.false_and, Bool.false_or, Bool.true_and, Bool.or_false]; congr 1; omega
  · rw [Z (by decide), d5 (by decide), d4 (by decide), d3 (by decide), d2 (by decide), d1 (by decide), hlast (by decide), T]
    simp only [Bool.false_and, Bool.false_or, Bool.true_and, Bool.or_false]; congr 1; omega
  · rw [decide_eq_true (show 56 ≤ j by omega), d6 (by decide), d5 (by decide), d4 (by decide), d3 (by decide), d2 (by decide), d1 (by decide), hlast (by decide)]
    simp only [Bool.false_and, Bool.true_and, Bool.or_false]; congr 1; omega

/-- C88. Swapping the bytes of an integral reverses them, and twice is nothing. -/
theorem C88_byteswap (hw : w = 8 ∨ w = 16 ∨ w = 32 ∨ w = 64) (v : BitVec w) :
    leBytes (w / 8) (byteswap v).toNat = beBytes (w / 8) v.toNat ∧ byteswap (byteswap v) = v := by
  have A : ∀ v : BitVec w, leBytes (w / 8) (byteswap v).toNat = beBytes (w / 8) v.toNat := by
    intro v
    unfold byteswap
    rcases hw with rfl | rfl | rfl | rfl
    · simp [beBytes, leBytes]
    · rw [if_pos rfl, BitVec.setWidth_eq, BitVec.setWidth_eq]; exact le_eq_be (swap16_bits v)
    · rw [if_neg (by decide), if_pos rfl, BitVec.setWidth_eq, BitVec.setWidth_eq]; exact le_eq_be (swap32_bits v)
    · rw [if_neg (by decide), if_neg (by decide), if_pos rfl, BitVec.setWidth_eq, BitVec.setWidth_eq]; exact le_eq_be (swap64_bits v)
  refine ⟨A v, ?_⟩
  have hp : 2 ^ w = 256 ^ (w / 8) := by rcases hw with rfl | rfl | rfl | rfl <;> rfl
  apply BitVec.eq_of_toNat_eq
  have := A (byteswap v)
  rw [beBytes, A v, beBytes, List.reverse_reverse] at this
  have h2 := congrArg leNat this
  rw [leNat_leBytes_of_lt (by rw [← hp]; exact BitVec.isLt _), leNat_leBytes_of_lt (by rw [← hp]; exact BitVec.isLt _)] at h2
  exact h2


theorem pow_size (hw : w = 8 ∨ w = 16 ∨ w = 32 ∨ w = 64) : 2 ^ w = 256 ^ (w / 8) := by rcases hw with rfl | rfl | rfl | rfl <;> rfl

theorem toNat_lt (hw : w = 8 ∨ w = 16 ∨ w = 32 ∨ w = 64) (v : BitVec w) : v.toNat < 256 ^ (w / 8) := by rw [← pow_size hw]; exact v.isLt

/-- The swap of the value of bytes is the value of the reversed bytes. -/
theorem byteswap_leNat (hw : w = 8 ∨ w = 16 ∨ w = 32 ∨ w = 64) (d : Bytes) (h : d.length = w / 8) :
    byteswap (BitVec.ofNat w (leNat d)) = BitVec.ofNat w (beNat d) ∧ byteswap (BitVec.ofNat w (beNat d)) = BitVec.ofNat w (leNat d) := by
  have hp := pow_size hw
  have A : ∀ d : Bytes, d.length = w / 8 → byteswap (BitVec.ofNat w (leNat d)) = BitVec.ofNat w (beNat d) := by
    intro d h
    have hlt := leNat_lt d
    rw [h, ← hp] at hlt
    have := (C88_byteswap hw (BitVec.ofNat w (leNat d))).1
    rw [BitVec.toNat_ofNat, Nat.mod_eq_of_lt hlt, beBytes, leBytes_leNat' h] at this
    have h2 := congrArg leNat this
    rw [leNat_leBytes_of_lt (toNat_lt hw _)] at h2
    apply BitVec.eq_of_toNat_eq
    have hb : beNat d < 2 ^ w := by rw [hp, ← h]; exact Der.beNat_lt d
    rw [h2, BitVec.toNat_ofNat, Nat.mod_eq_of_lt hb]
    rfl
  refine ⟨A d h, ?_⟩
  have := A d.reverse (by simpa using h)
  rw [show leNat d.reverse = beNat d by rfl, show beNat d.reverse = leNat d by rw [beNat, List.reverse_reverse]] at this
  exact this

/-- C88. The bytes of an integral in either order: the same at compile time and at run time, and on little and big endian machines. -/
theorem C88_to (hw : w = 8 ∨ w = 16 ∨ w = 32 ∨ w = 64) (constant little : Bool) (v : BitVec w) :
    toBigEndian constant little v = beBytes (w / 8) v.toNat ∧ toLittleEndian constant little v = leBytes (w / 8) v.toNat := by
  unfold toBigEndian toLittleEndian
  cases constant
  · rw [if_neg (by decide), if_neg (by decide)]
    have hs := (C88_byteswap hw v).1
    unfold memory nativeBig nativeLittle
    cases little
    · refine ⟨rfl, ?_⟩
      show beBytes (w / 8) (byteswap v).toNat = _
      rw [beBytes, hs, beBytes, List.reverse_reverse]
    · exact ⟨hs, rfl⟩
  · rw [if_pos rfl, if_pos rfl]
    have := C88_write_at hw 0 (List.replicate (w / 8) 0) (by simp) v
    rw [this.1, this.2]
    unfold overwrite
    simp

/-- C88. The integral of the first `sizeof` bytes of data in either order: the same at compile time and at run time, and on every machine. -/
theorem C88_from (hw : w = 8 ∨ w = 16 ∨ w = 32 ∨ w = 64) (constant little : Bool) (data : Bytes) (h : w / 8 ≤ data.length) :
    fromBigExact constant little w data = BitVec.ofNat w (beNat (data.take (w / 8))) ∧
    fromLittleExact constant little w data = BitVec.ofNat w (leNat (data.take (w / 8))) := by
  unfold fromBigExact fromLittleExact
  cases constant
  · rw [if_neg (by decide), if_neg (by decide)]
    have hl : (data.take (w / 8)).length = w / 8 := by simp; omega
    have hs := byteswap_leNat hw (data.take (w / 8)) hl
    unfold load nativeBig nativeLittle
    cases little
    · exact ⟨rfl, hs.2⟩
    · exact ⟨hs.1, rfl⟩
  · rw [if_pos rfl, if_pos rfl]
    have := C88_read_at hw 0 data (by omega)
    rwa [List.drop_zero] at this

/-- C88. Round trips: an integral read back from its bytes, and bytes written back from their integral, on any pair of machines. -/
theorem C88_roundtrip (hw : w = 8 ∨ w = 16 ∨ w = 32 ∨ w = 64) (c c' l l' : Bool) (v : BitVec w) (rest : Bytes) (d : Bytes) (hd : d.length = w / 8) :
    fromBigExact c l w (toBigEndian c' l' v ++ rest) = v ∧ fromLittleExact c l w (toLittleEndian c' l' v ++ rest) = v ∧
    toBigEndian c l (fromBigExact c' l' w d) = d ∧ toLittleEndian c l (fromLittleExact c' l' w d) = d := by
  have hp := pow_size hw
  have hv := toNat_lt hw v
  rw [(C88_to hw c' l' v).1, (C88_to hw c' l' v).2, (C88_to hw c l _).1, (C88_to hw c l _).2, (C88_from hw c' l' d (by omega)).1,
    (C88_from hw c' l' d (by omega)).2, (C88_from hw c l _ (by simp)).1, (C88_from hw c l _ (by simp)).2]
  refine ⟨?_, ?_, ?_, ?_⟩
  · rw [List.take_left' (by simp), Der.beNat_beBytes hv, BitVec.ofNat_toNat, BitVec.setWidth_eq]
  · rw [List.take_left' (by simp), leNat_leBytes_of_lt hv, BitVec.ofNat_toNat, BitVec.setWidth_eq]
  · have := Der.beNat_lt d
    rw [hd, ← hp] at this
    rw [List.take_of_length_le (by omega), BitVec.toNat_ofNat, Nat.mod_eq_of_lt this, beBytes, beNat,
      leBytes_leNat' (by simpa using hd), List.reverse_reverse]
  · have := leNat_lt d
    rw [hd, ← hp] at this
    rw [List.take_of_length_le (by omega), BitVec.toNat_ofNat, Nat.mod_eq_of_lt this, leBytes_leNat' hd]

/-- C88. Reads of a stream take `sizeof` bytes of it, or what is left; what is missing reads as zero bytes at the end. -/
theorem C88_stream (hw : w = 8 ∨ w = 16 ∨ w = 32 ∨ w = 64) (little : Bool) (stream : Bytes) :
    fromBigStream little w stream = (BitVec.ofNat w (beNat ((stream ++ List.replicate (w / 8) 0).take (w / 8))), stream.drop (w / 8)) ∧
    fromLittleStream little w stream = (BitVec.ofNat w (leNat ((stream ++ List.replicate (w / 8) 0).take (w / 8))), stream.drop (w / 8)) := by
  have e : (stream.take (w / 8) ++ List.replicate (w / 8 - stream.length) 0) = (stream ++ List.replicate (w / 8) 0).take (w / 8) := by
    rw [List.take_append, List.take_replicate]
    congr 2; omega
  have hl : ((stream ++ List.replicate (w / 8) 0).take (w / 8)).length = w / 8 := by simp
  have F := C88_from hw false little _ (Nat.le_of_eq hl.symm)
  rw [List.take_of_length_le (Nat.le_of_eq hl)] at F
  unfold fromBigStream fromLittleStream
  rw [e]
  exact ⟨Prod.ext F.1 rfl, Prod.ext F.2 rfl⟩

/-- C88. The unguarded variable integer read, where the bytes it needs are there: by its first byte; so it reads back what is written, and it
accepts what is not minimal. -/
theorem C88_variable (little : Bool) (d : Bytes) :
    (8 ≤ d.length → unsafeFromVariable little (0xff :: d) = (leNat (d.take 8), d.drop 8)) ∧
    (4 ≤ d.length → unsafeFromVariable little (0xfe :: d) = (leNat (d.take 4), d.drop 4)) ∧
    (2 ≤ d.length → unsafeFromVariable little (0xfd :: d) = (leNat (d.take 2), d.drop 2)) ∧
    (∀ b : UInt8, b.toNat < 0xfd → unsafeFromVariable little (b :: d) = (b.toNat, d)) ∧
    ∀ v < 2 ^ 64, unsafeFromVariable little (writeVariable v ++ d) = (v, d) := by
  have R : ∀ w, (w = 8 ∨ w = 16 ∨ w = 32 ∨ w = 64) → ∀ d : Bytes, w / 8 ≤ d.length → (fromLittleExact false little w d).toNat = leNat (d.take (w / 8)) := by
    intro w hw d h
    rw [(C88_from hw false little d h).2, BitVec.toNat_ofNat, Nat.mod_eq_of_lt]
    have := leNat_lt (d.take (w / 8))
    rw [List.length_take, Nat.min_eq_left h, ← pow_size hw] at this
    exact this
  have A8 : ∀ d : Bytes, 8 ≤ d.length → unsafeFromVariable little (0xff :: d) = (leNat (d.take 8), d.drop 8) := fun d h => by
    have := R 64 (by decide) d h
    unfold unsafeFromVariable
    simp [this]
  have A4 : ∀ d : Bytes, 4 ≤ d.length → unsafeFromVariable little (0xfe :: d) = (leNat (d.take 4), d.drop 4) := fun d h => by
    have := R 32 (by decide) d h
    unfold unsafeFromVariable
    simp [this]
  have A2 : ∀ d : Bytes, 2 ≤ d.length → unsafeFromVariable little (0xfd :: d) = (leNat (d.take 2), d.drop 2) := fun d h => by
    have := R 16 (by decide) d h
    unfold unsafeFromVariable
    simp [this]
  have A1 : ∀ (b : UInt8) (d : Bytes), b.toNat < 0xfd → unsafeFromVariable little (b :: d) = (b.toNat, d) := fun b d h => by
    have h1 : b ≠ 0xff := fun e => by subst e; exact absurd h (by decide)
    have h2 : b ≠ 0xfe := fun e => by subst e; exact absurd h (by decide)
    have h3 : b ≠ 0xfd := fun e => by subst e; exact absurd h (by decide)
    unfold unsafeFromVariable
    simp [h1, h2, h3]
  refine ⟨A8 d, A4 d, A2 d, fun b h => A1 b d h, fun v hv => ?_⟩
  have T : ∀ n, v < 256 ^ n → (leNat ((leBytes n v ++ d).take n), (leBytes n v ++ d).drop n) = (v, d) := fun n hn => by
    rw [List.take_left' (by simp), List.drop_left' (by simp), leNat_leBytes_of_lt hn]
  unfold writeVariable writeLE
  split
  · rename_i h
    have hb : (UInt8.ofNat v).toNat = v := by
      rw [UInt8.toNat_ofNat']; omega
    rw [List.singleton_append, A1 _ _ (by omega), hb]
  · split
    · rw [List.cons_append, A2 _ (by simp)]; exact T 2 (by omega)
    · split
      · rw [List.cons_append, A4 _ (by simp)]; exact T 4 (by omega)
      · rw [List.cons_append, A8 _ (by simp)]; exact T 8 (by omega)

/-- C88. Arrays of words: an array cast from bytes and converted has the words of the bytes in the order named, and an array converted and cast to
bytes has the bytes of its words, on any machine. -/
theorem C88_words (hw : w = 8 ∨ w = 16 ∨ w = 32 ∨ w = 64) (little : Bool) (n : Nat) (data : Bytes) (h : n * (w / 8) ≤ data.length) (words : List (BitVec w)) :
    bigEndians little (loadWords little w n data) = (List.range n).map (fun i => BitVec.ofNat w (beNat ((data.drop (i * (w / 8))).take (w / 8)))) ∧
    littleEndians little (loadWords little w n data) = (List.range n).map (fun i => BitVec.ofNat w (leNat ((data.drop (i * (w / 8))).take (w / 8)))) ∧
    memoryWords little (bigEndians little words) = words.flatMap (fun v => beBytes (w / 8) v.toNat) ∧
    memoryWords little (littleEndians little words) = words.flatMap (fun v => leBytes (w / 8) v.toNat) := by
  have B : ∀ ws : List (BitVec w), bigEndians little ws = ws.map (nativeBig little) := fun ws => by
    unfold bigEndians; cases little
    · have : (nativeBig false : BitVec w → BitVec w) = id := by funext x; rfl
      rw [this]; simp
    · rfl
  have L : ∀ ws : List (BitVec w), littleEndians little ws = ws.map (nativeLittle little) := fun ws => by
    unfold littleEndians; cases little
    · rfl
    · have : (nativeLittle true : BitVec w → BitVec w) = id := by funext x; rfl
      rw [this]; simp
  have W : ∀ n (data : Bytes), loadWords little w n data = (List.range n).map fun i => load little w (data.drop (i * (w / 8))) := by
    intro n
    induction n with
    | zero => intro _; rfl
    | succ n ih =>
      intro data
      rw [loadWords, ih, List.range_succ_eq_map, List.map_cons, List.map_map]
      simp [Nat.succ_mul, Nat.add_comm]
  refine ⟨?_, ?_, ?_, ?_⟩
  · rw [B, W, List.map_map]
    apply List.map_congr_left
    intro i hi
    have hi := List.mem_range.1 hi
    have : (i + 1) * (w / 8) ≤ n * (w / 8) := Nat.mul_le_mul_right _ hi
    rw [Nat.succ_mul] at this
    exact (C88_from hw false little (data.drop (i * (w / 8))) (by simp; omega)).1
  · rw [L, W, List.map_map]
    apply List.map_congr_left
    intro i hi
    have hi := List.mem_range.1 hi
    have : (i + 1) * (w / 8) ≤ n * (w / 8) := Nat.mul_le_mul_right _ hi
    rw [Nat.succ_mul] at this
    exact (C88_from hw false little (data.drop (i * (w / 8))) (by simp; omega)).2
  · rw [B]
    unfold memoryWords
    rw [List.flatMap_map]
    congr 1
    funext v
    exact (C88_to hw false little v).1
  · rw [L]
    unfold memoryWords
    rw [List.flatMap_map]
    congr 1
    funext v
    exact (C88_to hw false little v).2

example : toBigEndian true true 0x01020304#32 = [1, 2, 3, 4] ∧ toLittleEndian false false 0x01020304#32 = [4, 3, 2, 1] ∧
    fromBigEndian 32 [1, 2] = 0x0102#32 ∧ fromBigEndian 16 [1, 2, 3, 4] = 0x0102#16 ∧ fromLittleEndian 16 [1, 2, 3] = 0x0201#16 ∧
    toBigEndianSize 3 true (BitVec.ofInt 16 (-2)) = [255, 255, 254] ∧ toLittleEndianSize 1 false 0x1234#16 = [0x34] ∧
    (fromBigStream true 32 [1, 2]).1 = 0x01020000#32 ∧ unsafeFromVariable true [0xfd, 1, 0, 7] = (1, [7]) := by decide

end Verif.Endian
