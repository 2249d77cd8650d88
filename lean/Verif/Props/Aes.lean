import Verif.Model.Aes
import Verif.Spec.Aes
import Verif.Props.Der
/-!
# C71: AES-256
-/
namespace Verif.Aes
open Verif
open Verif.Spec.Aes (Word schedule rcon xtime mul)

theorem sbox_eq (a : UInt8) : sbox a = Spec.Aes.sbox a :=
  eq_of_beq (Der.byte_forall (p := fun a => sbox a == Spec.Aes.sbox a) (by decide +kernel) a)
theorem sbox_inv (a : UInt8) : sboxInverse (sbox a) = a :=
  eq_of_beq (Der.byte_forall (p := fun a => sboxInverse (sbox a) == a) (by decide +kernel) a)
theorem inv_sbox (a : UInt8) : sbox (sboxInverse a) = a :=
  eq_of_beq (Der.byte_forall (p := fun a => sbox (sboxInverse a) == a) (by decide +kernel) a)
theorem encKey_eq (a : UInt8) : encKey a = xtime a :=
  eq_of_beq (Der.byte_forall (p := fun a => encKey a == xtime a) (by decide +kernel) a)
theorem mul2 (a : UInt8) : mul a 2 = encKey a :=
  eq_of_beq (Der.byte_forall (p := fun a => mul a 2 == encKey a) (by decide +kernel) a)
theorem mul3 (a : UInt8) : mul a 3 = a ^^^ encKey a :=
  eq_of_beq (Der.byte_forall (p := fun a => mul a 3 == a ^^^ encKey a) (by decide +kernel) a)
theorem dec_enc (a : UInt8) : decKey (encKey a) = a :=
  eq_of_beq (Der.byte_forall (p := fun a => decKey (encKey a) == a) (by decide +kernel) a)

/-- The specification's inverse is one. -/
theorem inverse_spec (a : UInt8) (h : a ≠ 0) : mul a (Spec.Aes.inverse a) = 1 := by
  have := Der.byte_forall (p := fun a => (a == 0 || mul a (Spec.Aes.inverse a) == 1) = true) (by decide +kernel) a
  simpa [h] using this

/-! ## Linearity -/

theorem shl_xor (a b : UInt8) : (a ^^^ b) <<< 1 = a <<< 1 ^^^ b <<< 1 := by
  apply UInt8.toBitVec_inj.mp
  simp [BitVec.shiftLeft_xor_distrib]

theorem enc_xor (a b : UInt8) : encKey (a ^^^ b) = encKey a ^^^ encKey b := by
  have key : ∀ x : UInt8, x &&& 0x80 = 0 ∨ x &&& 0x80 = 0x80 := fun x =>
    Der.byte_forall (p := fun x => x &&& 0x80 = 0 ∨ x &&& 0x80 = 0x80) (by decide +kernel) x
  have h : (a ^^^ b) &&& 0x80 = (a &&& 0x80) ^^^ (b &&& 0x80) := by
    apply UInt8.toBitVec_inj.mp
    ext i
    simp [Bool.and_xor_distrib_right]
  unfold encKey
  rw [h, shl_xor]
  rcases key a with ha | ha <;> rcases key b with hb | hb <;> rw [ha, hb]
  · simp
  · simp [UInt8.xor_assoc]
  · simp
    ac_rfl
  · have : (0x80 : UInt8) ^^^ 0x80 = 0 := rfl
    rw [this]
    simp only [ne_eq, not_true_eq_false, if_false, UInt8.xor_zero]
    rw [if_pos (by decide)]
    have : ∀ x y z : UInt8, x ^^^ z ^^^ (y ^^^ z) = x ^^^ y ^^^ (z ^^^ z) := fun x y z => by ac_rfl
    rw [this, UInt8.xor_self, UInt8.xor_zero]

theorem enc_zero : encKey 0 = 0 := by decide

theorem xor_left (a b c : UInt8) : a ^^^ (b ^^^ c) = b ^^^ (a ^^^ c) := by ac_rfl

theorem xor_cancel (a b : UInt8) : a ^^^ (a ^^^ b) = b := by
  rw [← UInt8.xor_assoc, UInt8.xor_self, UInt8.zero_xor]

/-! ## Blocks -/

theorem block {p : Bytes → Prop} (h : ∀ x0 x1 x2 x3 x4 x5 x6 x7 x8 x9 x10 x11 x12 x13 x14 x15 : UInt8, p [x0, x1, x2, x3, x4, x5, x6, x7, x8, x9, x10, x11, x12, x13, x14, x15]) (s : Bytes) (hs : s.length = 16) : p s := by
  match s, hs with
  | [x0, x1, x2, x3, x4, x5, x6, x7, x8, x9, x10, x11, x12, x13, x14, x15], _ => exact h ..

theorem shiftRows_eq (s : Bytes) (hs : s.length = 16) : shiftRows s = Spec.Aes.shiftRows s := by
  revert s; intro s hs; revert hs
  refine fun hs => block (p := fun s => shiftRows s = Spec.Aes.shiftRows s) ?_ s hs
  intros
  simp only [shiftRows, at_, put, List.set_cons_succ, List.set_cons_zero, List.getD_cons_succ, List.getD_cons_zero]
  rfl

theorem shift_inv (s : Bytes) (hs : s.length = 16) : shiftRowsInverse (shiftRows s) = s := by
  refine block (p := fun s => shiftRowsInverse (shiftRows s) = s) ?_ s hs
  intros
  simp only [shiftRows, shiftRowsInverse, at_, put, List.set_cons_succ, List.set_cons_zero, List.getD_cons_succ, List.getD_cons_zero]

theorem inv_shift (s : Bytes) (hs : s.length = 16) : shiftRows (shiftRowsInverse s) = s := by
  refine block (p := fun s => shiftRows (shiftRowsInverse s) = s) ?_ s hs
  intros
  simp only [shiftRows, shiftRowsInverse, at_, put, List.set_cons_succ, List.set_cons_zero, List.getD_cons_succ, List.getD_cons_zero]

/-- One byte of a mixed column: `e` is the sum of the column, `a` the byte and `b` the next one. -/
def col (e a b : UInt8) : UInt8 := a ^^^ (e ^^^ encKey (a ^^^ b))
/-- One byte of an unmixed column: `p` and `q` are the byte and the one two below, in the order of the column. -/
def colInverse (e p q a b : UInt8) : UInt8 := a ^^^ (e ^^^ encKey (encKey (encKey e ^^^ p ^^^ q)) ^^^ encKey (a ^^^ b))

theorem col_eq (a b c d e : UInt8) (he : e = a ^^^ (b ^^^ (c ^^^ d))) : col e a b = mul a 2 ^^^ mul b 3 ^^^ c ^^^ d := by
  rw [mul2, mul3, col, enc_xor, he]
  simp only [UInt8.xor_assoc, xor_cancel]
  ac_rfl

theorem mix_list (x0 x1 x2 x3 x4 x5 x6 x7 x8 x9 x10 x11 x12 x13 x14 x15 : UInt8) : mixColumns [x0, x1, x2, x3, x4, x5, x6, x7, x8, x9, x10, x11, x12, x13, x14, x15] =
    [col (x0 ^^^ x1 ^^^ x2 ^^^ x3) x0 x1, col (x0 ^^^ x1 ^^^ x2 ^^^ x3) x1 x2, col (x0 ^^^ x1 ^^^ x2 ^^^ x3) x2 x3, col (x0 ^^^ x1 ^^^ x2 ^^^ x3) x3 x0, col (x4 ^^^ x5 ^^^ x6 ^^^ x7) x4 x5, col (x4 ^^^ x5 ^^^ x6 ^^^ x7) x5 x6, col (x4 ^^^ x5 ^^^ x6 ^^^ x7) x6 x7, col (x4 ^^^ x5 ^^^ x6 ^^^ x7) x7 x4, col (x8 ^^^ x9 ^^^ x10 ^^^ x11) x8 x9, col (x8 ^^^ x9 ^^^ x10 ^^^ x11) x9 x10, col (x8 ^^^ x9 ^^^ x10 ^^^ x11) x10 x11, col (x8 ^^^ x9 ^^^ x10 ^^^ x11) x11 x8, col (x12 ^^^ x13 ^^^ x14 ^^^ x15) x12 x13, col (x12 ^^^ x13 ^^^ x14 ^^^ x15) x13 x14, col (x12 ^^^ x13 ^^^ x14 ^^^ x15) x14 x15, col (x12 ^^^ x13 ^^^ x14 ^^^ x15) x15 x12] := by
  simp only [mixColumns, mixColumn, List.foldl_cons, List.foldl_nil, at_, flip, Nat.reduceAdd, List.set_cons_succ, List.set_cons_zero,
    List.getD_cons_succ, List.getD_cons_zero, col]

theorem unmix_list (x0 x1 x2 x3 x4 x5 x6 x7 x8 x9 x10 x11 x12 x13 x14 x15 : UInt8) : mixColumnsInverse [x0, x1, x2, x3, x4, x5, x6, x7, x8, x9, x10, x11, x12, x13, x14, x15] =
    [colInverse (x0 ^^^ x1 ^^^ x2 ^^^ x3) x0 x2 x0 x1, colInverse (x0 ^^^ x1 ^^^ x2 ^^^ x3) x1 x3 x1 x2, colInverse (x0 ^^^ x1 ^^^ x2 ^^^ x3) x0 x2 x2 x3, colInverse (x0 ^^^ x1 ^^^ x2 ^^^ x3) x1 x3 x3 x0, colInverse (x4 ^^^ x5 ^^^ x6 ^^^ x7) x4 x6 x4 x5, colInverse (x4 ^^^ x5 ^^^ x6 ^^^ x7) x5 x7 x5 x6, colInverse (x4 ^^^ x5 ^^^ x6 ^^^ x7) x4 x6 x6 x7, colInverse (x4 ^^^ x5 ^^^ x6 ^^^ x7) x5 x7 x7 x4, colInverse (x8 ^^^ x9 ^^^ x10 ^^^ x11) x8 x10 x8 x9, colInverse (x8 ^^^ x9 ^^^ x10 ^^^ x11) x9 x11 x9 x10, colInverse (x8 ^^^ x9 ^^^ x10 ^^^ x11) x8 x10 x10 x11, colInverse (x8 ^^^ x9 ^^^ x10 ^^^ x11) x9 x11 x11 x8, colInverse (x12 ^^^ x13 ^^^ x14 ^^^ x15) x12 x14 x12 x13, colInverse (x12 ^^^ x13 ^^^ x14 ^^^ x15) x13 x15 x13 x14, colInverse (x12 ^^^ x13 ^^^ x14 ^^^ x15) x12 x14 x14 x15, colInverse (x12 ^^^ x13 ^^^ x14 ^^^ x15) x13 x15 x15 x12] := by
  simp only [mixColumnsInverse, mixColumnInverse, List.foldl_cons, List.foldl_nil, at_, flip, Nat.reduceAdd, List.set_cons_succ,
    List.set_cons_zero, List.getD_cons_succ, List.getD_cons_zero, colInverse]

/-- The sum of a mixed column is the sum of the column. -/
theorem col_sum (a b c d e : UInt8) (he : e = a ^^^ b ^^^ c ^^^ d) : col e a b ^^^ col e b c ^^^ col e c d ^^^ col e d a = e := by
  simp only [col, enc_xor, UInt8.xor_assoc]
  generalize encKey a = A, encKey b = B, encKey c = C, encKey d = D
  rw [UInt8.xor_assoc, UInt8.xor_assoc] at he
  rw [he]
  simp only [UInt8.xor_comm, xor_left, UInt8.xor_assoc, xor_cancel, UInt8.xor_self, UInt8.xor_zero]

theorem colInverse_sum (a b c d e : UInt8) (he : e = a ^^^ b ^^^ c ^^^ d) :
    colInverse e a c a b ^^^ colInverse e b d b c ^^^ colInverse e a c c d ^^^ colInverse e b d d a = e := by
  simp only [colInverse, enc_xor, UInt8.xor_assoc]
  generalize encKey (encKey (encKey e)) = E, encKey (encKey a) = AA, encKey (encKey b) = BB, encKey (encKey c) = CC,
    encKey (encKey d) = DD, encKey a = A, encKey b = B, encKey c = C, encKey d = D
  rw [UInt8.xor_assoc, UInt8.xor_assoc] at he
  rw [he]
  simp only [UInt8.xor_comm, xor_left, UInt8.xor_assoc, xor_cancel, UInt8.xor_self, UInt8.xor_zero]

/-- Unmixing undoes mixing on one byte. -/
theorem col_inv (a b c d e : UInt8) (he : e = a ^^^ (b ^^^ (c ^^^ d))) : colInverse e (col e a b) (col e c d) (col e a b) (col e b c) = a := by
  simp only [colInverse, col, enc_xor, UInt8.xor_assoc]
  subst he
  simp only [enc_xor]
  generalize encKey (encKey (encKey a)) = AAA, encKey (encKey (encKey b)) = BBB, encKey (encKey (encKey c)) = CCC,
    encKey (encKey (encKey d)) = DDD, encKey (encKey a) = AA, encKey (encKey b) = BB, encKey (encKey c) = CC,
    encKey (encKey d) = DD, encKey a = A, encKey b = B, encKey c = C, encKey d = D
  simp only [UInt8.xor_comm, xor_left, UInt8.xor_assoc, xor_cancel, UInt8.xor_self, UInt8.xor_zero]

/-- Mixing undoes unmixing on one byte. -/
theorem inv_col (a b c d e : UInt8) (he : e = a ^^^ (b ^^^ (c ^^^ d))) : col e (colInverse e a c a b) (colInverse e b d b c) = a := by
  simp only [colInverse, col, enc_xor, UInt8.xor_assoc]
  subst he
  simp only [enc_xor]
  generalize encKey (encKey (encKey (encKey a))) = AAAA, encKey (encKey (encKey (encKey b))) = BBBB,
    encKey (encKey (encKey (encKey c))) = CCCC, encKey (encKey (encKey (encKey d))) = DDDD,
    encKey (encKey (encKey a)) = AAA, encKey (encKey (encKey b)) = BBB, encKey (encKey (encKey c)) = CCC,
    encKey (encKey (encKey d)) = DDD, encKey (encKey a) = AA, encKey (encKey b) = BB, encKey (encKey c) = CC,
    encKey (encKey d) = DD, encKey a = A, encKey b = B, encKey c = C, encKey d = D
  simp only [UInt8.xor_comm, xor_left, UInt8.xor_assoc, xor_cancel, UInt8.xor_self, UInt8.xor_zero]

theorem colInverse_comm (e p q a b : UInt8) : colInverse e p q a b = colInverse e q p a b := by
  unfold colInverse
  rw [show encKey e ^^^ p ^^^ q = encKey e ^^^ q ^^^ p by ac_rfl]

theorem mix_inv (s : Bytes) (hs : s.length = 16) : mixColumnsInverse (mixColumns s) = s := by
  refine block (p := fun s => mixColumnsInverse (mixColumns s) = s) ?_ s hs
  intro x0 x1 x2 x3 x4 x5 x6 x7 x8 x9 x10 x11 x12 x13 x14 x15
  rw [mix_list, unmix_list]
  simp only [col_sum _ _ _ _ _ rfl, List.cons.injEq, and_true]
  exact ⟨col_inv x0 x1 x2 x3 _ (by ac_rfl), col_inv x1 x2 x3 x0 _ (by ac_rfl), (colInverse_comm ..).trans (col_inv x2 x3 x0 x1 _ (by ac_rfl)), (colInverse_comm ..).trans (col_inv x3 x0 x1 x2 _ (by ac_rfl)), col_inv x4 x5 x6 x7 _ (by ac_rfl), col_inv x5 x6 x7 x4 _ (by ac_rfl), (colInverse_comm ..).trans (col_inv x6 x7 x4 x5 _ (by ac_rfl)), (colInverse_comm ..).trans (col_inv x7 x4 x5 x6 _ (by ac_rfl)), col_inv x8 x9 x10 x11 _ (by ac_rfl), col_inv x9 x10 x11 x8 _ (by ac_rfl), (colInverse_comm ..).trans (col_inv x10 x11 x8 x9 _ (by ac_rfl)), (colInverse_comm ..).trans (col_inv x11 x8 x9 x10 _ (by ac_rfl)), col_inv x12 x13 x14 x15 _ (by ac_rfl), col_inv x13 x14 x15 x12 _ (by ac_rfl), (colInverse_comm ..).trans (col_inv x14 x15 x12 x13 _ (by ac_rfl)), (colInverse_comm ..).trans (col_inv x15 x12 x13 x14 _ (by ac_rfl))⟩

theorem inv_mix (s : Bytes) (hs : s.length = 16) : mixColumns (mixColumnsInverse s) = s := by
  refine block (p := fun s => mixColumns (mixColumnsInverse s) = s) ?_ s hs
  intro x0 x1 x2 x3 x4 x5 x6 x7 x8 x9 x10 x11 x12 x13 x14 x15
  rw [unmix_list, mix_list]
  simp only [colInverse_sum _ _ _ _ _ rfl, List.cons.injEq, and_true]
  refine ⟨?_, ?_, ?_, ?_, ?_, ?_, ?_, ?_, ?_, ?_, ?_, ?_, ?_, ?_, ?_, ?_⟩
  · exact inv_col x0 x1 x2 x3 _ (by ac_rfl)
  · rw [colInverse_comm _ x0 x2 x2]; exact inv_col x1 x2 x3 x0 _ (by ac_rfl)
  · rw [colInverse_comm _ x0 x2 x2, colInverse_comm _ x1 x3 x3]; exact inv_col x2 x3 x0 x1 _ (by ac_rfl)
  · rw [colInverse_comm _ x1 x3 x3]; exact inv_col x3 x0 x1 x2 _ (by ac_rfl)
  · exact inv_col x4 x5 x6 x7 _ (by ac_rfl)
  · rw [colInverse_comm _ x4 x6 x6]; exact inv_col x5 x6 x7 x4 _ (by ac_rfl)
  · rw [colInverse_comm _ x4 x6 x6, colInverse_comm _ x5 x7 x7]; exact inv_col x6 x7 x4 x5 _ (by ac_rfl)
  · rw [colInverse_comm _ x5 x7 x7]; exact inv_col x7 x4 x5 x6 _ (by ac_rfl)
  · exact inv_col x8 x9 x10 x11 _ (by ac_rfl)
  · rw [colInverse_comm _ x8 x10 x10]; exact inv_col x9 x10 x11 x8 _ (by ac_rfl)
  · rw [colInverse_comm _ x8 x10 x10, colInverse_comm _ x9 x11 x11]; exact inv_col x10 x11 x8 x9 _ (by ac_rfl)
  · rw [colInverse_comm _ x9 x11 x11]; exact inv_col x11 x8 x9 x10 _ (by ac_rfl)
  · exact inv_col x12 x13 x14 x15 _ (by ac_rfl)
  · rw [colInverse_comm _ x12 x14 x14]; exact inv_col x13 x14 x15 x12 _ (by ac_rfl)
  · rw [colInverse_comm _ x12 x14 x14, colInverse_comm _ x13 x15 x15]; exact inv_col x14 x15 x12 x13 _ (by ac_rfl)
  · rw [colInverse_comm _ x13 x15 x15]; exact inv_col x15 x12 x13 x14 _ (by ac_rfl)

theorem mixColumns_eq (s : Bytes) (hs : s.length = 16) : mixColumns s = Spec.Aes.mixColumns s := by
  refine block (p := fun s => mixColumns s = Spec.Aes.mixColumns s) ?_ s hs
  intro x0 x1 x2 x3 x4 x5 x6 x7 x8 x9 x10 x11 x12 x13 x14 x15
  rw [mix_list]
  have hr : List.range 16 = [0, 1, 2, 3, 4, 5, 6, 7, 8, 9, 10, 11, 12, 13, 14, 15] := by decide
  simp only [Spec.Aes.mixColumns, hr, List.map_cons, List.map_nil, Nat.reduceAdd, Nat.reduceMod, Nat.reduceDiv, Nat.reduceMul,
    List.getD_cons_succ, List.getD_cons_zero, Nat.zero_mod, Nat.zero_div, Nat.mul_zero, Nat.zero_add, Nat.add_zero]
  simp only [List.cons.injEq, and_true]
  exact ⟨col_eq x0 x1 x2 x3 _ (by ac_rfl), col_eq x1 x2 x3 x0 _ (by ac_rfl), col_eq x2 x3 x0 x1 _ (by ac_rfl), col_eq x3 x0 x1 x2 _ (by ac_rfl), col_eq x4 x5 x6 x7 _ (by ac_rfl), col_eq x5 x6 x7 x4 _ (by ac_rfl), col_eq x6 x7 x4 x5 _ (by ac_rfl), col_eq x7 x4 x5 x6 _ (by ac_rfl), col_eq x8 x9 x10 x11 _ (by ac_rfl), col_eq x9 x10 x11 x8 _ (by ac_rfl), col_eq x10 x11 x8 x9 _ (by ac_rfl), col_eq x11 x8 x9 x10 _ (by ac_rfl), col_eq x12 x13 x14 x15 _ (by ac_rfl), col_eq x13 x14 x15 x12 _ (by ac_rfl), col_eq x14 x15 x12 x13 _ (by ac_rfl), col_eq x15 x12 x13 x14 _ (by ac_rfl)⟩

theorem subBytes_eq (s : Bytes) : subBytes s = Spec.Aes.subBytes s := by
  unfold subBytes Spec.Aes.subBytes
  exact List.map_congr_left fun a _ => sbox_eq a

theorem sub_inv (s : Bytes) : subBytesInverse (subBytes s) = s := by
  unfold subBytes subBytesInverse
  rw [List.map_map]
  exact (List.map_congr_left fun a _ => sbox_inv a).trans (List.map_id' s)

theorem inv_sub (s : Bytes) : subBytes (subBytesInverse s) = s := by
  unfold subBytes subBytesInverse
  rw [List.map_map]
  exact (List.map_congr_left fun a _ => inv_sbox a).trans (List.map_id' s)

theorem addLower_length (s k : Bytes) : (addLower s k).length = 16 := by simp [addLower]
theorem addUpper_length (s k : Bytes) : (addUpper s k).length = 16 := by simp [addUpper]
theorem subBytes_length (s : Bytes) : (subBytes s).length = s.length := by simp [subBytes]
theorem subInv_length (s : Bytes) : (subBytesInverse s).length = s.length := by simp [subBytesInverse]
theorem shift_length (s : Bytes) : (shiftRows s).length = s.length := by simp [shiftRows, put]
theorem shiftInv_length (s : Bytes) : (shiftRowsInverse s).length = s.length := by simp [shiftRowsInverse, put]
theorem mix_length (s : Bytes) : (mixColumns s).length = s.length := by simp [mixColumns, mixColumn, flip]
theorem mixInv_length (s : Bytes) : (mixColumnsInverse s).length = s.length := by simp [mixColumnsInverse, mixColumnInverse, flip]

theorem lower_twice (s k : Bytes) (hs : s.length = 16) : addLower (addLower s k) k = s := by
  apply List.ext_getElem (by simp [addLower, hs])
  intro i h1 h2
  simp only [addLower, List.length_map, List.length_range] at h1
  simp only [addLower, List.getElem_map, List.getElem_range, at_, List.getD_eq_getElem?_getD]
  rw [List.getElem?_eq_getElem (by simpa using h1)]
  simp only [List.getElem_map, List.getElem_range, Option.getD_some, List.getElem?_eq_getElem h2]
  rw [UInt8.xor_assoc, UInt8.xor_self, UInt8.xor_zero]

theorem upper_twice (s k : Bytes) (hs : s.length = 16) : addUpper (addUpper s k) k = s := by
  apply List.ext_getElem (by simp [addUpper, hs])
  intro i h1 h2
  simp only [addUpper, List.length_map, List.length_range] at h1
  simp only [addUpper, List.getElem_map, List.getElem_range, at_, List.getD_eq_getElem?_getD]
  rw [List.getElem?_eq_getElem (by simpa using h1)]
  simp only [List.getElem_map, List.getElem_range, Option.getD_some, List.getElem?_eq_getElem h2]
  rw [UInt8.xor_assoc, UInt8.xor_self, UInt8.xor_zero]

/-! ## Keys -/

/-- Eight words. -/
def words (w0 w1 w2 w3 w4 w5 w6 w7 : Word) : Bytes := w0.bytes ++ w1.bytes ++ w2.bytes ++ w3.bytes ++ w4.bytes ++ w5.bytes ++ w6.bytes ++ w7.bytes

theorem words_list (w0 w1 w2 w3 w4 w5 w6 w7 : Word) : words w0 w1 w2 w3 w4 w5 w6 w7 = [w0.a, w0.b, w0.c, w0.d, w1.a, w1.b, w1.c, w1.d, w2.a, w2.b, w2.c, w2.d, w3.a, w3.b, w3.c, w3.d, w4.a, w4.b, w4.c, w4.d, w5.a, w5.b, w5.c, w5.d, w6.a, w6.b, w6.c, w6.d, w7.a, w7.b, w7.c, w7.d] := rfl

theorem expand_words (w0 w1 w2 w3 w4 w5 w6 w7 : Word) (r : UInt8) :
    let v0 := w0.xor (w7.rot.sub.xor ⟨r, 0, 0, 0⟩)
    let v1 := w1.xor v0
    let v2 := w2.xor v1
    let v3 := w3.xor v2
    let v4 := w4.xor v3.sub
    let v5 := w5.xor v4
    let v6 := w6.xor v5
    let v7 := w7.xor v6
    expandKey (words w0 w1 w2 w3 w4 w5 w6 w7, r) = (words v0 v1 v2 v3 v4 v5 v6 v7, encKey r) := by
  simp only [words_list, expandKey, first, middle, chain, flip, at_, List.foldl_cons, List.foldl_nil, List.set_cons_succ, List.set_cons_zero,
    List.getD_cons_succ, List.getD_cons_zero, Nat.reduceAdd, Nat.reduceSub, sbox_eq, Word.xor, Word.rot, Word.sub, UInt8.xor_zero]

theorem key32 {p : Bytes → Prop} (h : ∀ k0 k1 k2 k3 k4 k5 k6 k7 k8 k9 k10 k11 k12 k13 k14 k15 k16 k17 k18 k19 k20 k21 k22 k23 k24 k25 k26 k27 k28 k29 k30 k31 : UInt8, p [k0, k1, k2, k3, k4, k5, k6, k7, k8, k9, k10, k11, k12, k13, k14, k15, k16, k17, k18, k19, k20, k21, k22, k23, k24, k25, k26, k27, k28, k29, k30, k31]) (s : Bytes) (hs : s.length = 32) : p s := by
  match s, hs with
  | [k0, k1, k2, k3, k4, k5, k6, k7, k8, k9, k10, k11, k12, k13, k14, k15, k16, k17, k18, k19, k20, k21, k22, k23, k24, k25, k26, k27, k28, k29, k30, k31], _ => exact h ..

theorem chain_length (k : Bytes) (i : Nat) : (chain k i).length = k.length := by simp [chain, flip]
theorem expand_length (k : Bytes × UInt8) : (expandKey k).1.length = k.1.length := by
  simp [expandKey, first, middle, chain, flip]

theorem expand_inv (k : Bytes × UInt8) (hk : k.1.length = 32) : expandKeyInverse (expandKey k) = k := by
  obtain ⟨k, r⟩ := k
  refine key32 (p := fun k => expandKeyInverse (expandKey (k, r)) = (k, r)) ?_ k hk
  intros
  simp only [expandKey, expandKeyInverse, first, middle, chain, flip, at_, List.foldl_cons, List.foldl_nil, List.set_cons_succ, List.set_cons_zero,
    List.getD_cons_succ, List.getD_cons_zero, Nat.reduceAdd, Nat.reduceSub, dec_enc, UInt8.xor_assoc, UInt8.xor_self, UInt8.xor_zero]

/-- The key and the round constant after `j` expansions. -/
def keys (key : Bytes) : Nat → Bytes × UInt8
  | 0 => (key, 1)
  | j + 1 => expandKey (keys key j)

theorem keys_length (key : Bytes) (hk : key.length = 32) : ∀ j, (keys key j).1.length = 32
  | 0 => hk
  | j + 1 => by rw [keys, expand_length]; exact keys_length key hk j

theorem keys_back (key : Bytes) (hk : key.length = 32) (j : Nat) : expandKeyInverse (keys key (j + 1)) = keys key j :=
  expand_inv _ (keys_length key hk j)

theorem schedule_low (key : Bytes) (i : Nat) (h : i < 8) :
    schedule key i = ⟨key.getD (4 * i) 0, key.getD (4 * i + 1) 0, key.getD (4 * i + 2) 0, key.getD (4 * i + 3) 0⟩ := by
  rw [schedule, dif_pos h]

theorem schedule_first (key : Bytes) (j : Nat) : schedule key (8 * (j + 1)) =
    (schedule key (8 * j)).xor ((schedule key (8 * j + 7)).rot.sub.xor (rcon (j + 1))) := by
  rw [schedule, dif_neg (by omega)]
  simp only [show 8 * (j + 1) % 8 = 0 by omega, if_true, show 8 * (j + 1) / 8 = j + 1 by omega, show 8 * (j + 1) - 1 = 8 * j + 7 by omega,
    show 8 * (j + 1) - 8 = 8 * j by omega]

theorem schedule_middle (key : Bytes) (j : Nat) : schedule key (8 * (j + 1) + 4) =
    (schedule key (8 * j + 4)).xor (schedule key (8 * (j + 1) + 3)).sub := by
  rw [schedule, dif_neg (by omega)]
  simp only [show (8 * (j + 1) + 4) % 8 = 4 by omega, if_true, show 8 * (j + 1) + 4 - 1 = 8 * (j + 1) + 3 by omega,
    show 8 * (j + 1) + 4 - 8 = 8 * j + 4 by omega, show (4 : Nat) ≠ 0 by omega, if_false]

theorem schedule_other (key : Bytes) (j c d : Nat) (hc : c = d + 1) (h8 : c < 8) (h4 : c ≠ 4) : schedule key (8 * (j + 1) + c) =
    (schedule key (8 * j + c)).xor (schedule key (8 * (j + 1) + d)) := by
  rw [schedule, dif_neg (by omega)]
  simp only [show ¬ (8 * (j + 1) + c) % 8 = 0 by omega, show ¬ (8 * (j + 1) + c) % 8 = 4 by omega, if_false,
    show 8 * (j + 1) + c - 1 = 8 * (j + 1) + d by omega, show 8 * (j + 1) + c - 8 = 8 * j + c by omega]

theorem rcon_succ (j : Nat) : rcon (j + 1 + 1) = ⟨encKey (rcon (j + 1)).a, 0, 0, 0⟩ := by
  simp only [rcon, Nat.add_sub_cancel, List.range_succ, List.foldl_append, List.foldl_cons, List.foldl_nil, encKey_eq]

theorem keys_eq (key : Bytes) (hk : key.length = 32) : ∀ j, keys key j =
    (words (schedule key (8 * j)) (schedule key (8 * j + 1)) (schedule key (8 * j + 2)) (schedule key (8 * j + 3))
      (schedule key (8 * j + 4)) (schedule key (8 * j + 5)) (schedule key (8 * j + 6)) (schedule key (8 * j + 7)), (rcon (j + 1)).a)
  | 0 => by
    simp only [keys, Nat.mul_zero, Nat.zero_add]
    refine key32 (p := fun key => (key, (1 : UInt8)) = (words (schedule key 0) (schedule key 1) (schedule key 2) (schedule key 3)
      (schedule key 4) (schedule key 5) (schedule key 6) (schedule key 7), (rcon 1).a)) ?_ key hk
    intros
    rw [schedule_low _ 0 (by decide), schedule_low _ 1 (by decide), schedule_low _ 2 (by decide), schedule_low _ 3 (by decide),
      schedule_low _ 4 (by decide), schedule_low _ 5 (by decide), schedule_low _ 6 (by decide), schedule_low _ 7 (by decide)]
    rfl
  | j + 1 => by
    have h : (⟨(rcon (j + 1)).a, 0, 0, 0⟩ : Word) = rcon (j + 1) := rfl
    have o1 : schedule key (8 * (j + 1) + 1) = (schedule key (8 * j + 1)).xor (schedule key (8 * (j + 1))) :=
      schedule_other key j 1 0 rfl (by decide) (by decide)
    rw [keys, keys_eq key hk j, expand_words]
    simp only [h]
    rw [← schedule_first, ← o1, ← schedule_other key j 2 1 rfl (by decide) (by decide),
      ← schedule_other key j 3 2 rfl (by decide) (by decide), ← schedule_middle, ← schedule_other key j 5 4 rfl (by decide) (by decide),
      ← schedule_other key j 6 5 rfl (by decide) (by decide), ← schedule_other key j 7 6 rfl (by decide) (by decide), rcon_succ]

/-! ## Rounds -/

theorem flat4 (f : Nat → Bytes) : (List.range 4).flatMap f = f 0 ++ (f 1 ++ (f 2 ++ (f 3 ++ []))) := rfl

theorem lower_words (s : Bytes) (hs : s.length = 16) (w0 w1 w2 w3 w4 w5 w6 w7 : Word) :
    addLower s (words w0 w1 w2 w3 w4 w5 w6 w7) = List.zipWith (· ^^^ ·) s (w0.bytes ++ (w1.bytes ++ (w2.bytes ++ (w3.bytes ++ [])))) := by
  refine block (p := fun s => addLower s (words w0 w1 w2 w3 w4 w5 w6 w7) = List.zipWith (· ^^^ ·) s (w0.bytes ++ (w1.bytes ++ (w2.bytes ++ (w3.bytes ++ []))))) ?_ s hs
  intros
  rfl

theorem upper_words (s : Bytes) (hs : s.length = 16) (w0 w1 w2 w3 w4 w5 w6 w7 : Word) :
    addUpper s (words w0 w1 w2 w3 w4 w5 w6 w7) = List.zipWith (· ^^^ ·) s (w4.bytes ++ (w5.bytes ++ (w6.bytes ++ (w7.bytes ++ [])))) := by
  refine block (p := fun s => addUpper s (words w0 w1 w2 w3 w4 w5 w6 w7) = List.zipWith (· ^^^ ·) s (w4.bytes ++ (w5.bytes ++ (w6.bytes ++ (w7.bytes ++ []))))) ?_ s hs
  intros
  rfl

theorem lower_eq (key s : Bytes) (hk : key.length = 32) (hs : s.length = 16) (j n : Nat) (hn : n = 2 * j) :
    addLower s (keys key j).1 = Spec.Aes.addRoundKey key n s := by
  subst hn
  rw [keys_eq key hk, lower_words s hs, Spec.Aes.addRoundKey, flat4]
  simp only [show 4 * (2 * j) = 8 * j by omega, Nat.add_zero]

theorem upper_eq (key s : Bytes) (hk : key.length = 32) (hs : s.length = 16) (j n : Nat) (hn : n = 2 * j + 1) :
    addUpper s (keys key j).1 = Spec.Aes.addRoundKey key n s := by
  subst hn
  rw [keys_eq key hk, upper_words s hs, Spec.Aes.addRoundKey, flat4]
  simp only [show 4 * (2 * j + 1) = 8 * j + 4 by omega, Nat.add_zero, Nat.add_assoc, Nat.reduceAdd]

/-- The round key of index `n` in the model. -/
def add (key : Bytes) (n : Nat) (s : Bytes) : Bytes := if n % 2 = 0 then addLower s (keys key (n / 2)).1 else addUpper s (keys key (n / 2)).1

theorem add_length (key : Bytes) (n : Nat) (s : Bytes) : (add key n s).length = 16 := by
  unfold add
  split <;> simp [addLower, addUpper]

theorem add_twice (key : Bytes) (n : Nat) (s : Bytes) (hs : s.length = 16) : add key n (add key n s) = s := by
  unfold add
  split
  · exact lower_twice _ _ hs
  · exact upper_twice _ _ hs

theorem add_eq (key : Bytes) (hk : key.length = 32) (n : Nat) (s : Bytes) (hs : s.length = 16) : add key n s = Spec.Aes.addRoundKey key n s := by
  unfold add
  split
  · exact lower_eq key s hk hs _ n (by omega)
  · exact upper_eq key s hk hs _ n (by omega)

/-- A round of encryption and of decryption, with round keys by index. -/
def forth (key : Bytes) (n : Nat) (s : Bytes) : Bytes := add key (n + 1) (mixColumns (shiftRows (subBytes s)))
def back (key : Bytes) (n : Nat) (s : Bytes) : Bytes := subBytesInverse (shiftRowsInverse (mixColumnsInverse (add key (n + 1) s)))

theorem forth_length (key : Bytes) (n : Nat) (s : Bytes) : (forth key n s).length = 16 := add_length ..
theorem back_length (key : Bytes) (n : Nat) (s : Bytes) : (back key n s).length = 16 := by
  rw [back, subInv_length, shiftInv_length, mixInv_length, add_length]

theorem back_forth (key : Bytes) (n : Nat) (s : Bytes) (hs : s.length = 16) : back key n (forth key n s) = s := by
  have h1 : (subBytes s).length = 16 := by rw [subBytes_length, hs]
  have h2 : (shiftRows (subBytes s)).length = 16 := by rw [shift_length, h1]
  rw [back, forth, add_twice _ _ _ (by rw [mix_length, h2]), mix_inv _ h2, shift_inv _ h1, sub_inv]

theorem forth_back (key : Bytes) (n : Nat) (s : Bytes) (hs : s.length = 16) : forth key n (back key n s) = s := by
  have h1 := add_length key (n + 1) s
  have h2 : (mixColumnsInverse (add key (n + 1) s)).length = 16 := by rw [mixInv_length, h1]
  rw [back, forth, inv_sub, inv_shift _ h2, inv_mix _ h1, add_twice _ _ _ hs]

theorem encryptRound_eq (key s : Bytes) (n : Nat) : encryptRound (s, keys key (n / 2)) n = (forth key n s, keys key ((n + 1) / 2)) := by
  unfold encryptRound forth add
  by_cases h : n % 2 = 0
  · rw [if_pos h, if_neg (by omega), show (n + 1) / 2 = n / 2 by omega]
  · rw [if_neg h, if_pos (by omega), show (n + 1) / 2 = n / 2 + 1 by omega]
    rfl

/-- Decryption round `n` undoes encryption round `12 - n`. -/
theorem decryptRound_eq (key s : Bytes) (hk : key.length = 32) (n m : Nat) (hm : n + m = 12) :
    decryptRound (s, keys key ((m + 2) / 2)) n = (back key m s, keys key ((m + 1) / 2)) := by
  unfold decryptRound back add
  by_cases h : n % 2 = 0
  · rw [if_pos h, if_neg (by omega), show (m + 2) / 2 = m / 2 + 1 by omega]
    simp only [keys_back key hk]
    rw [show (m + 1) / 2 = m / 2 by omega]
  · rw [if_neg h, if_pos (by omega), show (m + 2) / 2 = (m + 1) / 2 by omega]

/-- `n` rounds of encryption. -/
def forths (key : Bytes) : Nat → Bytes → Bytes
  | 0, s => s
  | n + 1, s => forth key n (forths key n s)

/-- `n` rounds of decryption, from round key 13. -/
def backs (key : Bytes) : Nat → Bytes → Bytes
  | 0, s => s
  | n + 1, s => back key (12 - n) (backs key n s)

theorem encrypt_rounds (key s : Bytes) : ∀ n, (List.range n).foldl encryptRound (s, key, 1) = (forths key n s, keys key (n / 2))
  | 0 => rfl
  | n + 1 => by
    rw [List.range_succ, List.foldl_append, encrypt_rounds key s n]
    exact encryptRound_eq key _ n

theorem decrypt_rounds (key s : Bytes) (hk : key.length = 32) : ∀ n ≤ 13,
    (List.range n).foldl decryptRound (s, keys key 7) = (backs key n s, keys key ((14 - n) / 2))
  | 0, _ => rfl
  | n + 1, h => by
    rw [List.range_succ, List.foldl_append, decrypt_rounds key s hk n (by omega)]
    have := decryptRound_eq key (backs key n s) hk n (12 - n) (by omega)
    rw [show (12 - n + 2) / 2 = (14 - n) / 2 by omega, show (12 - n + 1) / 2 = (14 - (n + 1)) / 2 by omega] at this
    exact this

theorem encrypt_eq (bytes key : Bytes) :
    encrypt bytes key = add key 14 (shiftRows (subBytes (forths key 13 (add key 0 bytes)))) := by
  unfold encrypt
  simp only []
  rw [encrypt_rounds]
  rfl

theorem keys_fold (key : Bytes) : ∀ n, (List.range n).foldl (fun k _ => expandKey k) (key, 1) = keys key n
  | 0 => rfl
  | n + 1 => by rw [List.range_succ, List.foldl_append, keys_fold key n]; rfl

theorem decrypt_eq (bytes key : Bytes) (hk : key.length = 32) :
    decrypt bytes key = add key 0 (backs key 13 (subBytesInverse (shiftRowsInverse (add key 14 bytes)))) := by
  have h7 : keys key 7 = (decryptionKey key, 0x80) := Prod.ext (by rw [decryptionKey, keys_fold]) (by rw [keys_eq key hk]; show (rcon 8).a = 0x80; decide)
  unfold decrypt
  simp only []
  rw [← h7, show decryptionKey key = (keys key 7).1 by rw [h7], decrypt_rounds key _ hk 13 (by decide)]
  simp only [add, if_true, show (14 : Nat) % 2 = 0 by decide, show (14 : Nat) / 2 = 7 by decide, show (14 - 13) / 2 = 0 by decide, Nat.zero_mod, Nat.zero_div]

theorem forths_length (key s : Bytes) (hs : s.length = 16) : ∀ n, (forths key n s).length = 16
  | 0 => hs
  | _ + 1 => forth_length ..
theorem backs_length (key s : Bytes) (hs : s.length = 16) : ∀ n, (backs key n s).length = 16
  | 0 => hs
  | _ + 1 => back_length ..

theorem backs_forths (key s : Bytes) (hs : s.length = 16) : ∀ n ≤ 13, backs key n (forths key 13 s) = forths key (13 - n) s
  | 0, _ => rfl
  | n + 1, h => by
    rw [backs, backs_forths key s hs n (by omega), show 13 - n = 12 - n + 1 by omega, forths, back_forth _ _ _ (forths_length key s hs _),
      show 13 - (n + 1) = 12 - n by omega]

theorem forths_backs (key s : Bytes) (hs : s.length = 16) : ∀ n ≤ 13, forths key n (backs key 13 s) = backs key (13 - n) s
  | 0, _ => rfl
  | n + 1, h => by
    rw [forths, forths_backs key s hs n (by omega), show 13 - n = 12 - n + 1 by omega, backs, show 12 - (12 - n) = n by omega,
      forth_back _ _ _ (backs_length key s hs _), show 13 - (n + 1) = 12 - n by omega]

theorem forths_eq (key s : Bytes) (hk : key.length = 32) (hs : s.length = 16) : ∀ n, forths key n s =
    (List.range n).foldl (fun s i => Spec.Aes.addRoundKey key (i + 1) (Spec.Aes.mixColumns (Spec.Aes.shiftRows (Spec.Aes.subBytes s)))) s
  | 0 => rfl
  | n + 1 => by
    have h := forths_length key s hs n
    rw [List.range_succ, List.foldl_append, ← forths_eq key s hk hs n, forths, List.foldl_cons, List.foldl_nil, forth]
    have h1 : (subBytes (forths key n s)).length = 16 := by rw [subBytes_length, h]
    have h2 : (shiftRows (subBytes (forths key n s))).length = 16 := by rw [shift_length, h1]
    rw [add_eq key hk _ _ (by rw [mix_length, h2]), mixColumns_eq _ h2, shiftRows_eq _ h1, subBytes_eq]

/-- **C71 (the cipher).** Encryption of a block is AES-256. -/
theorem C71_encrypt (bytes key : Bytes) (hb : bytes.length = 16) (hk : key.length = 32) : encrypt bytes key = Spec.Aes.cipher key bytes := by
  have h0 := add_length key 0 bytes
  have h := forths_length key _ h0 13
  have h1 : (subBytes (forths key 13 (add key 0 bytes))).length = 16 := by rw [subBytes_length, h]
  rw [encrypt_eq, Spec.Aes.cipher, add_eq key hk _ _ (by rw [shift_length, h1]), shiftRows_eq _ h1, subBytes_eq, forths_eq key _ hk h0,
    add_eq key hk _ _ hb]

/-- **C71 (decryption).** Decryption undoes encryption with the same key. -/
theorem C71_decrypt_encrypt (bytes key : Bytes) (hb : bytes.length = 16) (hk : key.length = 32) : decrypt (encrypt bytes key) key = bytes := by
  have h0 := add_length key 0 bytes
  have h1 : (subBytes (forths key 13 (add key 0 bytes))).length = 16 := by rw [subBytes_length, forths_length key _ h0]
  rw [decrypt_eq _ _ hk, encrypt_eq, add_twice _ _ _ (by rw [shift_length, h1]), shift_inv _ h1, sub_inv, backs_forths key _ h0 13 (by decide)]
  exact add_twice _ _ _ hb

/-- **C71 (encryption of a decryption).** Every block is the encryption of its decryption, so that encryption is a permutation of blocks. -/
theorem C71_encrypt_decrypt (bytes key : Bytes) (hb : bytes.length = 16) (hk : key.length = 32) : encrypt (decrypt bytes key) key = bytes := by
  have h0 := add_length key 14 bytes
  have h1 : (shiftRowsInverse (add key 14 bytes)).length = 16 := by rw [shiftInv_length, h0]
  have h2 : (subBytesInverse (shiftRowsInverse (add key 14 bytes))).length = 16 := by rw [subInv_length, h1]
  rw [decrypt_eq _ _ hk, encrypt_eq, add_twice _ _ _ (backs_length key _ h2 13), forths_backs key _ h2 13 (by decide)]
  show add key 14 (shiftRows (subBytes (subBytesInverse (shiftRowsInverse (add key 14 bytes))))) = bytes
  rw [inv_sub, inv_shift _ h0]
  exact add_twice _ _ _ hb

/-! ## The cases are met: FIPS 197, C.3 -/

def exampleKey : Bytes := (List.range 32).map UInt8.ofNat
def exampleBlock : Bytes := (List.range 16).map fun i => UInt8.ofNat (17 * i)
def exampleCipher : Bytes := [0x8e, 0xa2, 0xb7, 0xca, 0x51, 0x67, 0x45, 0xbf, 0xea, 0xfc, 0x49, 0x90, 0x4b, 0x49, 0x60, 0x89]

example : encrypt exampleBlock exampleKey = exampleCipher := by decide +kernel
example : Spec.Aes.cipher exampleKey exampleBlock = exampleCipher := by
  rw [← C71_encrypt _ _ (by decide) (by decide)]
  decide +kernel
example : decrypt exampleCipher exampleKey = exampleBlock := by decide +kernel

end Verif.Aes
