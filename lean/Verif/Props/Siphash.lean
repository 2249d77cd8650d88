import Verif.Model.Siphash
import Verif.Props.Stream
/-!
# C69: SipHash
-/
namespace Verif.Sip
open Verif Verif.Spec.Sip

theorem round_eq (s : State) : sipRound s = round s := rfl
theorem compress_eq (s : State) (w : BitVec 64) : compressionRound s w = compress s w := rfl

/-- The words the loop reads. -/
theorem loop_eq (d : Bytes) (hd : d.length ≤ maxSize) : ∀ (n p : Nat) (s : State), p + 8 * n ≤ d.length →
    ∃ r : RS, loop n s { data := d, pos := p, good := true, rem := maxSize - p } =
      ((((List.range n).map fun i => BitVec.ofNat 64 (leNat ((d.drop (p + 8 * i)).take 8))).foldl compress s), r) ∧
      r = { data := d, pos := p + 8 * n, good := true, rem := maxSize - (p + 8 * n) } := by
  intro n
  induction n with
  | zero => intro p s _; exact ⟨_, rfl, rfl⟩
  | succ n ih =>
    intro p s h
    have e : doRead 8 { data := d, pos := p, good := true, rem := maxSize - p } =
        ((d.drop p).take 8, { data := d, pos := p + 8, good := true, rem := maxSize - (p + 8) }) := by
      unfold doRead noteSize
      simp only [RS.rest, show 8 < offMax by decide, if_true]
      rw [if_neg (by omega), if_neg (by omega), Nat.sub_sub]
    have e2 : loop (n + 1) s { data := d, pos := p, good := true, rem := maxSize - p } =
        loop n (compressionRound s (BitVec.ofNat 64 (leNat ((d.drop p).take 8)))) { data := d, pos := p + 8, good := true, rem := maxSize - (p + 8) } := by
      show loop n (compressionRound s (BitVec.ofNat 64 (leNat (doRead 8 { data := d, pos := p, good := true, rem := maxSize - p }).1)))
        (doRead 8 { data := d, pos := p, good := true, rem := maxSize - p }).2 = _
      rw [e]
    obtain ⟨r, h1, h2⟩ := ih (p + 8) (compressionRound s (BitVec.ofNat 64 (leNat ((d.drop p).take 8)))) (by omega)
    refine ⟨r, ?_, by rw [h2]; congr 1 <;> omega⟩
    rw [e2, h1, List.range_succ_eq_map, List.map_cons, List.foldl_cons, List.map_map, compress_eq]
    congr 2
    apply List.map_congr_left
    intro i _
    show _ = BitVec.ofNat 64 (leNat ((d.drop (p + 8 * (i + 1))).take 8))
    rw [show p + 8 * (i + 1) = p + 8 + 8 * i by omega]

theorem leNat_append' (a b : Bytes) : leNat (a ++ b) = leNat a + 256 ^ a.length * leNat b := leNat_append a b

theorem leNat_zeros (n : Nat) : leNat (List.replicate n 0) = 0 := by
  induction n with
  | zero => rfl
  | succ n ih => rw [List.replicate_succ]; simp [leNat, ih]

/-- **C69** The hash is SipHash-2-4, for every key and message. -/
theorem C69_siphash (k0 k1 : BitVec 64) (m : Bytes) (hm : m.length < 2 ^ 63) : siphash k0 k1 m = Spec.Sip.hash k0 k1 m := by
  have hmax : maxSize = 2 ^ 64 - 1 := rfl
  obtain ⟨r, h1, h2⟩ := loop_eq m (by omega) (m.length / 8) 0 (start k0 k1) (by omega)
  have hstart : (⟨0x736f6d6570736575 ^^^ k0, 0x646f72616e646f6d ^^^ k1, 0x6c7967656e657261 ^^^ k0, 0x7465646279746573 ^^^ k1⟩ : State) = start k0 k1 := by
    unfold start
    rw [BitVec.xor_comm k0, BitVec.xor_comm k1, BitVec.xor_comm k0, BitVec.xor_comm k1]
  have hinit : RS.init m = { data := m, pos := 0, good := true, rem := maxSize - 0 } := rfl
  unfold siphash
  dsimp only
  rw [hstart, hinit, h1]
  dsimp only
  -- the last word
  have hr : (readLE 8 r).1 = leNat (m.drop (8 * (m.length / 8))) := by
    show leNat (doRead 8 r).1 = _
    rw [h2]
    unfold doRead noteSize
    simp only [RS.rest, Nat.zero_add, show 8 < offMax by decide, if_true]
    rw [if_neg (by omega), if_pos (by omega)]
    dsimp only
    rw [leNat_append', leNat_zeros]
    omega
  have hw : words (m.length / 8 + 1) (padded m) = ((List.range (m.length / 8)).map fun i => BitVec.ofNat 64 (leNat ((m.drop (0 + 8 * i)).take 8))) ++
      [BitVec.ofNat 64 (readLE 8 r).1 ^^^ (BitVec.ofNat 64 (m.length % 256) <<< 56)] := by
    unfold words
    rw [List.range_succ, List.map_append]
    congr 1
    · apply List.map_congr_left
      intro i hi
      have hi := List.mem_range.1 hi
      have : 8 * i + 8 ≤ m.length := by omega
      unfold padded
      rw [List.append_assoc, List.drop_append_of_le_length (by omega), List.take_append_of_le_length (by rw [List.length_drop]; omega), Nat.zero_add]
    · rw [List.map_singleton]
      congr 1
      rw [hr]
      have hd : ((padded m).drop (8 * (m.length / 8))).take 8 = m.drop (8 * (m.length / 8)) ++ (List.replicate (7 - m.length % 8) 0 ++ [UInt8.ofNat m.length]) := by
        unfold padded
        rw [List.append_assoc, List.drop_append_of_le_length (by omega), List.take_of_length_le]
        simp only [List.length_append, List.length_drop, List.length_replicate, List.length_singleton]
        omega
      rw [hd, leNat_append', leNat_append', leNat_zeros, List.length_replicate, List.length_drop]
      have hlt := leNat_lt (m.drop (8 * (m.length / 8)))
      rw [List.length_drop] at hlt
      have hk : m.length - 8 * (m.length / 8) = m.length % 8 := by omega
      rw [hk] at hlt ⊢
      have h8 : m.length % 8 ≤ 7 := by omega
      generalize leNat (m.drop (8 * (m.length / 8))) = v at *
      have hpow : 256 ^ (m.length % 8) * (0 + 256 ^ (7 - m.length % 8) * leNat [UInt8.ofNat m.length]) = 2 ^ 56 * (m.length % 256) := by
        rw [Nat.zero_add, ← Nat.mul_assoc, ← Nat.pow_add, show m.length % 8 + (7 - m.length % 8) = 7 by omega]
        simp [leNat]
      rw [hpow]
      have hv : v < 2 ^ 56 := Nat.lt_of_lt_of_le hlt (by
        calc 256 ^ (m.length % 8) ≤ 256 ^ 7 := Nat.pow_le_pow_right (by decide) h8
          _ = 2 ^ 56 := by decide)
      apply BitVec.eq_of_toNat_eq
      rw [BitVec.toNat_xor, BitVec.toNat_shiftLeft, BitVec.toNat_ofNat, BitVec.toNat_ofNat, BitVec.toNat_ofNat]
      have hl : m.length % 256 < 256 := Nat.mod_lt _ (by decide)
      generalize m.length % 256 = l at *
      rw [Nat.shiftLeft_eq, Nat.mod_eq_of_lt (show v < 2 ^ 64 by omega), Nat.mod_eq_of_lt (show l < 2 ^ 64 by omega),
        Nat.mod_eq_of_lt (show l * 2 ^ 56 < 2 ^ 64 by omega), Nat.mod_eq_of_lt (show v + 2 ^ 56 * l < 2 ^ 64 by omega)]
      have : v ^^^ l * 2 ^ 56 = v ||| l * 2 ^ 56 := by
        apply Nat.eq_of_testBit_eq
        intro i
        rw [Nat.testBit_xor, Nat.testBit_or]
        by_cases hi : i < 56
        · rw [Nat.testBit_mul_two_pow, show decide (56 ≤ i) = false by simp; omega]
          simp
        · have : v.testBit i = false := Nat.testBit_lt_two_pow (Nat.lt_of_lt_of_le hv (Nat.pow_le_pow_right (by decide) (by omega)))
          rw [this]; simp
      rw [this, Nat.or_comm, ← Nat.shiftLeft_eq, ← Nat.shiftLeft_add_eq_or_of_lt hv, Nat.shiftLeft_eq]
      omega
  unfold Spec.Sip.hash finish
  rw [hw, List.foldl_append, List.foldl_cons, List.foldl_nil]
  rfl

/-- **C69** With a key of sixteen bytes, its halves are read little-endian. -/
theorem C69_half (a c : Bytes) (ha : a.length = 8) (m : Bytes) (hm : m.length < 2 ^ 63) :
    siphashHalf (a ++ c) m = Spec.Sip.hash (BitVec.ofNat 64 (leNat a)) (BitVec.ofNat 64 (leNat c)) m := by
  unfold siphashHalf toKey
  rw [C69_siphash _ _ _ hm, List.take_left' ha, List.drop_left' ha]

/-- The specification gives the value of the paper's appendix A: key 00..0f, message 00..0e. -/
example : Spec.Sip.hash (BitVec.ofNat 64 (leNat [0, 1, 2, 3, 4, 5, 6, 7])) (BitVec.ofNat 64 (leNat [8, 9, 10, 11, 12, 13, 14, 15]))
    [0, 1, 2, 3, 4, 5, 6, 7, 8, 9, 10, 11, 12, 13, 14] = 0xa129ca6149be45e5 := by decide +kernel

end Verif.Sip
