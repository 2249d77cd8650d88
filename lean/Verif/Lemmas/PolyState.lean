import Verif.Lemmas.Poly1305
/-!
# The state of the message authentication code over any division of a message
-/
namespace Verif.Poly
open Verif.Spec.Chacha (prime chunks accumulate clampedR poly1305)

/-- The state after the bytes of `msg` have been written. -/
structure Absorbed (key msg : Bytes) (m : Mac) : Prop where
  r : m.r = (construct key).r
  pad : m.pad = (construct key).pad
  small : Small m.h
  acc : val m.h ≡ horner (clampedR key) (nums highBit msg (msg.length / 16)) 0 [MOD prime]
  offset : m.offset = msg.length % 16
  size : m.buffer.length = 16
  rest : m.buffer.take m.offset = msg.drop (16 * (msg.length / 16))

theorem absorbed_nil (key : Bytes) : Absorbed key [] (construct key) where
  r := rfl
  pad := rfl
  small := by simp [construct, Small]
  acc := by simp [construct, nums, horner, val]; rfl
  offset := rfl
  size := by simp [construct]
  rest := by simp [construct]

theorem nums_prefix (hibit : Nat) (a b : Bytes) (n : Nat) (h : 16 * n ≤ a.length) : nums hibit (a ++ b) n = nums hibit a n := by
  unfold nums
  refine List.map_congr_left fun i hi => ?_
  have hi := List.mem_range.1 hi
  rw [List.drop_append_of_le_length (by omega), List.take_append_of_le_length (by rw [List.length_drop]; omega)]

/-- The accumulated value after more blocks. -/
theorem acc_step {key msg : Bytes} {m : Mac} (ha : Absorbed key msg m) (b : Build) (data : Bytes) (n : Nat) (rest : Bytes)
    (hd : msg.drop (16 * (msg.length / 16)) ++ rest = data) (hn : 16 * n ≤ data.length) :
    ∃ h', blocks b m data n highBit = { m with h := h' } ∧ Small h' ∧
      val h' ≡ horner (clampedR key) (nums highBit (msg ++ rest) (msg.length / 16 + n)) 0 [MOD prime] := by
  have hr : Small m.r := by rw [ha.r]; exact (construct_r key).1
  obtain ⟨h', e1, e2, e3⟩ := blocks_spec b m hr ha.small data n highBit (Or.inl rfl)
  refine ⟨h', e1, e2, e3.trans ?_⟩
  rw [ha.r, (construct_r key).2]
  rw [nums_add, nums_prefix highBit msg rest _ (by omega), horner_append, List.drop_append_of_le_length (by omega), hd]
  exact horner_modEq _ _ rfl _ _ _ ha.acc

theorem copyAt_length (buffer src : Bytes) (k : Nat) (h : k + src.length ≤ buffer.length) : (copyAt buffer k src).length = buffer.length := by
  unfold copyAt
  simp only [List.length_append, List.length_take, List.length_drop]
  omega

theorem copyAt_take (buffer src : Bytes) (k : Nat) (h : k + src.length ≤ buffer.length) : (copyAt buffer k src).take (k + src.length) = buffer.take k ++ src := by
  unfold copyAt
  rw [List.take_append_of_le_length (by simp only [List.length_append, List.length_take]; omega), List.take_of_length_le]
  simp only [List.length_append, List.length_take]; omega

/-- The filling of the buffer. -/
theorem fill_absorbed {key msg : Bytes} {m : Mac} (ha : Absorbed key msg m) (b : Build) (d : Bytes) (h0 : m.offset ≠ 0) (hd : d.length ≤ 16 - m.offset) :
    let m1 : Mac := { m with buffer := copyAt m.buffer m.offset d, offset := m.offset + d.length }
    Absorbed key (msg ++ d) (if m1.offset = 16 then { blocks b m1 m1.buffer 1 highBit with offset := 0 } else m1) := by
  have ho := ha.offset
  have hz := ha.size
  have hfit : m.offset + d.length ≤ m.buffer.length := by omega
  have hlen : (msg ++ d).length = msg.length + d.length := List.length_append
  have htake : (copyAt m.buffer m.offset d).take (m.offset + d.length) = msg.drop (16 * (msg.length / 16)) ++ d := by
    rw [copyAt_take _ _ _ hfit, ha.rest]
  dsimp only
  by_cases hf : m.offset + d.length = 16
  · rw [if_pos hf]
    have hfull : msg.drop (16 * (msg.length / 16)) ++ d = copyAt m.buffer m.offset d := by
      rw [← htake, List.take_of_length_le]
      rw [copyAt_length _ _ _ hfit]; omega
    have ha1 : Absorbed key msg { m with buffer := copyAt m.buffer m.offset d, offset := m.offset } := by
      refine ⟨ha.r, ha.pad, ha.small, ha.acc, ha.offset, ?_, ?_⟩
      · dsimp only; rw [copyAt_length _ _ _ hfit, hz]
      · dsimp only
        rw [← hfull, List.take_append_of_le_length (by rw [List.length_drop]; omega), List.take_of_length_le (by rw [List.length_drop]; omega)]
    obtain ⟨h', e1, e2, e3⟩ := acc_step ha1 b (copyAt m.buffer m.offset d) 1 d hfull (by rw [copyAt_length _ _ _ hfit]; omega)
    have hb : blocks b { m with buffer := copyAt m.buffer m.offset d, offset := m.offset + d.length } (copyAt m.buffer m.offset d) 1 highBit =
        { m with buffer := copyAt m.buffer m.offset d, offset := m.offset + d.length, h := h' } := by
      have e := congrArg Mac.h e1
      unfold blocks at e ⊢
      dsimp only at e ⊢
      rw [e]
    rw [hb]
    refine ⟨ha.r, ha.pad, e2, ?_, ?_, ?_, ?_⟩
    · dsimp only
      rw [hlen, show (msg.length + d.length) / 16 = msg.length / 16 + 1 by omega]
      exact e3
    · dsimp only; omega
    · dsimp only; rw [copyAt_length _ _ _ hfit, hz]
    · dsimp only
      rw [List.take_zero, List.drop_of_length_le (by omega)]
  · rw [if_neg hf]
    have hq : (msg.length + d.length) / 16 = msg.length / 16 := by omega
    refine ⟨ha.r, ha.pad, ha.small, ?_, ?_, ?_, ?_⟩
    · rw [hlen, hq, nums_prefix highBit msg d _ (by omega)]
      exact ha.acc
    · dsimp only; omega
    · dsimp only; rw [copyAt_length _ _ _ hfit, hz]
    · dsimp only
      rw [htake, hlen, hq, List.drop_append_of_le_length (by omega)]

/-- Whole blocks and the remainder. -/
theorem tail_absorbed {key msg : Bytes} {m : Mac} (ha : Absorbed key msg m) (b : Build) (d : Bytes) (h0 : m.offset = 0 ∨ d = []) :
    Absorbed key (msg ++ d) (if d.length ≠ 0 then
      { blocks b m d (d.length / 16) highBit with
        buffer := copyAt (blocks b m d (d.length / 16) highBit).buffer 0 (d.drop (d.length / 16 * 16))
        offset := (d.drop (d.length / 16 * 16)).length } else m) := by
  by_cases hd : d.length = 0
  · rw [if_neg (by omega), List.length_eq_zero_iff.1 hd, List.append_nil]
    exact ha
  · rw [if_pos hd]
    have h0 : m.offset = 0 := h0.resolve_right (by rintro rfl; exact hd rfl)
    have ho := ha.offset
    have hz := ha.size
    obtain ⟨h', e1, e2, e3⟩ := acc_step ha b d (d.length / 16) d (by rw [List.drop_of_length_le (by omega), List.nil_append]) (by omega)
    rw [e1]
    dsimp only
    have hlen : (msg ++ d).length = msg.length + d.length := List.length_append
    have hq : (msg.length + d.length) / 16 = msg.length / 16 + d.length / 16 := by omega
    have hdl : (d.drop (d.length / 16 * 16)).length = d.length % 16 := by rw [List.length_drop]; omega
    refine ⟨ha.r, ha.pad, e2, ?_, ?_, ?_, ?_⟩
    · dsimp only
      rw [hlen, hq]
      exact e3
    · dsimp only; omega
    · dsimp only; rw [copyAt_length _ _ _ (by omega), hz]
    · dsimp only
      have := copyAt_take m.buffer (d.drop (d.length / 16 * 16)) 0 (by omega)
      rw [Nat.zero_add, List.take_zero, List.nil_append] at this
      rw [this, hlen, hq, show 16 * (msg.length / 16 + d.length / 16) = msg.length + d.length / 16 * 16 by omega, List.drop_append]
      rw [List.drop_of_length_le (l := msg) (by omega), List.nil_append]
      congr 1
      omega

/-- Writing extends the message. -/
theorem write_absorbed {key msg : Bytes} {m : Mac} (ha : Absorbed key msg m) (b : Build) (data : Bytes) : Absorbed key (msg ++ data) (write b m data) := by
  unfold write
  by_cases h0 : m.offset = 0
  · simp only [h0, ne_eq, not_true_eq_false, if_false]
    exact tail_absorbed ha b data (Or.inl h0)
  · simp only [ne_eq, h0, not_false_eq_true, if_true]
    have ho := ha.offset
    have hfl : (data.take (min data.length (16 - m.offset))).length = min data.length (16 - m.offset) := by
      rw [List.length_take]; omega
    have hf := fill_absorbed ha b (data.take (min data.length (16 - m.offset))) h0 (by omega)
    dsimp only at hf
    rw [hfl] at hf
    have hsplit : msg ++ data = (msg ++ data.take (min data.length (16 - m.offset))) ++ data.drop (min data.length (16 - m.offset)) := by
      rw [List.append_assoc, List.take_append_drop]
    rw [hsplit]
    by_cases hfull : m.offset + min data.length (16 - m.offset) = 16
    · simp only [if_pos hfull] at hf ⊢
      exact tail_absorbed hf b _ (Or.inl rfl)
    · simp only [if_neg hfull] at hf ⊢
      exact tail_absorbed hf b _ (Or.inr (List.drop_of_length_le (by omega)))

/-! ### The end of the message -/

theorem chunks_short {a : Bytes} (h : a ≠ []) (hl : a.length ≤ 16) : chunks a = [a] := by
  rw [chunks, if_neg h, List.take_of_length_le hl, List.drop_of_length_le hl, chunks, if_pos rfl]

theorem accumulate_modEq (r : Nat) (bs : List Bytes) : ∀ a x, a ≡ x [MOD prime] → accumulate r bs a ≡ horner r (bs.map fun b => leNat (b ++ [1])) x [MOD prime] := by
  induction bs with
  | nil => exact fun a x h => h
  | cons b bs ih =>
    intro a x h
    simp only [List.map_cons, horner]
    refine ih _ _ ?_
    exact (Nat.mod_modEq _ _).trans ((h.add_right _).mul_right _)

theorem accumulate_lt (r : Nat) (bs : List Bytes) : ∀ a, a < prime → accumulate r bs a < prime := by
  induction bs with
  | nil => exact fun a h => h
  | cons b bs ih => exact fun a _ => ih _ (Nat.mod_lt _ (by decide))

/-- The blocks of a message: whole ones and then the rest. -/
theorem chunks_nums : ∀ (n : Nat) (msg : Bytes), msg.length / 16 = n →
    (chunks msg).map (fun b => leNat (b ++ [1])) =
      nums highBit msg n ++ (if msg.length % 16 = 0 then [] else [leNat (msg.drop (16 * n) ++ [1])]) := by
  intro n
  induction n with
  | zero =>
    intro msg h
    by_cases h0 : msg = []
    · subst h0; rw [chunks, if_pos rfl]; rfl
    · have : msg.length ≠ 0 := by simpa using h0
      rw [chunks_short h0 (by omega), if_neg (by omega)]
      rfl
  | succ n ih =>
    intro msg h
    have h0 : msg ≠ [] := by rintro rfl; simp at h
    rw [chunks, if_neg h0, List.map_cons, ih (msg.drop 16) (by rw [List.length_drop]; omega), nums_succ, List.cons_append]
    congr 1
    · rw [leNat_append, List.length_take, show min 16 msg.length = 16 by omega]
      rfl
    · rw [List.length_drop, show (msg.length - 16) % 16 = msg.length % 16 by omega, List.drop_drop, show 16 + 16 * n = 16 * (n + 1) by omega]

theorem leNat_zeros (k : Nat) : leNat (List.replicate k 0) = 0 := by
  induction k with
  | zero => rfl
  | succ k ih => rw [List.replicate_succ]; simp [leNat, ih]

/-- The tag of the absorbed message. -/
theorem flush_spec {key msg : Bytes} {m : Mac} (ha : Absorbed key msg m) (b : Build) : flush b m = poly1305 key msg := by
  have ho := ha.offset
  have hz := ha.size
  have key' : ∀ h' : Limbs Nat, Small h' → val h' ≡ horner (clampedR key) ((chunks msg).map fun b => leNat (b ++ [1])) 0 [MOD prime] →
      finish h' m.pad = poly1305 key msg := by
    intro h' hs hv
    obtain ⟨p0, p1, p2, p3, e, q0, q1, q2, q3, hp⟩ := construct_pad key
    rw [ha.pad, e, finish_spec h' hs p0 p1 p2 p3 q0 q1 q2 q3, hp]
    unfold poly1305
    have hacc := accumulate_modEq (clampedR key) (chunks msg) 0 0 rfl
    have hm : val h' % prime = accumulate (clampedR key) (chunks msg) 0 := by
      rw [hv.trans hacc.symm]
      exact Nat.mod_eq_of_lt (accumulate_lt _ _ 0 (by decide))
    rw [hm]
  unfold flush
  by_cases h0 : m.offset = 0
  · simp only [h0, ne_eq, not_true_eq_false, if_false]
    refine key' _ ha.small ?_
    rw [chunks_nums _ msg rfl, if_pos (by omega), List.append_nil]
    exact ha.acc
  · simp only [ne_eq, h0, not_false_eq_true, if_true]
    have hoff : m.offset < 16 := by omega
    generalize hbuf : copyAt (m.buffer.set m.offset 1) (m.offset + 1) (List.replicate (16 - (m.offset + 1)) 0) = buf
    have hb : buf = msg.drop (16 * (msg.length / 16)) ++ [1] ++ List.replicate (15 - m.offset) 0 := by
      rw [← hbuf]
      unfold copyAt
      rw [List.length_replicate, List.drop_of_length_le (by rw [List.length_set]; omega), List.append_nil,
        show 16 - (m.offset + 1) = 15 - m.offset by omega]
      congr 1
      rw [List.take_succ, List.getElem?_set_self (by omega), List.take_set, ← ha.rest]
      rw [List.set_eq_of_length_le (by rw [List.length_take]; omega)]
      rfl
    have hr : Small m.r := by rw [ha.r]; exact (construct_r key).1
    obtain ⟨h', e1, e2, e3⟩ := blocks_spec b { m with buffer := buf, offset := m.offset + 1 } hr ha.small buf 1 0 (Or.inr rfl)
    rw [e1]
    refine key' _ e2 (e3.trans ?_)
    rw [chunks_nums _ msg rfl, if_neg (by omega), horner_append, ha.r, (construct_r key).2]
    have hlast : nums 0 buf 1 = [leNat (msg.drop (16 * (msg.length / 16)) ++ [1])] := by
      unfold nums
      simp only [List.range_one, List.map_cons, List.map_nil, Nat.mul_zero, List.drop_zero, if_true, Nat.add_zero]
      rw [List.take_of_length_le (by rw [hb]; simp only [List.length_append, List.length_drop, List.length_replicate, List.length_singleton]; omega), hb, leNat_append, leNat_zeros]
      rfl
    rw [hlast]
    exact horner_modEq _ _ rfl _ _ _ ha.acc

end Verif.Poly
