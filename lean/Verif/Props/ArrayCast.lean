import Verif.Model.ArrayCast
import Verif.Props.Endian
/-!
# C108: array casts are views of the same bytes
-/
namespace Verif.ArrayCast
open Verif Verif.Endian

/-- The width of an integral. -/
def Width (w : Nat) : Prop := w = 8 ∨ w = 16 ∨ w = 32 ∨ w = 64

theorem memory_length (little : Bool) (v : BitVec w) : (memory little v).length = w / 8 := by
  unfold memory; cases little <;> simp

theorem words_length (little : Bool) (l : List (BitVec w)) : (memoryWords little l).length = l.length * (w / 8) := by
  induction l with
  | nil => simp [memoryWords]
  | cons v l ih =>
    show (memory little v ++ memoryWords little l).length = _
    rw [List.length_append, memory_length, ih, List.length_cons, Nat.succ_mul]; omega

theorem load_memory (hw : Width w) (little : Bool) (v : BitVec w) (r : Bytes) : load little w (memory little v ++ r) = v := by
  have hv := toNat_lt hw v
  unfold load
  rw [List.take_left' (memory_length little v)]
  unfold memory
  cases little
  · simp [Der.beNat_beBytes hv]
  · simp [leNat_leBytes_of_lt hv]

theorem memory_load (hw : Width w) (little : Bool) (d : Bytes) (h : w / 8 ≤ d.length) : memory little (load little w d) = d.take (w / 8) := by
  have hp := pow_size hw
  have hl : (d.take (w / 8)).length = w / 8 := by simp; omega
  unfold memory load
  cases little
  · have := Der.beNat_lt (d.take (w / 8))
    rw [hl, ← hp] at this
    simp only [Bool.false_eq_true, if_false]
    rw [BitVec.toNat_ofNat, Nat.mod_eq_of_lt this, beBytes, beNat, leBytes_leNat' (by simpa using hl), List.reverse_reverse]
  · have := leNat_lt (d.take (w / 8))
    rw [hl, ← hp] at this
    simp only [if_true]
    rw [BitVec.toNat_ofNat, Nat.mod_eq_of_lt this, leBytes_leNat' hl]

theorem load_words (hw : Width w) (little : Bool) : ∀ (l : List (BitVec w)) (r : Bytes), loadWords little w l.length (memoryWords little l ++ r) = l
  | [], _ => rfl
  | v :: l, r => by
    show load little w (memory little v ++ memoryWords little l ++ r) ::
      loadWords little w l.length ((memory little v ++ memoryWords little l ++ r).drop (w / 8)) = _
    rw [List.append_assoc, load_memory hw, List.drop_left' (memory_length little v), load_words hw little l r]

theorem words_load (hw : Width w) (little : Bool) : ∀ (n : Nat) (d : Bytes), n * (w / 8) ≤ d.length → memoryWords little (loadWords little w n d) = d.take (n * (w / 8))
  | 0, d, _ => by simp [loadWords, memoryWords]
  | n + 1, d, h => by
    rw [Nat.succ_mul] at h
    show memory little (load little w d) ++ memoryWords little (loadWords little w n (d.drop (w / 8))) = _
    rw [memory_load hw little d (by omega), words_load hw little n _ (by rw [List.length_drop]; omega), Nat.succ_mul, Nat.add_comm, List.take_add]

theorem load_length (little : Bool) (w : Nat) : ∀ (n : Nat) (d : Bytes), (loadWords little w n d).length = n
  | 0, _ => rfl
  | n + 1, d => by rw [loadWords, List.length_cons, load_length little w n]

theorem words_drop (little : Bool) : ∀ (k : Nat) (l : List (BitVec w)), memoryWords little (l.drop k) = (memoryWords little l).drop (k * (w / 8))
  | 0, l => by simp
  | k + 1, [] => by simp [memoryWords]
  | k + 1, v :: l => by
    rw [List.drop_succ_cons, words_drop little k l]
    show _ = (memory little v ++ memoryWords little l).drop ((k + 1) * (w / 8))
    rw [Nat.succ_mul, Nat.add_comm, ← List.drop_drop, List.drop_left' (memory_length little v)]

theorem words_inj (hw : Width w) (little : Bool) {l m : List (BitVec w)} (hl : l.length = m.length) (h : memoryWords little l = memoryWords little m) : l = m := by
  have h1 := load_words hw little l []
  have h2 := load_words hw little m []
  rw [List.append_nil] at h1 h2
  rw [← h1, ← h2, h, hl]

/-- **C108** A cast that compiles has the bytes of the array from the offset, in the order of the machine, and stays within them. -/
theorem C108_part {w w' : Nat} (hw' : Width w') (little : Bool) (toCount offset : Nat) (values : List (BitVec w)) :
    ((castPart little w' toCount offset values).isSome ↔ offset < values.length ∧ offset * (w / 8) + toCount * (w' / 8) ≤ values.length * (w / 8)) ∧
    ∀ new, castPart little w' toCount offset values = some new → new.length = toCount ∧
      memoryWords little new = ((memoryWords little values).drop (offset * (w / 8))).take (toCount * (w' / 8)) := by
  have harith : offset < values.length → ((values.length - offset) * (w / 8) + offset * (w / 8) = values.length * (w / 8)) := by
    intro h
    rw [← Nat.add_mul]; congr 1; omega
  unfold castPart isPortional
  constructor
  · by_cases h : offset < values.length
    · have := harith h
      simp only [h, true_and, decide_eq_true_eq]
      split <;> simp <;> omega
    · simp [h]
  · intro new hn
    split at hn
    · rename_i h
      obtain ⟨h1, h2⟩ := h
      have := harith h1
      have h2 := of_decide_eq_true h2
      cases hn
      refine ⟨load_length little w' _ _, ?_⟩
      rw [words_load hw' little _ _ (by rw [words_length, List.length_drop]; omega), words_drop]
    · cases hn

/-- A cast of a whole array has the same bytes, and the cast back gives the array. -/
theorem C108_all {w w' : Nat} (hw : Width w) (hw' : Width w') (little : Bool) (values : List (BitVec w)) :
    ((castAll little w' values).isSome ↔ (w' / 8) ∣ values.length * (w / 8)) ∧
    ∀ new, castAll little w' values = some new → memoryWords little new = memoryWords little values ∧ castAll little w new = some values := by
  have hp : 0 < w / 8 := by rcases hw with rfl | rfl | rfl | rfl <;> decide
  unfold castAll isProportional proportion
  constructor
  · simp only [decide_eq_true_eq, Nat.dvd_iff_mod_eq_zero]
    split <;> simp [*]
  · intro new hn
    split at hn
    · rename_i h
      have h := of_decide_eq_true h
      have hd := Nat.div_mul_cancel (Nat.dvd_of_mod_eq_zero h)
      obtain rfl := Option.some.inj hn
      have hm : memoryWords little (loadWords little w' (values.length * (w / 8) / (w' / 8)) (memoryWords little values)) = memoryWords little values := by
        rw [words_load hw' little _ _ (by rw [words_length, hd]; exact Nat.le_refl _), hd, List.take_of_length_le (by rw [words_length]; exact Nat.le_refl _)]
      refine ⟨hm, ?_⟩
      rw [load_length, hd, Nat.mul_mod_left, Nat.mul_div_cancel _ hp, hm]
      have := load_words hw little values []
      rw [List.append_nil] at this
      simp [this]
    · cases hn

/-- An assignment to a cast is read back through it, and changes only the bytes of the cast. -/
theorem C108_assign {w w' : Nat} (hw : Width w) (hw' : Width w') (little : Bool) (offset : Nat) (values : List (BitVec w)) (new : List (BitVec w'))
    (h : offset * (w / 8) + new.length * (w' / 8) ≤ values.length * (w / 8)) (ho : offset < values.length) :
    (assignPart little offset values new).length = values.length ∧
    castPart little w' new.length offset (assignPart little offset values new) = some new ∧
    memoryWords little (assignPart little offset values new) = (memoryWords little values).take (offset * (w / 8)) ++ memoryWords little new ++
      (memoryWords little values).drop (offset * (w / 8) + new.length * (w' / 8)) := by
  have hl : (assignPart little offset values new).length = values.length := by unfold assignPart; exact load_length little w _ _
  have hm : memoryWords little (assignPart little offset values new) = (memoryWords little values).take (offset * (w / 8)) ++ memoryWords little new ++
      (memoryWords little values).drop (offset * (w / 8) + new.length * (w' / 8)) := by
    have e : ((memoryWords little values).take (offset * (w / 8)) ++ memoryWords little new ++
        (memoryWords little values).drop (offset * (w / 8) + new.length * (w' / 8))).length = values.length * (w / 8) := by
      rw [List.length_append, List.length_append, List.length_take, List.length_drop, words_length, words_length]; omega
    unfold assignPart
    dsimp only
    rw [words_length little new, words_load hw little _ _ (by omega), List.take_of_length_le (by omega)]
  refine ⟨hl, ?_, hm⟩
  obtain ⟨h1, h2⟩ := C108_part hw' little new.length offset (assignPart little offset values new)
  rw [hl] at h1
  obtain ⟨c, hc⟩ := Option.isSome_iff_exists.1 (h1.2 ⟨ho, h⟩)
  obtain ⟨h3, h4⟩ := h2 c hc
  rw [hc]
  congr 1
  refine words_inj hw' little h3 ?_
  rw [h4, hm, List.append_assoc, List.drop_left' (by rw [List.length_take, words_length]; omega), List.take_left' (words_length little new)]

/-- An integral and its bytes. -/
theorem C108_bytes {w : Nat} (hw : Width w) (little : Bool) (v : BitVec w) (d : Bytes) (hd : d.length = w / 8) :
    (toBytes little v).length = w / 8 ∧ fromBytes little w (toBytes little v) = v ∧ toBytes little (fromBytes little w d) = d := by
  refine ⟨memory_length little v, ?_, ?_⟩
  · have := load_memory hw little v []
    rwa [List.append_nil] at this
  · have := memory_load hw little d (by omega)
    rwa [List.take_of_length_le (by omega)] at this

/-- Arrays cast from bytes follow each other. -/
theorem C108_vector {w' : Nat} (hw' : Width w') (little : Bool) (inner : Nat) : ∀ (count : Nat) (d : Bytes), count * (inner * (w' / 8)) ≤ d.length →
    (vectorCast little 8 w' inner count d).length = count ∧
    (vectorCast little 8 w' inner count d).flatMap (memoryWords little) = d.take (count * (inner * (w' / 8)))
  | 0, d, _ => by simp [vectorCast]
  | count + 1, d, h => by
    rw [Nat.succ_mul] at h
    have e : inner * (w' / 8) * (8 / 8) = inner * (w' / 8) := by omega
    obtain ⟨h1, h2⟩ := C108_vector hw' little inner count (d.drop (inner * (w' / 8))) (by rw [List.length_drop]; omega)
    rw [vectorCast, e]
    refine ⟨by rw [List.length_cons, h1], ?_⟩
    rw [List.flatMap_cons, h2, words_load hw' little _ _ (by omega), Nat.succ_mul, Nat.add_comm, List.take_add]

/-- Finding 100: from a pointer to integrals of more than one byte, the arrays after the first are not the ones that follow it. -/
theorem C108_vector_counterexample : vectorCast true 16 16 1 2 [1, 0, 2, 0, 3, 0, 4, 0] = [[1#16], [3#16]] := by decide

-- Two words as four halves, part of them, and an assignment.
example : castAll true 16 [0x00020001#32, 0x00040003#32] = some [1#16, 2#16, 3#16, 4#16] := by decide
example : castPart true 16 1 1 [0x00020001#32, 0x00040003#32] = some [3#16] ∧ castPart true 16 5 0 [0x00020001#32, 0x00040003#32] = none := by decide
example : assignPart false 1 [0x00010002#32, 0x00030004#32] [9#16] = [0x00010002#32, 0x00090004#32] := by decide
example : vectorCast true 8 16 2 2 [1, 0, 2, 0, 3, 0, 4, 0] = [[1#16, 2#16], [3#16, 4#16]] := by decide

end Verif.ArrayCast
