import Verif.Spec.Bits
import Verif.Lemmas.Stream
import Verif.Props.Der
/-!
# C30: bit streams
-/
namespace Verif.Bit
open Verif Verif.Bit.Spec

/-! ## bits of a byte -/

def byteBits (b : UInt8) : List Bool := numBits 8 b.toNat

theorem forall_byte {p : UInt8 → Prop} (h : ∀ n < 256, p (UInt8.ofNat n)) (b : UInt8) : p b := Der.byte_forall h b

theorem getLeft_eq (b : UInt8) : ∀ o < 8, (byteBits b)[o]? = some (getLeft b o) :=
  forall_byte (p := fun b => ∀ o < 8, (byteBits b)[o]? = some (getLeft b o)) (by decide +kernel) b

theorem setLeft_eq (b : UInt8) : ∀ o < 8, ∀ v, byteBits (setLeft b o v) = (byteBits b).set o v :=
  forall_byte (p := fun b => ∀ o < 8, ∀ v, byteBits (setLeft b o v) = (byteBits b).set o v) (by decide +kernel) b

@[simp] theorem numBits_length (n v : Nat) : (numBits n v).length = n := by
  induction n with
  | zero => rfl
  | succ n ih => simp [numBits, ih]

@[simp] theorem byteBits_length (b : UInt8) : (byteBits b).length = 8 := numBits_length 8 _

theorem bitsOf_cons (b : UInt8) (d : Bytes) : bitsOf (b :: d) = byteBits b ++ bitsOf d := rfl
theorem bitsOf_append (a b : Bytes) : bitsOf (a ++ b) = bitsOf a ++ bitsOf b := by simp [bitsOf]
theorem bitsOf_length (d : Bytes) : (bitsOf d).length = 8 * d.length := by
  induction d with
  | nil => rfl
  | cons b d ih => rw [bitsOf_cons]; simp [ih]; omega

/-! ## writer -/

/-- Bits written so far. -/
def Writer.bits (w : Writer) : List Bool := bitsOf w.out ++ (byteBits w.byte).take w.offset

/-- The buffer is not full and is zero beyond the bits written. -/
structure Writer.WF (w : Writer) : Prop where
  room : w.offset < 8
  clear : (byteBits w.byte).drop w.offset = List.replicate (8 - w.offset) false

theorem init_wf : Writer.WF Writer.init := ⟨by decide, by decide⟩

theorem writeBit_spec (w : Writer) (h : w.WF) (v : Bool) : (w.writeBit v).WF ∧ (w.writeBit v).bits = w.bits ++ [v] := by
  obtain ⟨h1, h2⟩ := h
  have hset := setLeft_eq w.byte w.offset h1 v
  have hd : (byteBits (setLeft w.byte w.offset v)).drop (w.offset + 1) = List.replicate (8 - (w.offset + 1)) false := by
    rw [hset, List.drop_set]
    have : (byteBits w.byte).drop (w.offset + 1) = ((byteBits w.byte).drop w.offset).drop 1 := by rw [List.drop_drop]
    rw [if_pos (by omega), this, h2, List.drop_replicate]
    congr 1
  have ht : (byteBits (setLeft w.byte w.offset v)).take (w.offset + 1) = (byteBits w.byte).take w.offset ++ [v] := by
    rw [hset, List.take_add_one, List.take_set_of_le (Nat.le_refl _)]
    simp [h1]
  unfold Writer.writeBit
  simp only []
  split
  · rename_i h8
    have h8 : w.offset + 1 = 8 := by omega
    refine ⟨init_wf |> fun _ => ⟨by simp [Writer.unload], by simp only [Writer.unload]; decide⟩, ?_⟩
    simp only [Writer.unload, Writer.bits, bitsOf_append, List.take_zero, List.append_nil]
    rw [show bitsOf [setLeft w.byte w.offset v] = byteBits (setLeft w.byte w.offset v) by simp [bitsOf, byteBits]]
    rw [← List.take_of_length_le (l := byteBits (setLeft w.byte w.offset v)) (i := w.offset + 1) (by simp; omega), ht]
    simp
  · rename_i h8
    refine ⟨⟨by simp only []; omega, hd⟩, ?_⟩
    simp only [Writer.bits]
    rw [ht]
    simp

theorem bitsLoop_succ (value n : Nat) (w : Writer) : Writer.bitsLoop value (n + 1) w = Writer.bitsLoop value n (w.writeBit (value.testBit n)) := rfl

theorem bitsLoop_spec (value : Nat) : ∀ (n : Nat) (w : Writer), w.WF →
    (Writer.bitsLoop value n w).WF ∧ (Writer.bitsLoop value n w).bits = w.bits ++ numBits n value
  | 0, w, h => ⟨h, by simp [Writer.bitsLoop, numBits]⟩
  | n + 1, w, h => by
    obtain ⟨h1, h2⟩ := writeBit_spec w h (value.testBit n)
    obtain ⟨h3, h4⟩ := bitsLoop_spec value n _ h1
    rw [bitsLoop_succ]
    exact ⟨h3, by rw [h4, h2]; simp [numBits]⟩

theorem writeBits_spec (w : Writer) (h : w.WF) (v n : Nat) :
    (w.writeBits v n).WF ∧ (w.writeBits v n).bits = w.bits ++ numBits (min 64 n) v := bitsLoop_spec v (min 64 n) w h

theorem writeBytes_spec (d : Bytes) : ∀ (w : Writer), w.WF → (w.writeBytes d).WF ∧ (w.writeBytes d).bits = w.bits ++ bitsOf d := by
  induction d with
  | nil => intro w h; exact ⟨h, by simp [Writer.writeBytes, bitsOf]⟩
  | cons b d ih =>
    intro w h
    obtain ⟨h1, h2⟩ := writeBits_spec w h b.toNat 8
    obtain ⟨h3, h4⟩ := ih _ h1
    rw [show w.writeBytes (b :: d) = (w.writeBits b.toNat 8).writeBytes d from List.foldl_cons ..]
    refine ⟨h3, ?_⟩
    rw [h4, h2, bitsOf_cons, List.append_assoc]
    rfl

theorem run_spec (w : Writer) (h : w.WF) (x : Write) : (x.run w).WF ∧ (x.run w).bits = w.bits ++ x.meaning := by
  cases x with
  | bit b => exact writeBit_spec w h b
  | bits v n => exact bitsLoop_spec v _ w h
  | bytes d => exact writeBytes_spec d w h

theorem fold_spec (ws : List Write) : ∀ w : Writer, w.WF → (ws.foldl Write.run w).WF ∧
    (ws.foldl Write.run w).bits = w.bits ++ ws.flatMap Write.meaning := by
  induction ws with
  | nil => intro w h; exact ⟨h, by simp⟩
  | cons x ws ih =>
    intro w h
    obtain ⟨h1, h2⟩ := run_spec w h x
    obtain ⟨h3, h4⟩ := ih _ h1
    exact ⟨h3, by rw [List.foldl_cons, h4, h2]; simp⟩

theorem flush_spec (w : Writer) (h : w.WF) : ∃ k < 8, bitsOf w.flush.out = w.bits ++ List.replicate k false := by
  unfold Writer.flush
  by_cases h0 : w.offset = 0
  · refine ⟨0, by decide, ?_⟩
    simp [h0, Writer.bits]
  · refine ⟨8 - w.offset, by omega, ?_⟩
    simp only [ne_eq, h0, not_false_eq_true, if_true, Writer.unload, bitsOf_append, Writer.bits]
    rw [← h.clear, List.append_assoc, List.take_append_drop]
    simp [bitsOf, byteBits]

/-- What is written is exactly the bits meant, padded with fewer than eight zero bits. -/
theorem C30_written (ws : List Write) : ∃ k < 8, bitsOf (written ws) = ws.flatMap Write.meaning ++ List.replicate k false := by
  obtain ⟨h1, h2⟩ := fold_spec ws _ init_wf
  obtain ⟨k, hk, h3⟩ := flush_spec _ h1
  refine ⟨k, hk, ?_⟩
  unfold written
  rw [h3, h2]
  rfl

/-! ## reader -/

/-- The reader stands at bit `p` of the data: either before the first load, or inside (or at the end of) the byte last read. -/
def At (d : Bytes) (p : Nat) (r : Reader) : Prop :=
  r.src.data = d ∧ r.src.good = true ∧ r.src.pos ≤ d.length ∧ d.length ≤ r.src.rem + r.src.pos ∧ d.length ≤ maxSize ∧
  ((r.src.pos = 0 ∧ r.offset = 8 ∧ p = 0) ∨
   (∃ b, 0 < r.src.pos ∧ d[r.src.pos - 1]? = some b ∧ r.byte = b ∧ r.offset ≤ 8 ∧ p = 8 * (r.src.pos - 1) + r.offset))

theorem init_at (d : Bytes) (h : d.length ≤ maxSize) : At d 0 (Reader.init d) :=
  ⟨rfl, rfl, Nat.zero_le _, by simpa [Reader.init, RS.init] using h, h, .inl ⟨rfl, rfl, rfl⟩⟩

/-- The bit at a position. -/
theorem bitsOf_getElem (d : Bytes) (i o : Nat) (ho : o < 8) (b : UInt8) (hb : d[i]? = some b) : (bitsOf d)[8 * i + o]? = some (getLeft b o) := by
  induction d generalizing i with
  | nil => simp at hb
  | cons x d ih =>
    rw [bitsOf_cons]
    cases i with
    | zero =>
      simp at hb; subst hb
      rw [List.getElem?_append_left (by simp; omega)]
      simpa using getLeft_eq x o ho
    | succ i =>
      rw [List.getElem?_append_right (by simp; omega)]
      have := ih i (by simpa using hb)
      rw [← this]
      congr 1
      simp; omega

theorem noteSize_small {n : Nat} (h : n < offMax) (s : RS) : noteSize n s = s := if_pos h

theorem doRead_one {s : RS} (hg : s.good = true) (hr : 1 ≤ s.rem) (hp : s.pos < s.data.length) :
    doRead 1 s = ([s.data[s.pos]], { s with rem := s.rem - 1, pos := s.pos + 1 }) := by
  unfold doRead
  rw [if_neg (by omega), noteSize_small (by decide)]
  simp only [hg, if_true]
  rw [if_neg (by omega)]
  simp only [RS.rest]
  rw [List.drop_eq_getElem_cons hp]; rfl

theorem doRewind_two {s : RS} (hg : s.good = true) (hp : 2 ≤ s.pos) :
    (doRewind 2 s).2 = { s with rem := cadd s.rem 2, pos := s.pos - 2 } := by
  unfold doRewind
  rw [noteSize_small (by decide)]
  simp only [hg, if_true]
  rw [if_neg (by decide), if_neg (by omega)]

theorem load_at {d : Bytes} {p : Nat} {r : Reader} (h : At d p r) (h8 : r.offset = 8) (hp : p < 8 * d.length) :
    At d p r.load ∧ r.load.offset = 0 ∧ 0 < r.load.src.pos := by
  obtain ⟨h1, h2, h3, h4, h5, h6⟩ := h
  have hpos : p = 8 * r.src.pos := by
    rcases h6 with ⟨a, b, c⟩ | ⟨b, a, _, _, _, e⟩
    · omega
    · omega
  have hlt : r.src.pos < d.length := by omega
  have hlt' : r.src.pos < r.src.data.length := by rw [h1]; exact hlt
  have hread := doRead_one (s := r.src) h2 (by omega) hlt'
  unfold Reader.load
  rw [hread]
  refine ⟨⟨h1, h2, ?_, ?_, ?_, .inr ⟨r.src.data[r.src.pos], ?_, ?_, rfl, ?_, ?_⟩⟩, rfl, ?_⟩
  · simp only []; omega
  · simp only []; omega
  · omega
  · simp only []; omega
  · simp only [Nat.add_sub_cancel, ← h1]; exact List.getElem?_eq_getElem _
  · simp only []; omega
  · simp only []; omega
  · simp only []; omega

/-- Reading a bit inside of the data returns that bit and moves on by one. -/
theorem readBit_at {d : Bytes} {p : Nat} {r : Reader} (h : At d p r) (hp : p < 8 * d.length) :
    (bitsOf d)[p]? = some r.readBit.1 ∧ At d (p + 1) r.readBit.2 := by
  have key : ∀ r : Reader, At d p r → r.offset < 8 → 0 < r.src.pos → (bitsOf d)[p]? = some (getLeft r.byte r.offset) ∧
      At d (p + 1) { r with offset := r.offset + 1 } := by
    rintro r ⟨h1, h2, h3, h4, h5, h6⟩ ho hpos
    rcases h6 with ⟨a, -, -⟩ | ⟨b, a, e, e2, e3, e4⟩
    · omega
    · refine ⟨?_, h1, h2, h3, h4, h5, .inr ⟨b, a, e, e2, by simp; omega, by simp; omega⟩⟩
      rw [e4, e2]; exact bitsOf_getElem d _ _ ho b e
  unfold Reader.readBit
  by_cases h8 : 8 - r.offset = 0
  · have h8' : r.offset = 8 := by
      obtain ⟨-, -, -, -, -, h6⟩ := h
      rcases h6 with ⟨-, a, -⟩ | ⟨b, -, -, -, a, -⟩ <;> omega
    obtain ⟨g1, g2, g3⟩ := load_at h h8' hp
    simp only [h8, if_true]
    exact key _ g1 (by omega) g3
  · simp only [h8, if_false]
    refine key r h (by omega) ?_
    obtain ⟨-, -, -, -, -, h6⟩ := h
    rcases h6 with ⟨-, a, -⟩ | ⟨b, a, -⟩ <;> omega

theorem skipBit_eq (r : Reader) : r.skipBit = r.readBit.2 := rfl

/-- Rewinding by a bit undoes a read. -/
theorem rewindBit_at {d : Bytes} {p : Nat} {r : Reader} (h : At d (p + 1) r) : At d p r.rewindBit := by
  obtain ⟨h1, h2, h3, h4, h5, h6⟩ := h
  rcases h6 with ⟨-, -, a⟩ | ⟨b, a, e, e2, e3, e4⟩
  · omega
  · unfold Reader.rewindBit
    by_cases h0 : r.offset = 0
    · have hpos : 2 ≤ r.src.pos := by omega
      have hlt : r.src.pos - 2 < d.length := by omega
      have hrem1 : 1 ≤ cadd r.src.rem 2 := by unfold cadd maxSize; omega
      have hrem3 : d.length + 2 ≤ cadd r.src.rem 2 + r.src.pos := by unfold cadd; omega
      have hread := doRead_one (s := (doRewind 2 r.src).2) (by rw [doRewind_two h2 hpos]; exact h2) (by rw [doRewind_two h2 hpos]; exact hrem1)
        (by rw [doRewind_two h2 hpos]; simp only [h1]; exact hlt)
      have hb : (doRewind 2 r.src).2.data[(doRewind 2 r.src).2.pos]'(by rw [doRewind_two h2 hpos]; simp only [h1]; exact hlt) = d[r.src.pos - 2] := by
        simp only [doRewind_two h2 hpos, h1]
      rw [hb] at hread
      rw [doRewind_two h2 hpos] at hread
      simp only [h0, if_true, Reader.reload, doRewind_two h2 hpos, hread]
      refine ⟨h1, h2, ?_, ?_, ?_, .inr ⟨d[r.src.pos - 2], ?_, ?_, rfl, ?_, ?_⟩⟩
      · simp only []; omega
      · simp only []; omega
      · omega
      · simp only []; omega
      · simp only []
        rw [show r.src.pos - 2 + 1 - 1 = r.src.pos - 2 by omega]; exact List.getElem?_eq_getElem hlt
      · simp
      · simp only []; omega
    · simp only [h0, if_false]
      exact ⟨h1, h2, h3, h4, h5, .inr ⟨b, a, e, e2, by simp only []; omega, by simp only []; omega⟩⟩

/-! ## numbers -/

/-- The number a bit string denotes. -/
def toNum : List Bool → Nat
  | [] => 0
  | b :: bs => (if b then 2 ^ bs.length else 0) + toNum bs

theorem toNum_numBits (n v : Nat) : toNum (numBits n v) = v % 2 ^ n := by
  induction n with
  | zero => simp [toNum, numBits, Nat.mod_one]
  | succ n ih =>
    rw [numBits, toNum, ih, numBits_length, Nat.mod_pow_succ, Nat.testBit_eq_decide_div_mod_eq]
    have : v / 2 ^ n % 2 < 2 := Nat.mod_lt _ (by decide)
    by_cases h : v / 2 ^ n % 2 = 1
    · simp [h, Nat.add_comm]
    · simp [show v / 2 ^ n % 2 = 0 by omega]

theorem setRight_eq (out n : Nat) (v : Bool) (h : out % 2 ^ (n + 1) = 0) :
    setRight out n v = out + (if v then 2 ^ n else 0) ∧ setRight out n v % 2 ^ n = 0 := by
  obtain ⟨a, rfl⟩ := Nat.dvd_of_mod_eq_zero h
  have hm : (2 ^ (n + 1) * a) % 2 ^ n = 0 := by
    rw [Nat.pow_succ, Nat.mul_assoc]; exact Nat.mul_mod_right _ _
  have e : setRight (2 ^ (n + 1) * a) n v = 2 ^ (n + 1) * a + (if v then 2 ^ n else 0) := by
    unfold setRight
    cases v with
    | true =>
      simp only [if_true]
      exact (Nat.two_pow_add_eq_or_of_lt (Nat.pow_lt_pow_right (by decide) (Nat.lt_succ_self n)) a).symm
    | false =>
      have : (2 ^ (n + 1) * a).testBit n = false := by
        rw [Nat.testBit_two_pow_mul]
        simp [show ¬ n + 1 ≤ n by omega]
      simp [this]
  refine ⟨e, ?_⟩
  rw [e]
  cases v
  · simpa using hm
  · simp only [if_true]; rw [Nat.add_mod, hm]; simp

/-- The bits of the data from a position on. -/
theorem drop_cons_of_getElem {l : List Bool} {p : Nat} {b : Bool} (h : l[p]? = some b) : l.drop p = b :: l.drop (p + 1) := by
  obtain ⟨hp, rfl⟩ := List.getElem?_eq_some_iff.1 h
  exact List.drop_eq_getElem_cons hp

theorem readLoop_succ (n out : Nat) (r : Reader) : Reader.bitsLoop (n + 1) out r = Reader.bitsLoop n (setRight out n r.readBit.1) r.readBit.2 := rfl

theorem readLoop_at {d : Bytes} : ∀ (n p out : Nat) (r : Reader), At d p r → p + n ≤ 8 * d.length → out % 2 ^ n = 0 →
    (Reader.bitsLoop n out r).1 = out + toNum (((bitsOf d).drop p).take n) ∧ At d (p + n) (Reader.bitsLoop n out r).2 := by
  intro n
  induction n with
  | zero => intro p out r h _ _; exact ⟨by simp [Reader.bitsLoop, toNum], h⟩
  | succ n ih =>
    intro p out r h hp ho
    obtain ⟨g1, g2⟩ := readBit_at h (by omega)
    obtain ⟨e1, e2⟩ := setRight_eq out n r.readBit.1 ho
    obtain ⟨i1, i2⟩ := ih (p + 1) _ _ g2 (by omega) e2
    rw [readLoop_succ]
    refine ⟨?_, by rw [show p + (n + 1) = p + 1 + n by omega]; exact i2⟩
    rw [i1, e1, drop_cons_of_getElem g1, List.take_succ_cons, toNum]
    have : (((bitsOf d).drop (p + 1)).take n).length = n := by
      rw [List.length_take, List.length_drop, bitsOf_length]; omega
    rw [this]; omega

theorem readBits_at {d : Bytes} {p : Nat} {r : Reader} (h : At d p r) (n : Nat) (hp : p + min 64 n ≤ 8 * d.length) :
    (r.readBits n).1 = toNum (((bitsOf d).drop p).take (min 64 n)) ∧ At d (p + min 64 n) (r.readBits n).2 := by
  have := readLoop_at (min 64 n) p 0 r h hp (by simp)
  unfold Reader.readBits
  exact ⟨by rw [this.1]; omega, this.2⟩

theorem readBytes_at {d : Bytes} : ∀ (n p : Nat) (r : Reader), At d p r → p + 8 * n ≤ 8 * d.length →
    bitsOf (r.readBytes n).1 = ((bitsOf d).drop p).take (8 * n) ∧ (r.readBytes n).1.length = n ∧ At d (p + 8 * n) (r.readBytes n).2 := by
  intro n
  induction n with
  | zero => intro p r h _; exact ⟨by simp [Reader.readBytes, bitsOf], rfl, h⟩
  | succ n ih =>
    intro p r h hp
    obtain ⟨g1, g2⟩ := readBits_at h 8 (by omega)
    obtain ⟨i1, i2, i3⟩ := ih (p + min 64 8) _ g2 (by omega)
    have e : r.readBytes (n + 1) = (UInt8.ofNat (r.readBits 8).1 :: ((r.readBits 8).2.readBytes n).1, ((r.readBits 8).2.readBytes n).2) := rfl
    rw [e]
    refine ⟨?_, by simp [i2], by rw [show p + 8 * (n + 1) = p + min 64 8 + 8 * n by omega]; exact i3⟩
    simp only []
    rw [bitsOf_cons, i1, g1]
    have hb : byteBits (UInt8.ofNat (toNum (((bitsOf d).drop p).take (min 64 8)))) = ((bitsOf d).drop p).take 8 := by
      have hlen : (((bitsOf d).drop p).take 8).length = 8 := by
        rw [List.length_take, List.length_drop, bitsOf_length]; omega
      show byteBits (UInt8.ofNat (toNum (((bitsOf d).drop p).take 8))) = _
      generalize ((bitsOf d).drop p).take 8 = q at hlen
      match q, hlen with
      | [a1, a2, a3, a4, a5, a6, a7, a8], _ => revert a1 a2 a3 a4 a5 a6 a7 a8; decide +kernel
    rw [hb, show p + min 64 8 = p + 8 by omega, ← List.drop_drop, show 8 * (n + 1) = 8 + 8 * n by omega, List.take_add]

theorem byteBits_inj {a b : UInt8} (h : byteBits a = byteBits b) : a = b := by
  have := congrArg toNum h
  unfold byteBits at this
  rw [toNum_numBits, toNum_numBits, Nat.mod_eq_of_lt a.toNat_lt, Nat.mod_eq_of_lt b.toNat_lt] at this
  exact UInt8.toNat_inj.1 this

theorem bitsOf_inj : ∀ {a b : Bytes}, bitsOf a = bitsOf b → a = b
  | [], [], _ => rfl
  | [], b :: bs, h => by have := congrArg List.length h; simp [bitsOf_length] at this
  | a :: as, [], h => by have := congrArg List.length h; simp [bitsOf_length] at this
  | a :: as, b :: bs, h => by
    rw [bitsOf_cons, bitsOf_cons] at h
    obtain ⟨h1, h2⟩ := List.append_inj h (by simp)
    rw [byteBits_inj h1, bitsOf_inj h2]

/-! ## C30 -/

theorem take_drop_of_append {l a b : List Bool} {p : Nat} (h : l.drop p = a ++ b) : (l.drop p).take a.length = a ∧ l.drop (p + a.length) = b := by
  rw [← List.drop_drop, h]; simp

/-- A mirrored read at the place of a write returns what was written. -/
theorem read_mirror {d : Bytes} {p : Nat} {r : Reader} (h : At d p r) (w : Write) (rest : List Bool)
    (hd : (bitsOf d).drop p = w.meaning ++ rest) :
    (w.read r).1 = w.value ∧ ∃ q, At d q (w.read r).2 ∧ (bitsOf d).drop q = rest := by
  have hlen : p + w.meaning.length ≤ 8 * d.length ∨ w.meaning.length = 0 := by
    have := congrArg List.length hd
    rw [List.length_drop, bitsOf_length, List.length_append] at this
    omega
  have hple : p ≤ 8 * d.length := by
    obtain ⟨-, -, h3, -, -, h6⟩ := h
    rcases h6 with ⟨-, -, a⟩ | ⟨b, _, -, -, _, _⟩ <;> omega
  have hle : p + w.meaning.length ≤ 8 * d.length := by omega
  obtain ⟨t1, t2⟩ := take_drop_of_append hd
  cases w with
  | bit b =>
    simp only [Write.meaning, List.length_singleton] at *
    obtain ⟨g1, g2⟩ := readBit_at h (by omega)
    rw [drop_cons_of_getElem g1] at hd
    simp at hd
    exact ⟨by simp [Write.read, Write.value, hd.1], p + 1, g2, hd.2⟩
  | bits v n =>
    simp only [Write.meaning, numBits_length] at *
    obtain ⟨g1, g2⟩ := readBits_at h n hle
    refine ⟨?_, _, g2, t2⟩
    simp only [Write.read, Write.value]
    rw [g1, t1, toNum_numBits]
  | bytes b =>
    simp only [Write.meaning, bitsOf_length] at *
    obtain ⟨g1, g2, g3⟩ := readBytes_at b.length p r h hle
    refine ⟨?_, _, g3, t2⟩
    simp only [Write.read, Write.value]
    rw [t1] at g1
    rw [bitsOf_inj g1]

theorem readAll_mirror {d : Bytes} : ∀ (ws : List Write) (p : Nat) (r : Reader) (rest : List Bool), At d p r →
    (bitsOf d).drop p = ws.flatMap Write.meaning ++ rest →
    (Spec.readAll r ws).1 = ws.map Write.value ∧ (Spec.readAll r ws).2.src.good = true := by
  intro ws
  induction ws with
  | nil => intro p r rest h _; exact ⟨rfl, h.2.1⟩
  | cons w ws ih =>
    intro p r rest h hd
    rw [List.flatMap_cons, List.append_assoc] at hd
    obtain ⟨e, q, hq, hd'⟩ := read_mirror h w _ hd
    obtain ⟨i1, i2⟩ := ih q _ rest hq hd'
    simp only [Spec.readAll, List.map_cons]
    exact ⟨by rw [e, i1], i2⟩

/-- Any sequence of writes, flushed, is read back by the mirrored reads, and the reader stays valid. -/
theorem C30_roundtrip (ws : List Write) (hs : (written ws).length ≤ maxSize) :
    (Spec.readAll (Reader.init (written ws)) ws).1 = ws.map Write.value ∧ (Spec.readAll (Reader.init (written ws)) ws).2.src.good = true := by
  obtain ⟨k, _, h⟩ := C30_written ws
  exact readAll_mirror ws 0 _ _ (init_at _ hs) h

/-- A movement of the reader by one bit. -/
inductive Move where
  | read
  | skip
  | rewind

/-- Do a movement, recording the bit read. -/
def Move.run (s : List Bool × Reader) : Move → List Bool × Reader
  | .read => (s.1 ++ [s.2.readBit.1], s.2.readBit.2)
  | .skip => (s.1, s.2.skipBit)
  | .rewind => (s.1, s.2.rewindBit)

/-- The same on a bit string and a position; `none` when leaving the string. -/
def Move.ideal (bits : List Bool) (s : List Bool × Nat) : Move → Option (List Bool × Nat)
  | .read => (bits[s.2]?).map fun b => (s.1 ++ [b], s.2 + 1)
  | .skip => (bits[s.2]?).map fun _ => (s.1, s.2 + 1)
  | .rewind => if s.2 = 0 then none else some (s.1, s.2 - 1)

/-- Every history of reading, skipping and rewinding bits inside of the data is random access into its bits. -/
theorem C30_position (d : Bytes) (hs : d.length ≤ maxSize) (ms : List Move) (out : List Bool) (p : Nat)
    (h : ms.foldlM (Move.ideal (bitsOf d)) ([], 0) = some (out, p)) :
    (ms.foldl Move.run ([], Reader.init d)).1 = out ∧ (ms.foldl Move.run ([], Reader.init d)).2.src.good = true := by
  have key : ∀ (ms : List Move) (o : List Bool) (q : Nat) (r : Reader), At d q r →
      ms.foldlM (Move.ideal (bitsOf d)) (o, q) = some (out, p) →
      (ms.foldl Move.run (o, r)).1 = out ∧ (ms.foldl Move.run (o, r)).2.src.good = true := by
    intro ms
    induction ms with
    | nil => intro o q r hr h; simp at h; exact ⟨h.1, hr.2.1⟩
    | cons m ms ih =>
      intro o q r hr h
      rw [List.foldlM_cons] at h
      rw [List.foldl_cons]
      have hlt : ∀ b, (bitsOf d)[q]? = some b → q < 8 * d.length := by
        intro b hb
        obtain ⟨hq, -⟩ := List.getElem?_eq_some_iff.1 hb
        rwa [bitsOf_length] at hq
      cases m with
      | read =>
        cases hb : (bitsOf d)[q]? with
        | none => simp [Move.ideal, hb] at h
        | some b =>
          simp [Move.ideal, hb] at h
          obtain ⟨g1, g2⟩ := readBit_at hr (hlt b hb)
          rw [hb] at g1; cases g1
          exact ih _ _ _ g2 h
      | skip =>
        cases hb : (bitsOf d)[q]? with
        | none => simp [Move.ideal, hb] at h
        | some b =>
          simp [Move.ideal, hb] at h
          obtain ⟨g1, g2⟩ := readBit_at hr (hlt b hb)
          exact ih _ _ _ g2 h
      | rewind =>
        cases q with
        | zero => simp [Move.ideal] at h
        | succ q =>
          simp [Move.ideal] at h
          exact ih _ _ _ (rewindBit_at hr) h
  exact key ms [] 0 _ (init_at d hs) h

/-- Reading past the end gives zero and invalidates the reader. -/
theorem C30_exhausted (d : Bytes) (r : Reader) (h : At d (8 * d.length) r) : r.readBit.1 = false ∧ r.readBit.2.src.good = false := by
  obtain ⟨h1, h2, h3, h4, h5, h6⟩ := h
  have ho : r.offset = 8 ∧ r.src.pos = d.length := by
    rcases h6 with ⟨a, b, c⟩ | ⟨b, a, _, _, _, e⟩ <;> omega
  have hread : (doRead 1 r.src).1.headD 0 = 0 ∧ (doRead 1 r.src).2.good = false := by
    unfold doRead
    split
    · exact ⟨rfl, rfl⟩
    · rw [noteSize_small (by decide)]
      simp only [h2, if_true, h1]
      rw [if_pos (by omega)]
      simp only [RS.rest, ho.2, List.drop_length]
      exact ⟨rfl, trivial⟩
  unfold Reader.readBit
  simp only [ho.1, Nat.sub_self, if_true, Reader.load]
  exact ⟨by rw [hread.1]; decide, hread.2⟩

/-- Peeking shows the next eight bits, if some bit of the buffered byte was already taken and the next byte exists. -/
theorem C30_peek_partial (d : Bytes) (p : Nat) (r : Reader) (h : At d p r) (h0 : r.offset ≠ 0) (hp : r.src.pos < d.length) (hr : r.src.rem ≠ 0) :
    byteBits r.peekByte.1 = ((bitsOf d).drop p).take 8 ∧ r.peekByte.2 = r := by
  obtain ⟨h1, h2, h3, h4, h5, h6⟩ := h
  have hpk : Verif.peekByte r.src = (d[r.src.pos], r.src) := by
    unfold Verif.peekByte
    rw [if_neg hr, h1]
    simp only [h2, Bool.true_and, decide_eq_true_eq]
    rw [if_pos hp]
    simp only [RS.rest, h1]
    rw [List.drop_eq_getElem_cons hp]; rfl
  have hbits : ∀ (x y : UInt8), ∀ o < 9, 0 < o → byteBits (UInt8.ofNat (x.toNat <<< o ||| y.toNat >>> (8 - o))) = (byteBits x).drop o ++ (byteBits y).take o := by
    intro x y o ho h0
    have tb : ∀ (z : Nat), byteBits (UInt8.ofNat z) = (List.range 8).map fun i => z.testBit (7 - i) := by
      intro z
      unfold byteBits
      have : ∀ i < 8, (UInt8.ofNat z).toNat.testBit i = z.testBit i := by
        intro i hi
        rw [UInt8.toNat_ofNat', Nat.testBit_mod_two_pow]; simp [hi]
      simp only [numBits]
      rw [this 7 (by decide), this 6 (by decide), this 5 (by decide), this 4 (by decide), this 3 (by decide), this 2 (by decide), this 1 (by decide), this 0 (by decide)]
      rfl
    rw [tb]
    have e : ∀ i < 8, (x.toNat <<< o ||| y.toNat >>> (8 - o)).testBit (7 - i) =
        if i + o < 8 then x.toNat.testBit (7 - (i + o)) else y.toNat.testBit (7 - (i + o - 8)) := by
      intro i hi
      rw [Nat.testBit_or, Nat.testBit_shiftLeft, Nat.testBit_shiftRight]
      by_cases hio : i + o < 8
      · have hy : y.toNat.testBit (8 - o + (7 - i)) = false :=
          Nat.testBit_lt_two_pow (Nat.lt_of_lt_of_le y.toNat_lt (Nat.pow_le_pow_right (n := 2) (by decide) (by omega : 8 ≤ 8 - o + (7 - i))))
        simp [hio, hy, show 7 - i ≥ o by omega, show 7 - i - o = 7 - (i + o) by omega]
      · have h7 : ¬ 7 - i ≥ o := by omega
        simp [hio, h7]
        congr 1; omega
    apply List.ext_getElem?
    intro i
    by_cases hi : i < 8
    · rw [List.getElem?_map, List.getElem?_range hi]
      simp only [Option.map_some]
      rw [e i hi]
      have bb : ∀ (z : UInt8) (j : Nat), j < 8 → (byteBits z)[j]? = some (z.toNat.testBit (7 - j)) := by
        intro z j hj
        unfold byteBits
        simp only [numBits]
        match j, hj with
        | 0, _ => rfl
        | 1, _ => rfl
        | 2, _ => rfl
        | 3, _ => rfl
        | 4, _ => rfl
        | 5, _ => rfl
        | 6, _ => rfl
        | 7, _ => rfl
      by_cases hio : i + o < 8
      · rw [List.getElem?_append_left (by simp; omega), List.getElem?_drop, Nat.add_comm o i, bb _ _ hio, if_pos hio]
      · rw [List.getElem?_append_right (by simp; omega), if_neg hio, List.getElem?_take, if_pos (by simp; omega)]
        simp only [List.length_drop, byteBits_length]
        rw [show i - (8 - o) = i + o - 8 by omega, bb _ _ (by omega)]
    · rw [List.getElem?_eq_none (by simp; omega), List.getElem?_eq_none (by simp; omega)]
  have hdrop : ∀ (i : Nat) (l : Bytes), (bitsOf l).drop (8 * i) = bitsOf (l.drop i) := by
    intro i l
    induction l generalizing i with
    | nil => simp [bitsOf]
    | cons b l ih =>
      cases i with
      | zero => rfl
      | succ i =>
        rw [bitsOf_cons, List.drop_append, List.drop_of_length_le (by simp; omega)]
        simp only [byteBits_length, List.nil_append, List.drop_succ_cons]
        rw [show 8 * (i + 1) - 8 = 8 * i by omega, ih]
  unfold Reader.peekByte
  simp only [h0, if_false, hpk]
  refine ⟨?_, trivial⟩
  have ho8 : r.offset ≤ 8 := by rcases h6 with ⟨-, a, -⟩ | ⟨b, -, -, -, a, -⟩ <;> omega
  rw [hbits _ _ _ (by omega) (by omega)]
  rcases h6 with ⟨a, b, c⟩ | ⟨b, a, e, e2, e3, e4⟩
  · rw [c, b, List.drop_zero]
    have : d = d[r.src.pos] :: d.drop 1 := by
      have := List.drop_eq_getElem_cons hp
      simp only [a] at this ⊢
      simpa using this
    generalize hx : d[r.src.pos] = x at this
    rw [this, bitsOf_cons, List.take_append, List.drop_of_length_le (by simp), List.take_of_length_le (l := byteBits x) (by simp)]
    simp
  · have hlt : r.src.pos - 1 < d.length := by omega
    have hb : d[r.src.pos - 1] = b := by rw [List.getElem?_eq_getElem hlt] at e; exact Option.some.inj e
    rw [e4, ← List.drop_drop, hdrop, List.drop_eq_getElem_cons hlt, hb, e2, bitsOf_cons]
    have hd2 : d.drop (r.src.pos - 1 + 1) = d[r.src.pos] :: d.drop (r.src.pos + 1) := by
      rw [show r.src.pos - 1 + 1 = r.src.pos by omega]; exact List.drop_eq_getElem_cons hp
    rw [hd2, bitsOf_cons, List.drop_append, List.take_append]
    have hz : r.offset - (byteBits b).length = 0 := by simp; omega
    rw [hz, List.drop_zero]
    congr 1
    · rw [List.take_of_length_le (by simp)]
    · rw [List.take_append]
      simp only [List.length_drop, byteBits_length]
      rw [show 8 - (8 - r.offset) = r.offset by omega, show r.offset - 8 = 0 by omega]
      simp

/-- After rewinding to the start of a byte, peeking shows the byte after it. -/
theorem C30_peek_counterexample : ∃ (d : Bytes) (r : Reader), r = (Reader.init d).readBit.2.rewindBit ∧ r.readBit.1 = true ∧ r.peekByte.1 = 0 :=
  ⟨[0x80, 0], _, rfl, by decide +kernel, by decide +kernel⟩

/-- Non-vacuity: mixed widths, crossing bytes. -/
example : written [.bit true, .bits 5 4, .bytes [0xff], .bits 1 1] = [0xaf, 0xfc] ∧
    (Spec.readAll (Reader.init [0xaf, 0xfc]) [.bit true, .bits 5 4, .bytes [0xff], .bits 1 1]).1 = [.bit true, .num 5, .bytes [0xff], .num 1] := by
  decide +kernel

end Verif.Bit
