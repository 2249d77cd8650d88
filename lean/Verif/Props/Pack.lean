import Verif.Model.Pack
import Verif.Props.Bits
import Verif.Props.Radix
/-!
# C34 packing of 5 and 11 bit groups, C33 base32
-/
namespace Verif.Pack
open Verif Verif.Bit Verif.Bit.Spec

/-! ## reading past the end -/

/-- The reader failed. -/
def Past (r : Bit.Reader) : Prop := r.src.good = false ∧ r.byte = 0

theorem getLeft_zero (o : Nat) : getLeft 0 o = false := by
  unfold getLeft; simp

theorem doRead_bad {s : RS} (h : s.good = false) : (doRead 1 s).1.headD 0 = 0 ∧ (doRead 1 s).2.good = false := by
  unfold doRead
  split
  · exact ⟨rfl, rfl⟩
  · rw [noteSize_small (by decide)]
    simp only [h]
    exact ⟨rfl, rfl⟩

theorem readBit_past {r : Bit.Reader} (h : Past r) : r.readBit.1 = false ∧ Past r.readBit.2 := by
  unfold Bit.Reader.readBit
  by_cases h8 : 8 - r.offset = 0
  · simp only [h8, if_true]
    obtain ⟨h1, h2⟩ := doRead_bad h.1
    unfold Bit.Reader.load
    simp only [h1, getLeft_zero, true_and]
    exact ⟨h2, rfl⟩
  · simp only [h8, if_false, h.2, getLeft_zero, true_and]
    exact ⟨h.1, rfl⟩

theorem readBit_end {d : Bytes} {r : Bit.Reader} (h : At d (8 * d.length) r) : r.readBit.1 = false ∧ Past r.readBit.2 := by
  obtain ⟨h1, h2, h3, h4, h5, h6⟩ := h
  have ho : r.offset = 8 ∧ r.src.pos = d.length := by
    rcases h6 with ⟨a, b, c⟩ | ⟨b, a, _, _, _, e⟩ <;> omega
  have hread : (doRead 1 r.src).1.headD 0 = 0 ∧ (doRead 1 r.src).2.good = false := by
    unfold doRead
    split
    · exact ⟨rfl, rfl⟩
    · rw [noteSize_small (by decide)]
      simp only [h2, if_true, h1]
      rw [if_pos (by omega)]
      simp only [RS.rest, ho.2, List.drop_length]
      exact ⟨rfl, trivial⟩
  unfold Bit.Reader.readBit
  simp only [ho.1, Nat.sub_self, if_true, Bit.Reader.load, hread.1, getLeft_zero, true_and]
  exact ⟨hread.2, rfl⟩

theorem toNum_zeros (n : Nat) : toNum (List.replicate n false) = 0 := by
  induction n with
  | zero => rfl
  | succ n ih => simp [List.replicate_succ, toNum, ih]

theorem bitsLoop_past : ∀ (n out : Nat) (r : Bit.Reader), Past r → out % 2 ^ n = 0 → (Bit.Reader.bitsLoop n out r).1 = out ∧ Past (Bit.Reader.bitsLoop n out r).2
  | 0, out, r, h, _ => ⟨rfl, h⟩
  | n + 1, out, r, h, ho => by
    obtain ⟨h1, h2⟩ := readBit_past h
    obtain ⟨e1, e2⟩ := setRight_eq out n false ho
    rw [readLoop_succ, h1, e1]
    rw [e1] at e2
    simpa using bitsLoop_past n _ _ h2 e2

/-- Reading bits up to or past the end: the missing bits are zeros, and then the reader fails. -/
theorem bitsLoop_mixed {d : Bytes} : ∀ (n p out : Nat) (r : Bit.Reader), At d p r → p ≤ 8 * d.length → out % 2 ^ n = 0 →
    (Bit.Reader.bitsLoop n out r).1 = out + toNum (((bitsOf d).drop p ++ List.replicate n false).take n) ∧
    (p + n ≤ 8 * d.length → At d (p + n) (Bit.Reader.bitsLoop n out r).2) ∧
    (8 * d.length < p + n → Past (Bit.Reader.bitsLoop n out r).2)
  | 0, p, out, r, h, _, _ => ⟨by simp [Bit.Reader.bitsLoop, toNum], fun _ => h, fun _ => by omega⟩
  | n + 1, p, out, r, h, hp, ho => by
    rw [readLoop_succ]
    by_cases hlt : p < 8 * d.length
    · obtain ⟨g1, g2⟩ := readBit_at h hlt
      obtain ⟨e1, e2⟩ := setRight_eq out n r.readBit.1 ho
      obtain ⟨i1, i2, i3⟩ := bitsLoop_mixed n (p + 1) _ _ g2 (by omega) e2
      refine ⟨?_, fun hh => by rw [show p + (n + 1) = p + 1 + n by omega]; exact i2 (by omega), fun hh => i3 (by omega)⟩
      rw [i1, e1, drop_cons_of_getElem g1, List.cons_append, List.take_succ_cons, toNum]
      have e : (List.drop (p + 1) (bitsOf d) ++ List.replicate (n + 1) false).take n = (List.drop (p + 1) (bitsOf d) ++ List.replicate n false).take n := by
        rw [List.replicate_succ', ← List.append_assoc, List.take_append_of_le_length (by simp)]
      rw [e]
      have : ((List.drop (p + 1) (bitsOf d) ++ List.replicate n false).take n).length = n := by simp
      rw [this]; omega
    · have hp8 : p = 8 * d.length := by omega
      subst hp8
      obtain ⟨g1, g2⟩ := readBit_end h
      obtain ⟨e1, e2⟩ := setRight_eq out n false ho
      rw [g1, e1]
      rw [e1] at e2
      simp only [Bool.false_eq_true, if_false, Nat.add_zero] at e2 ⊢
      obtain ⟨i1, i2⟩ := bitsLoop_past n out _ g2 e2
      refine ⟨?_, fun hh => by omega, fun _ => i2⟩
      rw [i1, List.drop_of_length_le (by rw [bitsOf_length]; omega), List.nil_append, List.take_of_length_le (by simp), toNum_zeros]
      omega

theorem exhausted_at {d : Bytes} {p : Nat} {r : Bit.Reader} (h : At d p r) : exhausted r = true ↔ p = 8 * d.length := by
  obtain ⟨h1, h2, h3, h4, h5, h6⟩ := h
  unfold exhausted isExhausted
  simp only [h2, h1, Bool.not_true, Bool.false_or, Bool.or_false, Bool.and_eq_true, beq_iff_eq, Bool.or_eq_true, decide_eq_true_eq]
  rcases h6 with ⟨a, b, c⟩ | ⟨b, a, _, _, _, e⟩ <;> omega

theorem numBits_toNum : ∀ l : List Bool, numBits l.length (toNum l) = l
  | [] => rfl
  | b :: l => by
    have ih := numBits_toNum l
    have hlt : toNum l < 2 ^ l.length := by
      clear ih
      induction l with
      | nil => simp [toNum]
      | cons x l ih => rw [toNum, List.length_cons, Nat.pow_succ]; split <;> omega
    have low : ∀ n ≤ l.length, numBits n ((if b then 2 ^ l.length else 0) + toNum l) = numBits n (toNum l) := by
      intro n
      induction n with
      | zero => intro _; rfl
      | succ n ih =>
        intro hn
        rw [numBits, numBits, ih (by omega)]
        congr 1
        cases b
        · simp
        · simp only [if_true]
          rw [Nat.testBit_two_pow_add_gt (by omega)]
    rw [List.length_cons, numBits, toNum, low _ (Nat.le_refl _), ih]
    congr 1
    cases b
    · simp; exact Nat.testBit_lt_two_pow hlt
    · simp only [if_true]
      rw [Nat.testBit_two_pow_add_eq, Nat.testBit_lt_two_pow hlt]; rfl

theorem toNum_lt : ∀ l : List Bool, toNum l < 2 ^ l.length
  | [] => by simp [toNum]
  | b :: l => by have := toNum_lt l; rw [toNum, List.length_cons, Nat.pow_succ]; split <;> omega

/-- Reading all groups from a position. -/
theorem groupsLoop_at {d : Bytes} {k : Nat} (hk : 0 < k) (hk2 : k ≤ 64) : ∀ (fuel p : Nat) (r : Bit.Reader), At d p r → p ≤ 8 * d.length → 8 * d.length < p + fuel →
    (∀ v ∈ groupsLoop k fuel r, v < 2 ^ k) ∧
    ∃ j < k, (groupsLoop k fuel r).flatMap (numBits k) = (bitsOf d).drop p ++ List.replicate j false := by
  intro fuel
  induction fuel with
  | zero => intro p r _ _ h; omega
  | succ fuel ih =>
    intro p r h hp hf
    unfold groupsLoop
    by_cases he : p = 8 * d.length
    · rw [if_pos ((exhausted_at h).2 he)]
      refine ⟨by simp, 0, hk, ?_⟩
      rw [List.drop_of_length_le (by rw [bitsOf_length]; omega)]; rfl
    · rw [if_neg (fun hh => he ((exhausted_at h).1 hh))]
      have hmix := bitsLoop_mixed k p 0 r h hp (by simp)
      have hrb : r.readBits k = Bit.Reader.bitsLoop k 0 r := by unfold Bit.Reader.readBits; rw [Nat.min_eq_right hk2]
      rw [← hrb] at hmix
      obtain ⟨m1, m2, m3⟩ := hmix
      rw [Nat.zero_add] at m1
      have hlen : (((bitsOf d).drop p ++ List.replicate k false).take k).length = k := by simp
      have hv : (r.readBits k).1 < 2 ^ k := by rw [m1]; have := toNum_lt (((bitsOf d).drop p ++ List.replicate k false).take k); rwa [hlen] at this
      have hnb : numBits k (r.readBits k).1 = ((bitsOf d).drop p ++ List.replicate k false).take k := by
        rw [m1]; have := numBits_toNum (((bitsOf d).drop p ++ List.replicate k false).take k); rwa [hlen] at this
      by_cases hle : p + k ≤ 8 * d.length
      · obtain ⟨i1, j, hj, i2⟩ := ih (p + k) _ (m2 hle) hle (by omega)
        refine ⟨?_, j, hj, ?_⟩
        · intro v hv'
          rcases List.mem_cons.1 hv' with rfl | hv'
          · exact hv
          · exact i1 v hv'
        · rw [List.flatMap_cons, i2, hnb, List.take_append_of_le_length (by rw [List.length_drop, bitsOf_length]; omega), ← List.append_assoc,
            ← List.drop_drop, List.take_append_drop]
      · have hpast := m3 (by omega)
        have hnil : groupsLoop k fuel (r.readBits k).2 = [] := by
          cases fuel with
          | zero => rfl
          | succ fuel => unfold groupsLoop; rw [if_pos (by unfold exhausted; rw [hpast.1]; rfl)]
        rw [hnil]
        refine ⟨by simpa using hv, p + k - 8 * d.length, by omega, ?_⟩
        rw [List.flatMap_cons, List.flatMap_nil, List.append_nil, hnb, List.take_append, List.take_of_length_le (by rw [List.length_drop, bitsOf_length]; omega)]
        congr 1
        rw [List.length_drop, bitsOf_length, List.take_replicate]
        congr 1
        omega

theorem groups_spec {k : Nat} (hk : 0 < k) (hk2 : k ≤ 64) (d : Bytes) (hd : d.length ≤ maxSize) : (∀ v ∈ groups k d, v < 2 ^ k) ∧
    ∃ j < k, (groups k d).flatMap (numBits k) = bitsOf d ++ List.replicate j false := by
  have := groupsLoop_at hk hk2 (8 * d.length + 1) 0 _ (init_at d hd) (by omega) (by omega)
  unfold groups
  simpa using this

/-- More fuel changes nothing. -/
theorem groups_fuel {k : Nat} (hk : 0 < k) (hk2 : k ≤ 64) (d : Bytes) (hd : d.length ≤ maxSize) (n : Nat) :
    groupsLoop k (8 * d.length + 1 + n) (Bit.Reader.init d) = groups k d := by
  have key : ∀ (fuel p : Nat) (r : Bit.Reader), At d p r → p ≤ 8 * d.length → 8 * d.length < p + fuel →
      groupsLoop k (fuel + n) r = groupsLoop k fuel r := by
    intro fuel
    induction fuel with
    | zero => intro p r _ _ h; omega
    | succ fuel ih =>
      intro p r h hp hf
      rw [show fuel + 1 + n = fuel + n + 1 by omega]
      unfold groupsLoop
      by_cases he : p = 8 * d.length
      · rw [if_pos ((exhausted_at h).2 he), if_pos ((exhausted_at h).2 he)]
      · rw [if_neg (fun hh => he ((exhausted_at h).1 hh)), if_neg (fun hh => he ((exhausted_at h).1 hh))]
        have hmix := bitsLoop_mixed k p 0 r h hp (by simp)
        have hrb : r.readBits k = Bit.Reader.bitsLoop k 0 r := by unfold Bit.Reader.readBits; rw [Nat.min_eq_right hk2]
        rw [← hrb] at hmix
        congr 1
        by_cases hle : p + k ≤ 8 * d.length
        · exact ih (p + k) _ (hmix.2.1 hle) hle (by omega)
        · have hpast := hmix.2.2 (by omega)
          have hnil : ∀ fuel, groupsLoop k fuel (r.readBits k).2 = [] := by
            intro fuel
            cases fuel with
            | zero => rfl
            | succ fuel => unfold groupsLoop; rw [if_pos (by unfold exhausted; rw [hpast.1]; rfl)]
          rw [hnil, hnil]
  exact key _ 0 _ (init_at d hd) (by omega) (by omega)

theorem writeGroups_spec {k : Nat} (hk2 : k ≤ 64) (g : List Nat) : ∃ j < 8, bitsOf (writeGroups k g) = g.flatMap (numBits k) ++ List.replicate j false := by
  have key : ∀ (g : List Nat) (w : Writer), w.WF → (g.foldl (fun w v => w.writeBits v k) w).WF ∧
      (g.foldl (fun w v => w.writeBits v k) w).bits = w.bits ++ g.flatMap (numBits k) := by
    intro g
    induction g with
    | nil => intro w h; exact ⟨h, by simp⟩
    | cons v g ih =>
      intro w h
      obtain ⟨h1, h2⟩ := writeBits_spec w h v k
      obtain ⟨h3, h4⟩ := ih _ h1
      refine ⟨h3, ?_⟩
      rw [List.foldl_cons, h4, h2, Nat.min_eq_right hk2]; simp
  obtain ⟨h1, h2⟩ := key g _ init_wf
  obtain ⟨j, hj, h3⟩ := flush_spec _ h1
  exact ⟨j, hj, by unfold writeGroups; rw [h3, h2]; rfl⟩

theorem flatMap_length (k : Nat) (g : List Nat) : (g.flatMap (numBits k)).length = k * g.length := by
  induction g with
  | nil => rfl
  | cons v g ih => rw [List.flatMap_cons, List.length_append, ih, numBits_length, List.length_cons, Nat.mul_add]; omega

theorem flatMap_inj {k : Nat} (hk : 0 < k) : ∀ {g h : List Nat}, (∀ v ∈ g, v < 2 ^ k) → (∀ v ∈ h, v < 2 ^ k) → g.flatMap (numBits k) = h.flatMap (numBits k) → g = h
  | [], [], _, _, _ => rfl
  | [], v :: h, _, _, e => by
    have := congrArg List.length e
    rw [flatMap_length, flatMap_length, List.length_cons, Nat.mul_add] at this; simp at this; omega
  | v :: g, [], _, _, e => by
    have := congrArg List.length e
    rw [flatMap_length, flatMap_length, List.length_cons, Nat.mul_add] at this; simp at this; omega
  | v :: g, w :: h, hg, hh, e => by
    rw [List.flatMap_cons, List.flatMap_cons] at e
    obtain ⟨e1, e2⟩ := List.append_inj e (by simp)
    have e3 := congrArg toNum e1
    rw [toNum_numBits, toNum_numBits, Nat.mod_eq_of_lt (hg v (by simp)), Nat.mod_eq_of_lt (hh w (by simp))] at e3
    rw [e3, flatMap_inj hk (fun v hv => hg v (by simp [hv])) (fun v hv => hh v (by simp [hv])) e2]

/-! ## C34 -/

/-- Expansion of bytes into 5 bit groups: their bits are the data's, padded with fewer than five zero bits. -/
theorem C34_unpack32 (d : Bytes) (hd : d.length ≤ maxSize) : (∀ v ∈ unpack32 d, v < 32) ∧
    ∃ j < 5, (unpack32 d).flatMap (numBits 5) = bitsOf d ++ List.replicate j false :=
  groups_spec (by decide) (by decide) d hd

/-- What packing yields: with `j` bits beyond whole bytes, the whole bytes if those bits are zeros, and nothing otherwise. -/
theorem C34_pack32 (g : List Nat) :
    let bits := g.flatMap (numBits 5)
    let whole := 8 * (g.length * 5 / 8)
    (bits.drop whole = List.replicate (g.length * 5 % 8) false → bitsOf (pack32 g) = bits.take whole) ∧
    (bits.drop whole ≠ List.replicate (g.length * 5 % 8) false → pack32 g = []) := by
  intro bits whole
  obtain ⟨j, hj, h⟩ := writeGroups_spec (k := 5) (by decide) g
  have hl := congrArg List.length h
  rw [bitsOf_length, List.length_append, flatMap_length, List.length_replicate] at hl
  have hbl : bits.length = 5 * g.length := flatMap_length 5 g
  unfold pack32
  simp only []
  by_cases h0 : g.length * 5 % 8 = 0
  · rw [if_neg (by simpa using h0)]
    have hj0 : j = 0 := by omega
    subst hj0
    have hw : whole = bits.length := by omega
    refine ⟨fun _ => by rw [h, hw, List.take_length]; simp [bits], fun hne => absurd ?_ hne⟩
    rw [hw, List.drop_length, h0]; rfl
  · rw [if_pos h0]
    have hpl : (writeGroups 5 g).length = g.length * 5 / 8 + 1 := by omega
    obtain ⟨init, last, hp⟩ : ∃ init last, writeGroups 5 g = init ++ [last] := by
      refine ⟨(writeGroups 5 g).dropLast, (writeGroups 5 g).getLast (by intro hh; rw [hh] at hpl; simp at hpl), ?_⟩
      exact (List.dropLast_concat_getLast _).symm
    have hil : init.length = g.length * 5 / 8 := by rw [hp] at hpl; simpa using hpl
    have hbits : bitsOf init ++ byteBits last = bits ++ List.replicate j false := by
      rw [← h, hp, bitsOf_append]; congr 1
    have htake : bitsOf init = bits.take whole := by
      have := congrArg (List.take whole) hbits
      rw [List.take_append_of_le_length (by rw [bitsOf_length]; omega), List.take_of_length_le (by rw [bitsOf_length]; omega),
        List.take_append_of_le_length (by omega)] at this
      exact this
    have hlast : byteBits last = bits.drop whole ++ List.replicate j false := by
      have := congrArg (List.drop whole) hbits
      rw [List.drop_append, List.drop_of_length_le (by rw [bitsOf_length]; omega), bitsOf_length, show whole - 8 * init.length = 0 by omega,
        List.drop_append, show whole - bits.length = 0 by omega] at this
      simpa using this
    have hz : last = 0 ↔ bits.drop whole = List.replicate (g.length * 5 % 8) false := by
      constructor
      · intro e
        rw [e, show byteBits 0 = List.replicate 8 false by decide] at hlast
        have h1 : ∀ x ∈ bits.drop whole, x = false := by
          intro x hx
          have : x ∈ List.replicate 8 false := by rw [hlast]; simp [hx]
          exact List.eq_of_mem_replicate this
        rw [List.eq_replicate_iff]
        refine ⟨?_, h1⟩
        rw [List.length_drop, hbl]; omega
      · intro e
        rw [e, List.replicate_append_replicate, show g.length * 5 % 8 + j = 8 by omega] at hlast
        exact byteBits_inj (hlast.trans (by decide))
    rw [hp, List.getLastD_concat]
    by_cases hl0 : last = 0
    · rw [if_pos hl0]
      refine ⟨fun _ => ?_, fun hne => absurd (hz.1 hl0) hne⟩
      rw [List.length_append, List.length_singleton, Nat.add_sub_cancel, List.take_left' rfl, htake]
    · rw [if_neg hl0]
      exact ⟨fun hh => absurd (hz.2 hh) hl0, fun _ => by simp⟩

/-- Expanding bytes to 5 bit groups and packing them is the identity. -/
theorem C34_roundtrip32 (d : Bytes) (hd : d.length ≤ maxSize) : pack32 (unpack32 d) = d := by
  obtain ⟨-, j, hj, h⟩ := C34_unpack32 d hd
  have hl := congrArg List.length h
  rw [flatMap_length, List.length_append, bitsOf_length, List.length_replicate] at hl
  have hp := (C34_pack32 (unpack32 d)).1
  simp only [h] at hp
  have hw : 8 * ((unpack32 d).length * 5 / 8) = (bitsOf d).length := by rw [bitsOf_length]; omega
  rw [hw, List.drop_left' rfl, List.take_left' rfl] at hp
  exact bitsOf_inj (hp (by congr 1; omega))

/-- Packing 5 bit groups and expanding gives the groups again, exactly if fewer than five bits were padding, all zeros. -/
theorem C34_repack32 (g : List Nat) (hg : ∀ v ∈ g, v < 32) (hs : (pack32 g).length ≤ maxSize) : unpack32 (pack32 g) = g ↔
    g.length * 5 % 8 < 5 ∧ (g.flatMap (numBits 5)).drop (8 * (g.length * 5 / 8)) = List.replicate (g.length * 5 % 8) false := by
  obtain ⟨u1, j, hj, u2⟩ := C34_unpack32 (pack32 g) hs
  obtain ⟨p1, p2⟩ := C34_pack32 g
  have hbl := flatMap_length 5 g
  constructor
  · intro e
    rw [e] at u2
    have hl := congrArg List.length u2
    rw [hbl, List.length_append, bitsOf_length, List.length_replicate] at hl
    have h1 : g.length * 5 % 8 = j ∧ 8 * (g.length * 5 / 8) = 8 * (pack32 g).length := by omega
    refine ⟨by omega, ?_⟩
    rw [u2, h1.2, h1.1, List.drop_left' (by rw [bitsOf_length])]
  · rintro ⟨h1, h2⟩
    have hb := p1 h2
    have hl := congrArg List.length hb
    rw [bitsOf_length, List.length_take, hbl] at hl
    have hul := congrArg List.length u2
    rw [flatMap_length, List.length_append, bitsOf_length, List.length_replicate] at hul
    refine flatMap_inj (k := 5) (by decide) u1 hg ?_
    rw [u2, hb]
    conv => rhs; rw [← List.take_append_drop (8 * (g.length * 5 / 8)) (g.flatMap (numBits 5)), h2]
    congr 2
    omega

/-- Padding of more than four bits is accepted: a group too many changes nothing. -/
theorem C34_overlong_counterexample : ∃ g h : List Nat, g ≠ h ∧ (∀ v ∈ g ++ h, v < 32) ∧ pack32 g ≠ [] ∧ pack32 g = pack32 h :=
  ⟨[1, 0], [1, 0, 0], by decide, by decide, by decide +kernel, by decide +kernel⟩

/-- Expanding 11 bit groups to bytes: their bits, padded with fewer than eight zero bits. -/
theorem C34_unpack2048 (g : List Nat) : ∃ j < 8, bitsOf (unpack2048 g) = g.flatMap (numBits 11) ++ List.replicate j false :=
  writeGroups_spec (by decide) g

/-- Words to bytes and back is the identity. -/
theorem C34_roundtrip2048 (g : List Nat) (hg : ∀ v ∈ g, v < 2048) (hs : (unpack2048 g).length ≤ maxSize) : pack2048 (unpack2048 g) = g := by
  obtain ⟨j, hj, h⟩ := C34_unpack2048 g
  obtain ⟨u1, i, hi, u2⟩ := groups_spec (k := 11) (by decide) (by decide) (unpack2048 g) hs
  have hl := congrArg List.length h
  rw [bitsOf_length, List.length_append, flatMap_length, List.length_replicate] at hl
  have hul := congrArg List.length u2
  rw [flatMap_length, List.length_append, bitsOf_length, List.length_replicate] at hul
  rw [h, List.append_assoc, List.replicate_append_replicate] at u2
  unfold pack2048
  simp only []
  by_cases hj0 : j = 0
  · subst hj0
    rw [if_neg (by omega)]
    have hi0 : i = 0 := by omega
    subst hi0
    exact flatMap_inj (by decide) u1 hg (by simpa using u2)
  · rw [if_pos (by omega)]
    have hij : j + i = 11 := by omega
    rw [hij] at u2
    have e : groups 11 (unpack2048 g) = g ++ [0] := by
      refine flatMap_inj (k := 11) (by decide) u1 ?_ ?_
      · intro v hv
        rcases List.mem_append.1 hv with hv | hv
        · exact hg v hv
        · rw [List.mem_singleton.1 hv]; decide
      · rw [u2, List.flatMap_append]; congr 1
    rw [e, List.getLastD_concat]
    simp

/-- Packing rejects non-zero padding. -/
theorem C34_pack2048 (d : Bytes) (hd : d.length ≤ maxSize) (hne : d.length * 8 % 11 ≠ 0)
    (h : (bitsOf d).drop (11 * (d.length * 8 / 11)) ≠ List.replicate (d.length * 8 % 11) false) : pack2048 d = [] := by
  obtain ⟨u1, i, hi, u2⟩ := groups_spec (k := 11) (by decide) (by decide) d hd
  have hul := congrArg List.length u2
  rw [flatMap_length, List.length_append, bitsOf_length, List.length_replicate] at hul
  unfold pack2048
  simp only []
  rw [if_pos hne]
  have hgl : (groups 11 d).length = d.length * 8 / 11 + 1 := by omega
  obtain ⟨init, last, hp⟩ : ∃ init last, groups 11 d = init ++ [last] := by
    refine ⟨(groups 11 d).dropLast, (groups 11 d).getLast (by intro hh; rw [hh] at hgl; simp at hgl), ?_⟩
    exact (List.dropLast_concat_getLast _).symm
  rw [hp, List.getLastD_concat]
  rw [if_neg]
  · simp
  · intro h0
    apply h
    rw [hp, h0, List.flatMap_append] at u2
    have hil : init.length = d.length * 8 / 11 := by rw [hp] at hgl; simpa using hgl
    have := congrArg (List.drop (11 * (d.length * 8 / 11))) u2
    rw [List.drop_left' (by rw [flatMap_length, hil]), List.drop_append] at this
    rw [show [0].flatMap (numBits 11) = List.replicate 11 false by decide, bitsOf_length, show 11 * (d.length * 8 / 11) - 8 * d.length = 0 by omega, List.drop_zero] at this
    rw [List.eq_replicate_iff]
    refine ⟨by rw [List.length_drop, bitsOf_length]; omega, ?_⟩
    intro x hx
    have hm : x ∈ List.replicate 11 false := by rw [this]; simp [hx]
    exact List.eq_of_mem_replicate hm

/-! ## base32 text -/

theorem char32 : ∀ v < 32, base32Table[(base32Chars.getD v 0).toNat]? = some (UInt8.ofNat v) ∧ base32Chars.getD v 0 ∈ base32Chars ∧
    ¬ (65 ≤ base32Chars.getD v 0 ∧ base32Chars.getD v 0 ≤ 90) := by decide +kernel

theorem decodeLoop_encode : ∀ (g : List Nat), (∀ v ∈ g, v < 32) → ∀ out, decodeLoop (encodeGroups g) out = .ok (out ++ g)
  | [], _, out => by simp [encodeGroups, decodeLoop]
  | v :: g, h, out => by
    have hv := h v (by simp)
    rw [show encodeGroups (v :: g) = base32Chars.getD v 0 :: encodeGroups g from rfl, decodeLoop, (char32 v hv).1]
    have hn : (UInt8.ofNat v).toNat = v := by rw [UInt8.toNat_ofNat']; omega
    have hne : UInt8.ofNat v ≠ 0xff := by
      intro e; have := congrArg UInt8.toNat e; rw [hn] at this; simp at this; omega
    simp only [hne, if_false]
    rw [decodeLoop_encode g (fun w hw => h w (by simp [hw])), hn]
    simp

theorem not_mixed (g : List Nat) (h : ∀ v ∈ g, v < 32) : mixedCase (encodeGroups g) = false := by
  unfold mixedCase
  have : (encodeGroups g).any (fun c => 65 ≤ c && c ≤ 90) = false := by
    rw [List.any_eq_false]
    intro c hc
    obtain ⟨v, hv, rfl⟩ := List.mem_map.1 hc
    have := (char32 v (h v hv)).2.2
    simpa using this
  rw [this, Bool.and_false]

/-- Base32: groups and data decode from their encodings, which use only the alphabet. -/
theorem C33_base32 (d : Bytes) (hd : d.length ≤ maxSize) (g : List Nat) (hg : ∀ v ∈ g, v < 32) :
    decode32 (encode32 d) = .ok d ∧ decodeGroups (encodeGroups g) = .ok g ∧ (∀ c ∈ encodeGroups g, c ∈ base32Chars) ∧ (∀ c ∈ encode32 d, c ∈ base32Chars) := by
  have h1 : ∀ g : List Nat, (∀ v ∈ g, v < 32) → decodeGroups (encodeGroups g) = .ok g := by
    intro g hg
    unfold decodeGroups
    rw [not_mixed g hg, decodeLoop_encode g hg]
    rfl
  have h2 : ∀ g : List Nat, (∀ v ∈ g, v < 32) → ∀ c ∈ encodeGroups g, c ∈ base32Chars := by
    intro g hg c hc
    obtain ⟨v, hv, rfl⟩ := List.mem_map.1 hc
    exact (char32 v (hg v hv)).2.1
  have hu := (C34_unpack32 d hd).1
  refine ⟨?_, h1 g hg, h2 g hg, h2 _ hu⟩
  unfold decode32 encode32
  rw [h1 _ hu]
  show Out.ok (pack32 (unpack32 d)) = _
  rw [C34_roundtrip32 d hd]

/-- Base32 decoding of ASCII text is defined, and accepts exactly unmixed alphabet characters of either case. -/
theorem C33_base32_accepts (s : Bytes) (ha : ∀ c ∈ s, c < 128) : (∃ g, decodeGroups s = .ok g ∧ encodeGroups g = s.map fun c => if 65 ≤ c ∧ c ≤ 90 then c + 32 else c) ∧
      mixedCase s = false ∧ (∀ c ∈ s, (if 65 ≤ c ∧ c ≤ 90 then c + 32 else c) ∈ base32Chars) ∨
    decodeGroups s = .fail ∧ (mixedCase s = true ∨ ∃ c ∈ s, (if 65 ≤ c ∧ c ≤ 90 then c + 32 else c) ∉ base32Chars) := by
  have hc : ∀ c : UInt8, c < 128 → ∃ v, base32Table[c.toNat]? = some v ∧
      (v = 0xff ∧ (if 65 ≤ c ∧ c ≤ 90 then c + 32 else c) ∉ base32Chars ∨ v ≠ 0xff ∧ v < 32 ∧ (if 65 ≤ c ∧ c ≤ 90 then c + 32 else c) ∈ base32Chars ∧
        base32Chars.getD v.toNat 0 = (if 65 ≤ c ∧ c ≤ 90 then c + 32 else c)) := by
    intro c hc
    have : (base32Table[c.toNat]?).any (fun v => (decide (v = 0xff) && decide ((if 65 ≤ c ∧ c ≤ 90 then c + 32 else c) ∉ base32Chars)) ||
        (decide (v ≠ 0xff) && decide (v < 32) && decide ((if 65 ≤ c ∧ c ≤ 90 then c + 32 else c) ∈ base32Chars) &&
          decide (base32Chars.getD v.toNat 0 = (if 65 ≤ c ∧ c ≤ 90 then c + 32 else c)))) = true :=
      Radix.forall_byte (p := fun c => c < 128 → (base32Table[c.toNat]?).any (fun v => (decide (v = 0xff) && decide ((if 65 ≤ c ∧ c ≤ 90 then c + 32 else c) ∉ base32Chars)) ||
        (decide (v ≠ 0xff) && decide (v < 32) && decide ((if 65 ≤ c ∧ c ≤ 90 then c + 32 else c) ∈ base32Chars) &&
          decide (base32Chars.getD v.toNat 0 = (if 65 ≤ c ∧ c ≤ 90 then c + 32 else c)))) = true) (by decide +kernel) c hc
    cases hv : base32Table[c.toNat]? with
    | none => rw [hv] at this; simp at this
    | some v =>
      rw [hv] at this
      simp only [Option.any_some, Bool.or_eq_true, Bool.and_eq_true, decide_eq_true_eq] at this
      refine ⟨v, rfl, ?_⟩
      rcases this with h | ⟨⟨⟨h1, h2⟩, h3⟩, h4⟩
      · exact .inl h
      · exact .inr ⟨h1, h2, h3, h4⟩
  unfold decodeGroups
  by_cases hm : mixedCase s = true
  · right; simp [hm]
  · have hm' : mixedCase s = false := by simpa using hm
    rw [hm']
    simp only [Bool.false_eq_true, if_false, true_and, false_or]
    have key : ∀ (s : Bytes), (∀ c ∈ s, c < 128) → ∀ out : List Nat,
        (∃ g, decodeLoop s out = .ok (out ++ g) ∧ encodeGroups g = s.map fun c => if 65 ≤ c ∧ c ≤ 90 then c + 32 else c) ∧
          (∀ c ∈ s, (if 65 ≤ c ∧ c ≤ 90 then c + 32 else c) ∈ base32Chars) ∨
        decodeLoop s out = .fail ∧ ∃ c ∈ s, (if 65 ≤ c ∧ c ≤ 90 then c + 32 else c) ∉ base32Chars := by
      intro s
      induction s with
      | nil => intro _ out; left; exact ⟨⟨[], by simp [decodeLoop], rfl⟩, by simp⟩
      | cons c s ih =>
        intro ha out
        obtain ⟨v, hv, hcase⟩ := hc c (ha c (by simp))
        rw [decodeLoop, hv]
        simp only []
        rcases hcase with ⟨h1, h2⟩ | ⟨h1, h2, h3, h4⟩
        · rw [if_pos h1]; right; exact ⟨rfl, c, by simp, h2⟩
        · rw [if_neg h1]
          rcases ih (fun c h => ha c (by simp [h])) (out ++ [v.toNat]) with ⟨⟨g, g1, g2⟩, g3⟩ | ⟨g1, x, g2, g3⟩
          · left
            refine ⟨⟨v.toNat :: g, by rw [g1]; simp, ?_⟩, ?_⟩
            · rw [show encodeGroups (v.toNat :: g) = base32Chars.getD v.toNat 0 :: encodeGroups g from rfl, g2, h4]; rfl
            · intro x hx
              rcases List.mem_cons.1 hx with rfl | hx
              · exact h3
              · exact g3 x hx
          · right; exact ⟨g1, x, by simp [g2], g3⟩
    simpa using key s ha []

/-- Base32 decoding of a character above 127 reads outside of its table (128 entries). -/
theorem C33_base32_bounds_counterexample : ∃ s, decodeGroups s = .undefined ∧ s.length = 1 := ⟨[0x80], by decide +kernel, rfl⟩

/-- Non-vacuity: data whose last group is padded; non-zero padding is refused; case is folded. -/
example : unpack32 [0xff, 0x80] = [31, 30, 0, 0] ∧ pack32 [31, 30, 0, 0] = [0xff, 0x80] ∧ pack32 [31, 30, 0, 1] = [] ∧
    unpack2048 [2047, 1] = [0xff, 0xe0, 0x04] ∧ pack2048 [0xff, 0xe0, 0x04] = [2047, 1] ∧ pack2048 [0xff, 0xe0, 0x05] = [] ∧
    encode32 [0xff] = Radix.ascii "lu" ∧ decode32 (Radix.ascii "LU") = .ok [0xff] ∧ decode32 (Radix.ascii "lU") = .fail := by decide +kernel

end Verif.Pack
