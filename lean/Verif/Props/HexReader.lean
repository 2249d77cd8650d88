import Verif.Spec.HexReader
import Verif.Props.Radix
/-!
# C92 reading and writing base16 streams
-/
namespace Verif.HexReader
open Verif Verif.Radix

theorem readPair_bad (c : UInt8 × UInt8) (s : RS) (h : s.good = false) : (readPair c s).2.good = false := by
  unfold readPair
  split
  · rfl
  · simp [h]

theorem pairLoop_bad : ∀ (n : Nat) (c : UInt8 × UInt8) (s : RS), s.good = false → (pairLoop n c s).2.good = false
  | 0, _, _, h => h
  | n + 1, c, s, h => by
    unfold pairLoop
    dsimp only
    split
    · rfl
    · exact pairLoop_bad n _ _ (readPair_bad c s h)

theorem rest_drop (s : RS) (a b : UInt8) (l : Bytes) (h : s.rest = a :: b :: l) (r : Nat) :
    ({ s with rem := r, pos := s.pos + 2 } : RS).rest = l := by
  unfold RS.rest at h ⊢
  dsimp only
  rw [← List.drop_drop, h]
  rfl

/-- The loop, on an arbitrary text: all octets or failure. -/
theorem pairLoop_good : ∀ (n : Nat) (c : UInt8 × UInt8) (s : RS), s.good = true → 2 * n ≤ s.rem →
    (2 * n ≤ s.rest.length → (s.rest.take (2 * n)).all isBase16 = true →
      pairLoop n c s = (pairs (s.rest.take (2 * n)), { s with rem := s.rem - 2 * n, pos := s.pos + 2 * n })) ∧
    (¬ (2 * n ≤ s.rest.length ∧ (s.rest.take (2 * n)).all isBase16 = true) → (pairLoop n c s).2.good = false)
  | 0, c, s, h, _ => by
    refine ⟨fun _ _ => ?_, fun hn => absurd ⟨by omega, by simp⟩ hn⟩
    simp only [pairLoop, Nat.mul_zero, List.take_zero, pairs, Nat.sub_zero, Nat.add_zero]
  | n + 1, c, s, h, hr => by
    have hlim : ¬ s.rem < 2 := by omega
    match hrest : s.rest with
    | [] =>
      refine ⟨fun h1 => by simp at h1, fun _ => ?_⟩
      unfold pairLoop
      dsimp only
      have hbad : (readPair c s).2.good = false := by
        unfold readPair; rw [if_neg hlim, if_pos h, hrest]
      split
      · rfl
      · exact pairLoop_bad n _ _ hbad
    | [a] =>
      refine ⟨fun h1 => by simp only [List.length_cons, List.length_nil] at h1; omega, fun _ => ?_⟩
      unfold pairLoop
      dsimp only
      have hbad : (readPair c s).2.good = false := by
        unfold readPair; rw [if_neg hlim, if_pos h, hrest]
      split
      · rfl
      · exact pairLoop_bad n _ _ hbad
    | a :: b :: l =>
      have hp : readPair c s = ((a, b), { s with rem := s.rem - 2, pos := s.pos + 2 }) := by
        unfold readPair; rw [if_neg hlim, if_pos h, hrest]
      have hl := rest_drop s a b l hrest (s.rem - 2)
      have ih := pairLoop_good n (a, b) { s with rem := s.rem - 2, pos := s.pos + 2 } h (by dsimp only; omega)
      rw [hl] at ih
      have htake : (a :: b :: l).take (2 * (n + 1)) = a :: b :: l.take (2 * n) := by
        rw [show 2 * (n + 1) = 2 * n + 1 + 1 by omega, List.take_succ_cons, List.take_succ_cons]
      rw [htake]
      unfold pairLoop
      rw [hp]
      dsimp only
      simp only [List.length_cons, List.all_cons, Bool.and_eq_true, pairs]
      constructor
      · intro h1 h2
        rw [if_neg (by simp [h2.1, h2.2.1]), ih.1 (by omega) h2.2.2]
        have e1 : s.rem - 2 - 2 * n = s.rem - 2 * (n + 1) := by omega
        have e2 : s.pos + 2 + 2 * n = s.pos + 2 * (n + 1) := by omega
        dsimp only
        rw [e1, e2]
      · intro hn
        split
        · rfl
        · rename_i hc
          have hc : isBase16 a = true ∧ isBase16 b = true := by simpa using hc
          exact ih.2 fun hh => hn ⟨by omega, hc.1, hc.2, hh.2⟩

/-- Reading `n` bytes from an arbitrary text: it succeeds exactly when the reader is valid, the limit allows, and the next `2n` characters
exist and are hexadecimal; the bytes are then their decoding and the text advances by `2n` characters. -/
theorem C92_read (n : Nat) (s : RS) (hm : s.rem ≤ maxSize) :
    ((read n s).2.good = true ↔
      s.good = true ∧ 2 * n ≤ s.rem ∧ 2 * n ≤ s.rest.length ∧ ∀ c ∈ s.rest.take (2 * n), c ∈ Spec.hexChars) ∧
    ((read n s).2.good = true → decode16 (s.rest.take (2 * n)) = some (read n s).1 ∧
      (read n s).2 = { s with rem := s.rem - 2 * n, pos := s.pos + 2 * n }) := by
  have hall : (s.rest.take (2 * n)).all isBase16 = true ↔ ∀ c ∈ s.rest.take (2 * n), c ∈ Spec.hexChars := by
    rw [List.all_eq_true]
    exact forall_congr' fun c => imp_congr_right fun _ => isBase16_iff c
  unfold read
  by_cases hr : 2 * n ≤ s.rem
  · rw [if_neg (by simp only [scaleOverflow, Bool.or_eq_true, decide_eq_true_eq]; omega)]
    cases hg : s.good with
    | false => simp [pairLoop_bad n _ s hg]
    | true =>
      have hp := pairLoop_good n (0, 0) s hg hr
      by_cases hc : 2 * n ≤ s.rest.length ∧ (s.rest.take (2 * n)).all isBase16 = true
      · rw [hp.1 hc.1 hc.2]
        refine ⟨⟨fun _ => ⟨rfl, hr, hc.1, hall.1 hc.2⟩, fun _ => hg⟩, fun _ => ⟨?_, by rw [hg]⟩⟩
        unfold decode16
        rw [if_neg (by rw [List.length_take]; omega), hc.2]
        rfl
      · rw [hp.2 hc]
        refine ⟨⟨fun h => by simp at h, fun h => absurd ⟨h.2.2.1, hall.2 h.2.2.2⟩ hc⟩, fun h => by simp at h⟩
  · rw [if_pos (by simp only [Bool.or_eq_true, decide_eq_true_eq]; omega)]
    refine ⟨⟨fun h => by simp at h, fun h => absurd h.2.1 hr⟩, fun h => by simp at h⟩

/-- A read of two bytes `ff0A` and one that meets a non-hexadecimal character or a lone final character. -/
example : read 2 (RS.init (ascii "ff0A7")) = ([0xff, 0x0a], { RS.init (ascii "ff0A7") with rem := maxSize - 4, pos := 4 }) ∧
    (read 2 (RS.init (ascii "ff0x"))).2.good = false ∧ (read 3 (RS.init (ascii "ff0A7"))).2.good = false := by decide +kernel

/-! ## A hex reader is a byte reader of the decoded text -/

/-- While both are valid the hex reader is at twice the position of the byte reader, and the limits agree or bind neither. -/
structure Sim (text data : Bytes) (h b : RS) : Prop where
  good : h.good = b.good
  hdata : b.good = true → h.data = text ∧ b.data = data
  pos : b.good = true → h.pos = 2 * b.pos ∧ b.pos ≤ data.length
  lim : b.good = true → (h.rem = 2 * b.rem ∧ b.rem < 2 ^ 63) ∨
    (2 * (data.length - b.pos) ≤ h.rem ∧ data.length - b.pos ≤ b.rem)
  max : b.good = true → h.rem ≤ maxSize ∧ b.rem ≤ maxSize

theorem Sim.bad (text data : Bytes) (h b : RS) (hh : h.good = false) (hb : b.good = false) : Sim text data h b :=
  ⟨by rw [hh, hb], by simp [hb], by simp [hb], by simp [hb], by simp [hb]⟩

theorem pairs_take : ∀ (n : Nat) (t : Bytes), pairs (t.take (2 * n)) = (pairs t).take n
  | 0, t => by simp [pairs]
  | n + 1, [] => by simp [pairs]
  | n + 1, [a] => by
    rw [show 2 * (n + 1) = 2 * n + 1 + 1 by omega]; simp [pairs]
  | n + 1, a :: b :: t => by
    rw [show 2 * (n + 1) = 2 * n + 1 + 1 by omega, List.take_succ_cons, List.take_succ_cons, pairs, pairs, pairs_take n t, List.take_succ_cons]

theorem pairs_drop : ∀ (n : Nat) (t : Bytes), pairs (t.drop (2 * n)) = (pairs t).drop n
  | 0, t => by simp
  | n + 1, [] => by simp [pairs]
  | n + 1, [a] => by
    rw [show 2 * (n + 1) = 2 * n + 1 + 1 by omega]; simp [pairs]
  | n + 1, a :: b :: t => by
    rw [show 2 * (n + 1) = 2 * n + 1 + 1 by omega, List.drop_succ_cons, List.drop_succ_cons, pairs, pairs_drop n t, List.drop_succ_cons]

theorem decode_parts {text data : Bytes} (h : decode16 text = some data) :
    text.length = 2 * data.length ∧ text.all isBase16 = true ∧ pairs text = data := by
  have hl := congrArg List.length (C31_encode_decode text data h)
  rw [encode16_length, List.length_map] at hl
  unfold decode16 at h
  split at h
  · simp at h
  · split at h
    · simp at h
    · rename_i h1 h2
      refine ⟨hl.symm, by simpa using h2, by simpa using h⟩

/-! ### The operations of the byte reader, case by case -/

theorem note_small {n : Nat} (s : RS) (hn : n < 2 ^ 63) : noteSize n s = s := by
  unfold noteSize; exact if_pos hn

theorem doRead_bad (n : Nat) (s : RS) (h : s.good = false) : (doRead n s).2.good = false := by
  unfold doRead noteSize
  split
  · rfl
  · dsimp only; split <;> simp [h]

theorem doSkip_bad (n : Nat) (s : RS) (h : s.good = false) : (doSkip n s).2.good = false := by
  unfold doSkip noteSize
  repeat' split
  all_goals first | rfl | exact h | simp_all

theorem doRewind_bad (n : Nat) (s : RS) (h : s.good = false) : (doRewind n s).2.good = false := by
  unfold doRewind noteSize
  repeat' split
  all_goals first | rfl | exact h | simp_all

theorem peekByte_bad (s : RS) (h : s.good = false) : (peekByte s).2.good = false := by
  unfold peekByte; split <;> simp [h]

theorem doRead_ok {n : Nat} {s : RS} (hn : n < 2 ^ 63) (hg : s.good = true) (hr : n ≤ s.rem) (hd : n ≤ s.data.length - s.pos) :
    doRead n s = (s.rest.take n, { s with rem := s.rem - n, pos := s.pos + n }) := by
  unfold doRead
  rw [if_neg (Nat.not_lt.2 hr)]
  dsimp only
  rw [note_small _ hn]
  dsimp only
  rw [if_pos hg, if_neg (Nat.not_lt.2 hd)]
  rfl

theorem doRead_fail {n : Nat} {s : RS} (hn : n < 2 ^ 63) (hg : s.good = true) (h : ¬ (n ≤ s.rem ∧ n ≤ s.data.length - s.pos)) :
    (doRead n s).2.good = false := by
  unfold doRead
  split
  · rfl
  · dsimp only
    rw [note_small _ hn]
    dsimp only
    rw [if_pos hg, if_pos (by omega)]

theorem doSkip_zero (s : RS) : doSkip 0 s = ((), s) := by
  unfold doSkip
  rw [if_neg (by omega)]
  dsimp only
  rw [note_small _ (by omega), if_pos rfl]
  rfl

theorem doSkip_ok {n : Nat} {s : RS} (hn : n < 2 ^ 63) (hg : s.good = true) (hr : n ≤ s.rem) (hd : n ≤ s.data.length - s.pos) :
    doSkip n s = ((), { s with rem := s.rem - n, pos := s.pos + n }) := by
  by_cases h0 : n = 0
  · subst h0; rw [doSkip_zero]; rfl
  · unfold doSkip
    rw [if_neg (Nat.not_lt.2 hr)]
    dsimp only
    rw [note_small _ hn]
    dsimp only
    rw [if_neg h0, if_pos hg, if_neg (Nat.not_lt.2 hd)]

theorem doSkip_fail {n : Nat} {s : RS} (hn : n < 2 ^ 63) (hg : s.good = true) (h : ¬ (n ≤ s.rem ∧ n ≤ s.data.length - s.pos)) :
    (doSkip n s).2.good = false := by
  unfold doSkip
  split
  · rfl
  · dsimp only
    rw [note_small _ hn]
    dsimp only
    rw [if_neg (by omega), if_pos hg, if_pos (by omega)]

theorem doRewind_ok {n : Nat} {s : RS} (hn : n < 2 ^ 63) (hg : s.good = true) (hd : n ≤ s.pos) :
    doRewind n s = ((), { s with rem := cadd s.rem n, pos := s.pos - n }) := by
  unfold doRewind
  dsimp only
  rw [note_small _ hn]
  dsimp only
  by_cases h0 : n = 0
  · subst h0; rw [if_pos rfl]; rfl
  · rw [if_neg h0, if_pos hg, if_neg (by omega)]

theorem doRewind_fail {n : Nat} {s : RS} (hn : n < 2 ^ 63) (hg : s.good = true) (hd : s.pos < n) : (doRewind n s).2.good = false := by
  unfold doRewind
  dsimp only
  rw [note_small _ hn]
  dsimp only
  rw [if_neg (by omega), if_pos hg, if_pos hd]

variable {text data : Bytes}

/-- Reading in both readers. -/
theorem Sim.read (ht : decode16 text = some data) (hl : data.length < 2 ^ 62) {h b : RS} (hs : Sim text data h b) (n : Size) :
    Sim text data (HexReader.read n.1 h).2 (doRead n.1 b).2 ∧
    ((doRead n.1 b).2.good = true → (HexReader.read n.1 h).1 = (doRead n.1 b).1) := by
  obtain ⟨n, hn⟩ := n
  dsimp only
  obtain ⟨tl, ta, tp⟩ := decode_parts ht
  cases hg : b.good with
  | false =>
    have hh : h.good = false := by rw [hs.good, hg]
    have h1 : (HexReader.read n h).2.good = false := by
      unfold HexReader.read
      split
      · rfl
      · exact pairLoop_bad n _ h hh
    have h2 := doRead_bad n b hg
    exact ⟨Sim.bad _ _ _ _ h1 h2, fun hc => by rw [h2] at hc; simp at hc⟩
  | true =>
    have hh : h.good = true := by rw [hs.good, hg]
    obtain ⟨hd, bd⟩ := hs.hdata hg
    obtain ⟨hp, bp⟩ := hs.pos hg
    obtain ⟨hm, bm⟩ := hs.max hg
    have lim := hs.lim hg
    have hrest : h.rest = text.drop (2 * b.pos) := by rw [RS.rest, hd, hp]
    have brest : b.rest = data.drop b.pos := by rw [RS.rest, bd]
    have hrl : h.rest.length = 2 * (data.length - b.pos) := by rw [hrest, List.length_drop, tl]; omega
    have hra : (h.rest.take (2 * n)).all isBase16 = true := by
      rw [List.all_eq_true] at ta ⊢
      intro c hc
      rw [hrest] at hc
      exact ta c (List.mem_of_mem_drop (List.mem_of_mem_take hc))
    have hrp : pairs (h.rest.take (2 * n)) = b.rest.take n := by
      rw [pairs_take, hrest, pairs_drop, tp, brest]
    by_cases hc : n ≤ b.rem ∧ n ≤ data.length - b.pos
    · have hr : 2 * n ≤ h.rem := by omega
      have e1 : HexReader.read n h = (b.rest.take n, { h with rem := h.rem - 2 * n, pos := h.pos + 2 * n }) := by
        unfold HexReader.read
        rw [if_neg (by simp only [scaleOverflow, Bool.or_eq_true, decide_eq_true_eq]; omega),
          (pairLoop_good n (0, 0) h hh hr).1 (by omega) hra, hrp]
      rw [e1, doRead_ok (by omega) hg hc.1 (by rw [bd]; exact hc.2)]
      refine ⟨⟨hs.good, fun _ => ⟨hd, bd⟩, fun _ => ⟨?_, ?_⟩, fun _ => ?_, fun _ => ⟨?_, ?_⟩⟩, fun _ => rfl⟩ <;> dsimp only <;> omega
    · have h2 : (doRead n b).2.good = false := doRead_fail (by omega) hg (by rw [bd]; exact hc)
      have h1 : (HexReader.read n h).2.good = false := by
        unfold HexReader.read
        split
        · rfl
        · rename_i hc2
          simp only [scaleOverflow, Bool.or_eq_true, decide_eq_true_eq] at hc2
          exact (pairLoop_good n (0, 0) h hh (by omega)).2 fun hx => by omega
      exact ⟨Sim.bad _ _ _ _ h1 h2, fun hx => by rw [h2] at hx; simp at hx⟩

theorem Sim.skip (ht : decode16 text = some data) (hl : data.length < 2 ^ 62) {h b : RS} (hs : Sim text data h b) (n : Size) :
    Sim text data (HexReader.skip n.1 h).2 (doSkip n.1 b).2 := by
  obtain ⟨n, hn⟩ := n
  dsimp only
  obtain ⟨tl, -, -⟩ := decode_parts ht
  unfold HexReader.skip scaleOverflow
  simp only [Bool.or_eq_true, decide_eq_true_eq]
  cases hg : b.good with
  | false =>
    have hh : h.good = false := by rw [hs.good, hg]
    refine Sim.bad _ _ _ _ ?_ (doSkip_bad n b hg)
    split
    · rfl
    · exact doSkip_bad _ _ hh
  | true =>
    have hh : h.good = true := by rw [hs.good, hg]
    obtain ⟨hd, bd⟩ := hs.hdata hg
    obtain ⟨hp, bp⟩ := hs.pos hg
    obtain ⟨hm, bm⟩ := hs.max hg
    have lim := hs.lim hg
    have hle : (2 * n : Nat) ≤ maxSize := by unfold maxSize; omega
    by_cases hc : n ≤ b.rem ∧ n ≤ data.length - b.pos
    · have hr : 2 * n ≤ h.rem := by omega
      rw [if_neg (by omega), doSkip_ok (by omega) hh hr (by rw [hd]; omega), doSkip_ok (by omega) hg hc.1 (by rw [bd]; exact hc.2)]
      refine ⟨hs.good, fun _ => ⟨hd, bd⟩, fun _ => ⟨?_, ?_⟩, fun _ => ?_, fun _ => ⟨?_, ?_⟩⟩ <;> dsimp only <;> omega
    · refine Sim.bad _ _ _ _ ?_ (doSkip_fail (by omega) hg (by rw [bd]; exact hc))
      split
      · rfl
      · exact doSkip_fail (by omega) hh (by rw [hd]; omega)

theorem Sim.rewind (ht : decode16 text = some data) (hl : data.length < 2 ^ 62) {h b : RS} (hs : Sim text data h b) (n : Size) :
    Sim text data (HexReader.rewind n.1 h).2 (doRewind n.1 b).2 := by
  obtain ⟨n, hn⟩ := n
  dsimp only
  unfold HexReader.rewind scaleOverflow
  rw [if_neg (by simp only [decide_eq_true_eq]; unfold maxSize; omega)]
  cases hg : b.good with
  | false =>
    have hh : h.good = false := by rw [hs.good, hg]
    exact Sim.bad _ _ _ _ (doRewind_bad _ _ hh) (doRewind_bad _ _ hg)
  | true =>
    have hh : h.good = true := by rw [hs.good, hg]
    obtain ⟨hd, bd⟩ := hs.hdata hg
    obtain ⟨hp, bp⟩ := hs.pos hg
    obtain ⟨hm, bm⟩ := hs.max hg
    have lim := hs.lim hg
    by_cases hc : b.pos < n
    · exact Sim.bad _ _ _ _ (doRewind_fail (by omega) hh (by omega)) (doRewind_fail (by omega) hg hc)
    · rw [doRewind_ok (by omega) hh (by omega), doRewind_ok (by omega) hg (by omega)]
      unfold maxSize at hm bm
      refine ⟨hs.good, fun _ => ⟨hd, bd⟩, fun _ => ⟨?_, ?_⟩, fun _ => ?_, fun _ => ⟨?_, ?_⟩⟩ <;> simp only [cadd, maxSize] <;> omega

theorem Sim.peek (ht : decode16 text = some data) (hl : data.length < 2 ^ 62) {h b : RS} (hs : Sim text data h b) :
    Sim text data (HexReader.peek h).2 (peekByte b).2 ∧ ((peekByte b).2.good = true → (HexReader.peek h).1 = (peekByte b).1) := by
  have h1 := hs.read ht hl ⟨1, by omega⟩
  have h2 := h1.1.rewind ht hl ⟨1, by omega⟩
  have hpeek : HexReader.peek h = ((HexReader.read 1 h).1.headD 0, (HexReader.rewind 1 (HexReader.read 1 h).2).2) := rfl
  rw [hpeek]
  dsimp only at h1 h2 ⊢
  cases hg : b.good with
  | false =>
    have hb := peekByte_bad b hg
    have hb2 := doRewind_bad 1 _ (doRead_bad 1 b hg)
    exact ⟨Sim.bad _ _ _ _ (by rw [h2.good, hb2]) hb, fun hx => by rw [hb] at hx; simp at hx⟩
  | true =>
    obtain ⟨hd, bd⟩ := hs.hdata hg
    obtain ⟨hp, bp⟩ := hs.pos hg
    obtain ⟨hm, bm⟩ := hs.max hg
    by_cases hc : 1 ≤ b.rem ∧ 1 ≤ data.length - b.pos
    · have e2 := doRead_ok (n := 1) (by omega) hg hc.1 (by rw [bd]; exact hc.2)
      have e3 : doRewind 1 { b with rem := b.rem - 1, pos := b.pos + 1 } = ((), b) := by
        have e0 := doRewind_ok (n := 1) (s := { b with rem := b.rem - 1, pos := b.pos + 1 }) (by omega) hg (by dsimp only; omega)
        refine e0.trans ?_
        dsimp only
        have e : cadd (b.rem - 1) 1 = b.rem := by unfold cadd; omega
        rw [e, Nat.add_sub_cancel]
      have e4 : peekByte b = (b.rest.headD 0, b) := by
        unfold peekByte
        rw [if_neg (by omega), if_pos (by simp only [hg, bd, Bool.true_and, decide_eq_true_eq]; omega)]
      rw [e2] at h1 h2
      rw [e3] at h2
      rw [e4]
      refine ⟨h2, fun _ => ?_⟩
      rw [h1.2 hg]
      cases b.rest <;> rfl
    · have hb : (peekByte b).2.good = false := by
        unfold peekByte
        split
        · rfl
        · rw [if_neg (by simp only [bd, Bool.and_eq_true, decide_eq_true_eq]; omega)]
      have hb2 := doRewind_bad 1 _ (doRead_fail (n := 1) (by omega) hg (by rw [bd]; exact hc))
      exact ⟨Sim.bad _ _ _ _ (by rw [h2.good, hb2]) hb, fun hx => by rw [hb] at hx; simp at hx⟩

/-- Validity once lost is not regained. -/
theorem overBytes_bad (p : Prog α) : ∀ s : RS, s.good = false → (p.overBytes s).2.good = false := by
  induction p with
  | done a => exact fun s h => h
  | read n k ih =>
    intro s h
    refine ih _ _ ?_
    unfold doRead noteSize
    split
    · rfl
    · dsimp only; split <;> simp [h]
  | peek k ih => intro s h; refine ih _ _ ?_; unfold peekByte; split <;> simp [h]
  | skip n k ih =>
    intro s h; refine ih _ ?_
    unfold doSkip noteSize
    repeat' split
    all_goals first | rfl | exact h | simp_all
  | rewind n k ih =>
    intro s h; refine ih _ ?_
    unfold doRewind noteSize
    repeat' split
    all_goals first | rfl | exact h | simp_all
  | position k ih => exact fun s h => ih _ _ h
  | exhausted k ih => exact fun s h => ih _ _ h
  | valid k ih => exact fun s h => ih _ _ h
  | limit n k ih => exact fun s h => ih _ h
  | unlimit k ih => exact fun s h => ih _ h
  | invalidate k ih => exact fun s h => ih _ rfl

theorem overHex_bad (p : Prog α) : ∀ s : RS, s.good = false → (p.overHex s).2.good = false := by
  have hread : ∀ (n : Nat) (s : RS), s.good = false → (HexReader.read n s).2.good = false := by
    intro n s h
    unfold HexReader.read
    split
    · rfl
    · exact pairLoop_bad n _ s h
  have hrew : ∀ (n : Nat) (s : RS), s.good = false → (HexReader.rewind n s).2.good = false := by
    intro n s h
    unfold HexReader.rewind doRewind noteSize
    repeat' split
    all_goals first | rfl | exact h | simp_all
  induction p with
  | done a => exact fun s h => h
  | read n k ih => exact fun s h => ih _ _ (hread _ s h)
  | peek k ih => exact fun s h => ih _ _ (hrew _ _ (hread _ s h))
  | skip n k ih =>
    intro s h; refine ih _ ?_
    unfold HexReader.skip doSkip noteSize
    repeat' split
    all_goals first | rfl | exact h | simp_all
  | rewind n k ih => exact fun s h => ih _ (hrew _ s h)
  | position k ih => exact fun s h => ih _ _ h
  | exhausted k ih => exact fun s h => ih _ _ h
  | valid k ih => exact fun s h => ih _ _ h
  | limit n k ih =>
    intro s h; refine ih _ ?_
    unfold HexReader.limit setLimit
    split
    · rfl
    · exact h
  | unlimit k ih => exact fun s h => ih _ h
  | invalidate k ih => exact fun s h => ih _ rfl

theorem sim_run (ht : decode16 text = some data) (hl : data.length < 2 ^ 62) (p : Prog α) :
    ∀ h b : RS, Sim text data h b →
      Sim text data (p.overHex h).2 (p.overBytes b).2 ∧ ((p.overBytes b).2.good = true → (p.overHex h).1 = (p.overBytes b).1) := by
  have bads : ∀ (p q : Prog α) (h b : RS), h.good = false → b.good = false →
      Sim text data (p.overHex h).2 (q.overBytes b).2 ∧ ((q.overBytes b).2.good = true → (p.overHex h).1 = (q.overBytes b).1) := by
    intro p q h b hh hb
    have h2 := overBytes_bad q b hb
    exact ⟨Sim.bad _ _ _ _ (overHex_bad p h hh) h2, fun hx => by rw [h2] at hx; simp at hx⟩
  induction p with
  | done a => exact fun h b hs => ⟨hs, fun _ => rfl⟩
  | read n k ih =>
    intro h b hs
    have h1 := hs.read ht hl n
    cases hg : (doRead n.1 b).2.good with
    | true =>
      have h2 := ih (doRead n.1 b).1 _ _ h1.1
      have e := h1.2 hg
      simp only [Prog.overHex, Prog.overBytes]
      rw [e]
      exact h2
    | false => exact bads (k (HexReader.read n.1 h).1) (k (doRead n.1 b).1) _ _ (by rw [h1.1.good, hg]) hg
  | peek k ih =>
    intro h b hs
    have h1 := hs.peek ht hl
    cases hg : (peekByte b).2.good with
    | true =>
      have h2 := ih (peekByte b).1 _ _ h1.1
      have e := h1.2 hg
      simp only [Prog.overHex, Prog.overBytes]
      rw [e]
      exact h2
    | false => exact bads (k (HexReader.peek h).1) (k (peekByte b).1) _ _ (by rw [h1.1.good, hg]) hg
  | skip n k ih => exact fun h b hs => ih _ _ (hs.skip ht hl n)
  | rewind n k ih => exact fun h b hs => ih _ _ (hs.rewind ht hl n)
  | position k ih =>
    intro h b hs
    cases hg : b.good with
    | true =>
      have h2 := ih b.pos _ _ hs
      have e : h.pos / 2 = b.pos := by have := hs.pos hg; omega
      simp only [Prog.overHex, Prog.overBytes, HexReader.position, getPosition]
      rw [e]
      exact h2
    | false => exact bads (k (h.pos / 2)) (k b.pos) h b (by rw [hs.good, hg]) hg
  | exhausted k ih =>
    intro h b hs
    cases hg : b.good with
    | true =>
      have h2 := ih (isExhausted b).1 _ _ hs
      have e : (isExhausted h).1 = (isExhausted b).1 := by
        obtain ⟨tl, -, -⟩ := decode_parts ht
        obtain ⟨hd, bd⟩ := hs.hdata hg
        obtain ⟨hp, bp⟩ := hs.pos hg
        have lim := hs.lim hg
        unfold isExhausted
        rw [Bool.eq_iff_iff]
        simp only [hs.good, hg, hd, bd, Bool.or_eq_true, beq_iff_eq, Bool.not_true, decide_eq_true_eq, Bool.false_eq_true, or_false]
        omega
      simp only [Prog.overHex, Prog.overBytes]
      rw [e]
      exact h2
    | false => exact bads (k (isExhausted h).1) (k (isExhausted b).1) h b (by rw [hs.good, hg]) hg
  | valid k ih =>
    intro h b hs
    have h2 := ih b.good _ _ hs
    simp only [Prog.overHex, Prog.overBytes, isGood]
    rw [hs.good]
    exact h2
  | limit n k ih =>
    intro h b hs
    refine ih _ _ ?_
    have hn := n.2
    unfold HexReader.limit scaleOverflow setLimit
    rw [if_neg (by simp only [decide_eq_true_eq]; unfold maxSize; omega)]
    refine ⟨hs.good, hs.hdata, hs.pos, fun _ => .inl ⟨rfl, ?_⟩, fun _ => ⟨?_, ?_⟩⟩ <;> simp only [maxSize] <;> omega
  | unlimit k ih =>
    intro h b hs
    refine ih _ _ ⟨hs.good, hs.hdata, hs.pos, fun _ => .inr ⟨?_, ?_⟩, fun _ => ⟨Nat.le_refl _, Nat.le_refl _⟩⟩ <;>
      simp only [clearLimit, setLimit] <;> unfold maxSize <;> omega
  | invalidate k ih =>
    exact fun h b hs => ih _ _ (Sim.bad _ _ _ _ rfl rfl)

/-- **A hex reader of a base16 text is a byte reader of the bytes it encodes**: for any text that decodes, any sequence of reader operations,
with or without limits, ends valid over the text exactly when it ends valid over the bytes, and then with the same result, at the same
logical position. -/
theorem C92_program (text data : Bytes) (ht : decode16 text = some data) (hl : data.length < 2 ^ 62) (p : Prog α) :
    (p.overHex (RS.init text)).2.good = (p.overBytes (RS.init data)).2.good ∧
    ((p.overBytes (RS.init data)).2.good = true →
      (p.overHex (RS.init text)).1 = (p.overBytes (RS.init data)).1 ∧
      (position (p.overHex (RS.init text)).2).1 = (getPosition (p.overBytes (RS.init data)).2).1) := by
  have hs : Sim text data (RS.init text) (RS.init data) := by
    refine ⟨rfl, fun _ => ⟨rfl, rfl⟩, fun _ => ⟨rfl, Nat.zero_le _⟩, fun _ => .inr ⟨?_, ?_⟩, fun _ => ⟨Nat.le_refl _, Nat.le_refl _⟩⟩ <;>
      simp only [RS.init] <;> unfold maxSize <;> omega
  have h := sim_run ht hl p _ _ hs
  refine ⟨h.1.good, fun hg => ⟨h.2 hg, ?_⟩⟩
  have := h.1.pos hg
  simp only [position, getPosition]
  omega

/-- `read_variable` as a program. -/
def variableProg : Prog Nat :=
  .read ⟨1, by omega⟩ fun b =>
    if b.headD 0 = 0xff then .read ⟨8, by omega⟩ fun v => if leNat v > 0xffffffff then .done (leNat v) else .invalidate (.done 0)
    else if b.headD 0 = 0xfe then .read ⟨4, by omega⟩ fun v => if leNat v > 0xffff then .done (leNat v) else .invalidate (.done 0)
    else if b.headD 0 = 0xfd then .read ⟨2, by omega⟩ fun v => if leNat v ≥ 0xfd then .done (leNat v) else .invalidate (.done 0)
    else .done (b.headD 0).toNat

/-- The variable integer of the model is that program over bytes (so programs express the reader's composed operations), and a hex reader
reads the same value from text. -/
example : variableProg.overBytes (RS.init [0xfd, 0x34, 0x12]) = readVariable (RS.init [0xfd, 0x34, 0x12]) ∧
    (variableProg.overHex (RS.init (ascii "fD3412"))).1 = 0x1234 ∧ (variableProg.overHex (RS.init (ascii "fD3412"))).2.good = true ∧
    decode16 (ascii "fD3412") = some [0xfd, 0x34, 0x12] := by decide +kernel

/-- Absolute positioning of a valid hex reader is positioning of the byte reader. -/
theorem C92_seek (text data : Bytes) (ht : decode16 text = some data) (hl : data.length < 2 ^ 62) (p : Prog Unit) (a : Size)
    (hg : (p.overBytes (RS.init data)).2.good = true) :
    (seek a.1 (p.overHex (RS.init text)).2).2.good = (setPosition a.1 (p.overBytes (RS.init data)).2).2.good ∧
    ((setPosition a.1 (p.overBytes (RS.init data)).2).2.good = true →
      (position (seek a.1 (p.overHex (RS.init text)).2).2).1 = (getPosition (setPosition a.1 (p.overBytes (RS.init data)).2).2).1) := by
  have hs0 : Sim text data (RS.init text) (RS.init data) := by
    refine ⟨rfl, fun _ => ⟨rfl, rfl⟩, fun _ => ⟨rfl, Nat.zero_le _⟩, fun _ => .inr ⟨?_, ?_⟩, fun _ => ⟨Nat.le_refl _, Nat.le_refl _⟩⟩ <;>
      simp only [RS.init] <;> unfold maxSize <;> omega
  have hs := (sim_run ht hl p _ _ hs0).1
  generalize (p.overHex (RS.init text)).2 = h at hs
  generalize (p.overBytes (RS.init data)).2 = b at hs hg
  have fin : ∀ h b : RS, Sim text data h b → h.good = b.good ∧ (b.good = true → (position h).1 = (getPosition b).1) := by
    intro h b hs
    refine ⟨hs.good, fun hg => ?_⟩
    have := hs.pos hg
    simp only [position, getPosition]
    omega
  have hh : h.good = true := by rw [hs.good, hg]
  have e1 : ({ h with good := true } : RS) = h := by rw [← hh]
  have e2 : ({ b with good := true } : RS) = b := by rw [← hg]
  have hp : (position h).1 = b.pos := by have := hs.pos hg; simp only [position]; omega
  unfold seek setPosition
  rw [e1, e2]
  dsimp only
  rw [hp]
  have hpos := (hs.pos hg).2
  have ha := a.2
  by_cases h1 : a.1 = b.pos
  · rw [if_pos h1, if_pos h1]
    exact fin _ _ hs
  · rw [if_neg h1, if_neg h1]
    by_cases h2 : b.pos < a.1
    · rw [if_pos h2, if_pos h2]
      exact fin _ _ (hs.skip ht hl ⟨a.1 - b.pos, by omega⟩)
    · rw [if_neg h2, if_neg h2]
      exact fin _ _ (hs.rewind ht hl ⟨b.pos - a.1, by omega⟩)

/-- A writer writes the base16 encoding, in however many pieces. -/
theorem C92_write (pieces : List Bytes) : (pieces.map write).flatten = encode16 pieces.flatten ∧
    decode16 (pieces.map write).flatten = some pieces.flatten := by
  have h1 : ∀ d : Bytes, write d = encode16 d := by
    intro d
    induction d with
    | nil => rfl
    | cons b d ih => rw [write, ih]; rfl
  have h2 : (pieces.map write).flatten = encode16 pieces.flatten := by
    induction pieces with
    | nil => rfl
    | cons d l ih =>
      rw [List.map_cons, List.flatten_cons, List.flatten_cons, ih, h1]
      simp [encode16]
  exact ⟨h2, by rw [h2, C31_decode_encode]⟩

/-- Written then read: any program over what a hex writer wrote sees the bytes written. -/
theorem C92_written (pieces : List Bytes) (hl : pieces.flatten.length < 2 ^ 62) (p : Prog α) :
    (p.overHex (RS.init (pieces.map write).flatten)).2.good = (p.overBytes (RS.init pieces.flatten)).2.good ∧
    ((p.overBytes (RS.init pieces.flatten)).2.good = true →
      (p.overHex (RS.init (pieces.map write).flatten)).1 = (p.overBytes (RS.init pieces.flatten)).1) := by
  have h := C92_program _ _ (C92_write pieces).2 hl p
  exact ⟨h.1, fun hg => (h.2 hg).1⟩

example : ([[0xde, 0xad], [], [0xbe]].map write).flatten = ascii "deadbe" := by decide +kernel

/-- A failed peek raises the limit of a hex reader (a byte reader's stays): after `set_limit(0)`, a peek and `set_position`, one byte past the
limit can be read. -/
theorem C92_limit_counterexample : ∃ text data : Bytes, decode16 text = some data ∧
    (let s := (setLimit 0 (RS.init data)).2
     let s := (setPosition 0 (peekByte s).2).2
     (doRead 1 s).2.good = false) ∧
    (let s := (limit 0 (RS.init text)).2
     let s := (seek 0 (peek s).2).2
     (read 1 s).2.good = true) :=
  ⟨ascii "ab", [0xab], by decide +kernel⟩

end Verif.HexReader
