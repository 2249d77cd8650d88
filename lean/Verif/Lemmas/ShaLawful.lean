import Verif.Lemmas.Accumulator
/-!
# The SHA algorithm template computes its compression function on message blocks and padding
-/
namespace Verif.Hash
open Verif.Spec.Hash Verif.Sha

theorem leBytes_mod (n v : Nat) : leBytes n (v % 256 ^ n) = leBytes n v := by
  apply leNat_inj (by simp)
  rw [leNat_leBytes, leNat_leBytes, Nat.mod_mod]

theorem leBytes_split (a b v : Nat) : leBytes (a + b) v = leBytes a v ++ leBytes b (v / 256 ^ a) := by
  induction a generalizing v with
  | zero => simp [leBytes]
  | succ a ih =>
    rw [Nat.add_right_comm, leBytes, ih, leBytes, List.cons_append, Nat.div_div_eq_div_mul, Nat.pow_succ']

theorem beBytes_mod (n v : Nat) : beBytes n (v % 256 ^ n) = beBytes n v := by
  rw [beBytes, leBytes_mod, beBytes]

theorem beBytes_split (a b v : Nat) : beBytes (a + b) v = beBytes a (v / 256 ^ b) ++ beBytes b v := by
  rw [Nat.add_comm, beBytes, leBytes_split, List.reverse_append]
  rfl

variable {w : Nat}

/-- Words as big-endian bytes. -/
def wordsBytes (ws : List (BitVec w)) : Bytes := ws.flatMap fun x => beBytes (w / 8) x.toNat

theorem wordsBytes_length (ws : List (BitVec w)) : (wordsBytes ws).length = ws.length * (w / 8) := by
  unfold wordsBytes
  induction ws with
  | nil => simp
  | cons x xs ih => rw [List.flatMap_cons, List.length_append, ih, List.length_cons, Nat.add_mul]; simp; omega

theorem beWord_wordsBytes (hw : w % 8 = 0) (ws : List (BitVec w)) : ∀ i, i < ws.length →
    beWord w (wordsBytes ws) i = rd ws i := by
  induction ws with
  | nil => intro i h; simp at h
  | cons x xs ih =>
    intro i h
    rw [beWord, wordsBytes, List.flatMap_cons]
    cases i with
    | zero =>
      rw [Nat.zero_mul, List.drop_zero, List.take_append_of_le_length (by simp), List.take_of_length_le (by simp), beVal_eq,
        beNat, beBytes, List.reverse_reverse, leNat_leBytes]
      have : (256 : Nat) ^ (w / 8) = 2 ^ w := by
        rw [show (256 : Nat) = 2 ^ 8 by rfl, ← Nat.pow_mul]
        congr 1
        omega
      rw [this, Nat.mod_eq_of_lt x.isLt]
      simp [rd]
    | succ i =>
      have := ih i (by simpa using h)
      rw [beWord, wordsBytes] at this
      rw [Nat.add_mul, Nat.one_mul, Nat.add_comm, ← List.drop_drop, List.drop_left' (by simp), this]
      simp [rd]

theorem beWord_append_left (a b : Bytes) (i : Nat) (h : (i + 1) * (w / 8) ≤ a.length) :
    beWord w (a ++ b) i = beWord w a i := by
  rw [Nat.add_mul, Nat.one_mul] at h
  rw [beWord, beWord, List.drop_append_of_le_length (by omega), List.take_append_of_le_length (by rw [List.length_drop]; omega)]

theorem beWord_append_right (a b : Bytes) (i k : Nat) (h : a.length = k * (w / 8)) :
    beWord w (a ++ b) (k + i) = beWord w b i := by
  rw [beWord, beWord, Nat.add_mul, ← List.drop_drop, List.drop_left' h]

/-- What is needed of the compression of a scheduled buffer. -/
structure Compresses (p : Params w) (g : List (BitVec w) → (Nat → BitVec w) → List (BitVec w)) : Prop where
  width : w = 32 ∨ w = 64
  few : 16 ≤ p.rounds
  eight : p.rounds % 8 = 0
  hlen : p.H.length = p.stateWords
  glen : ∀ s M, s.length = p.stateWords → (g s M).length = p.stateWords
  comp : ∀ s l M, s.length = p.stateWords → l.length = p.rounds → (∀ i, i < 16 → rd l i = M i) →
    compress p s (scheduleScalar p l) = g s M

variable {p : Params w} {g : List (BitVec w) → (Nat → BitVec w) → List (BitVec w)}

theorem rd_beWords (n : Nat) (bytes : Bytes) (i : Nat) (h : i < n) : rd (beWords w n bytes) i = beWord w bytes i := by
  rw [beWords, rd_map_range _ _ _ h, beWord, beVal_eq]
  rfl

theorem rd_input (l : List (BitVec w)) (b : Bytes) (hl : 16 ≤ l.length) (i : Nat) (h : i < 16) :
    rd (input l b) i = beWord w b i := by
  rw [input, rd_setMany, if_pos (by simp [beWords]; omega), Nat.sub_zero, rd_beWords _ _ _ h]

theorem input_length (l : List (BitVec w)) (b : Bytes) : (input l b).length = l.length := by rw [input, setMany_length]

/-- The block function on states of the model. -/
def blockFn (g : List (BitVec w) → (Nat → BitVec w) → List (BitVec w)) (s : List (BitVec w)) (block : Bytes) : List (BitVec w) :=
  g s (beWord w block)

theorem compress_of_words (hg : Compresses p g) (s l : List (BitVec w)) (hs : s.length = p.stateWords)
    (hl : l.length = p.rounds) (block : Bytes) (h : ∀ i, i < 16 → rd l i = beWord w block i) :
    compress p s (scheduleScalar p l) = blockFn g s block := hg.comp s l _ hs hl h

theorem buffer0_length (p : Params w) : (buffer0 p).length = p.rounds := by simp [buffer0]

theorem schedule_length (b : Build) (hg : Compresses p g) (l : List (BitVec w)) : (schedule b p l).length = l.length := by
  rw [schedule_eq b p hg.eight, scheduleScalar_length]

theorem blockFn_length (hg : Compresses p g) (s : List (BitVec w)) (b : Bytes) (hs : s.length = p.stateWords) :
    (blockFn g s b).length = p.stateWords := hg.glen s _ hs

theorem fold_length (hg : Compresses p g) (bs : List Bytes) : ∀ s : List (BitVec w), s.length = p.stateWords →
    (bs.foldl (blockFn g) s).length = p.stateWords := by
  induction bs with
  | nil => intro s h; exact h
  | cons b bs ih => intro s h; exact ih _ (blockFn_length hg s b h)

theorem iterateScalar_eq (b : Build) (hg : Compresses p g) (bs : List Bytes) (s : List (BitVec w))
    (hs : s.length = p.stateWords) : iterateScalar b p s bs = bs.foldl (blockFn g) s := by
  unfold iterateScalar
  have key : ∀ (bs : List Bytes) (s buf : List (BitVec w)), s.length = p.stateWords → buf.length = p.rounds →
      (bs.foldl (fun (s : List (BitVec w) × List (BitVec w)) block =>
        let buffer := schedule b p (input s.2 block)
        (compress p s.1 buffer, buffer)) (s, buf)).1 = bs.foldl (blockFn g) s := by
    intro bs
    induction bs with
    | nil => intros; rfl
    | cons x xs ih =>
      intro s buf hs hb
      have hf := hg.few
      rw [List.foldl_cons, List.foldl_cons]
      have e : compress p s (schedule b p (input buf x)) = blockFn g s x := by
        rw [schedule_eq b p hg.eight]
        exact compress_of_words hg s _ hs (by rw [input_length, hb]) x (fun i hi => rd_input buf x (by omega) i hi)
      dsimp only
      rw [e]
      exact ih _ _ (blockFn_length hg s x hs) (by rw [schedule_length b hg, input_length, hb])
  exact key bs s _ hs (buffer0_length p)

theorem vectorBlocks_eq (hg : Compresses p g) (lanes : Nat) : ∀ (fuel : Nat) (s : List (BitVec w)) (bs : List Bytes),
    s.length = p.stateWords →
    (vectorBlocks p lanes fuel s bs).1.length = p.stateWords ∧
    (vectorBlocks p lanes fuel s bs).2.foldl (blockFn g) (vectorBlocks p lanes fuel s bs).1 = bs.foldl (blockFn g) s := by
  intro fuel
  induction fuel with
  | zero => intro s bs h; exact ⟨h, rfl⟩
  | succ fuel ih =>
    intro s bs h
    rw [vectorBlocks]
    by_cases hc : lanes ≠ 0 ∧ bs.length ≥ lanes
    · rw [if_pos hc]
      dsimp only
      have key : ∀ (xs : List Bytes) (s : List (BitVec w)), s.length = p.stateWords →
          (xs.map fun block => scheduleScalar p (input (buffer0 p) block)).foldl (compress p) s = xs.foldl (blockFn g) s := by
        intro xs
        induction xs with
        | nil => intros; rfl
        | cons x xs ihx =>
          intro s hs
          have hf := hg.few
          rw [List.map_cons, List.foldl_cons, List.foldl_cons]
          rw [compress_of_words hg s _ hs (by rw [input_length, buffer0_length]) x
            (fun i hi => rd_input _ x (by rw [buffer0_length]; omega) i hi)]
          exact ihx _ (blockFn_length hg s x hs)
      rw [key _ s h]
      obtain ⟨h1, h2⟩ := ih ((bs.take lanes).foldl (blockFn g) s) (bs.drop lanes) (fold_length hg _ s h)
      refine ⟨h1, ?_⟩
      rw [h2, ← List.foldl_append, List.take_append_drop]
    · rw [if_neg hc]
      exact ⟨h, rfl⟩

/-- Whatever vectorisation is compiled in, iteration is over the blocks in order. -/
theorem iterate_build (b : Build) (hg : Compresses p g) (bs : List Bytes) (s : List (BitVec w))
    (hs : s.length = p.stateWords) : Sha.iterate b p s bs = bs.foldl (blockFn g) s := by
  unfold Sha.iterate
  split
  · have key : ∀ (ls : List Nat) (s : List (BitVec w)) (bs : List Bytes), s.length = p.stateWords →
        let r := ls.foldl (fun s l => vectorBlocks p l s.2.length s.1 s.2) (s, bs)
        r.1.length = p.stateWords ∧ r.2.foldl (blockFn g) r.1 = bs.foldl (blockFn g) s := by
      intro ls
      induction ls with
      | nil => intro s bs h; exact ⟨h, rfl⟩
      | cons l ls ih =>
        intro s bs h
        obtain ⟨h1, h2⟩ := vectorBlocks_eq hg l bs.length s bs h
        obtain ⟨h3, h4⟩ := ih _ (vectorBlocks p l bs.length s bs).2 h1
        exact ⟨h3, h4.trans h2⟩
    obtain ⟨h1, h2⟩ := key b.lanes s bs hs
    dsimp only
    rw [iterateScalar_eq b hg _ _ h1]
    exact h2
  · exact iterateScalar_eq b hg bs s hs

/-! ### Padding -/

theorem wordsBytes_append (a b : List (BitVec w)) : wordsBytes (a ++ b) = wordsBytes a ++ wordsBytes b := by
  simp [wordsBytes]

theorem wordsBytes_zeros (n : Nat) : wordsBytes (List.replicate n (0 : BitVec w)) = List.replicate (n * (w / 8)) 0 := by
  have hz : beBytes (w / 8) (0 : BitVec w).toNat = List.replicate (w / 8) 0 := by
    rw [show (0 : BitVec w).toNat = 0 by simp, ← beRep_eq, beRep]
    apply List.ext_getElem
    · simp
    · intro i h1 h2
      simp
  induction n with
  | zero => simp [wordsBytes]
  | succ n ih =>
    rw [List.replicate_succ, wordsBytes, List.flatMap_cons, hz]
    rw [wordsBytes] at ih
    rw [ih, Nat.add_mul, Nat.one_mul, List.replicate_append_replicate, Nat.add_comm]

theorem bitHi_bytes (hw : w = 32 ∨ w = 64) : beBytes (w / 8) (bitHi w).toNat = [0x80] ++ List.replicate (w / 8 - 1) 0 := by
  rcases hw with rfl | rfl <;> decide

/-- The words written by `padN`. -/
def padWords (w n : Nat) : List (BitVec w) := bitHi w :: List.replicate 13 0 ++
    [BitVec.ofNat w (countBits w n / 2 ^ w), BitVec.ofNat w (countBits w n % 2 ^ w)]

/-- The words written by `padHalf`. -/
def halfWords (w : Nat) : List (BitVec w) := bitHi w :: List.replicate 6 0 ++ [BitVec.ofNat w (8 * wordBytes w * 8)]

theorem padWords_bytes (b : Build) (p : Params w) (hw : w = 32 ∨ w = 64) (n : Nat) (hn : n * blockBytes w * 8 < 2 ^ 64) :
    wordsBytes (padWords w n) = padBlock (shaAlgorithm b p) n := by
  have hc : countBits w n = 8 * (n * blockBytes w) := by
    unfold countBits
    rw [Nat.mod_eq_of_lt, Nat.mul_comm]
    refine Nat.lt_of_lt_of_le hn ?_
    rcases hw with rfl | rfl <;> decide
  have hp : (256 : Nat) ^ (w / 8) = 2 ^ w := by rcases hw with rfl | rfl <;> decide
  unfold padWords padBlock
  rw [hc]
  have hcons : ∀ (x : BitVec w) (l m : List (BitVec w)), x :: l ++ m = [x] ++ l ++ m := by intros; rfl
  rw [hcons, wordsBytes_append, wordsBytes_append, wordsBytes_zeros]
  have h1 : wordsBytes [bitHi w] = [0x80] ++ List.replicate (w / 8 - 1) 0 := by
    rw [← bitHi_bytes hw]; simp [wordsBytes]
  have h2 : wordsBytes [BitVec.ofNat w (8 * (n * blockBytes w) / 2 ^ w), BitVec.ofNat w (8 * (n * blockBytes w) % 2 ^ w)]
      = rep (shaAlgorithm b p) (shaAlgorithm b p).countSize (8 * (n * (shaAlgorithm b p).blockSize)) := by
    show _ = (if True then beRep else leRep) (2 * wordBytes w) (8 * (n * blockBytes w))
    rw [if_pos trivial, beRep_eq, show 2 * wordBytes w = w / 8 + w / 8 by unfold wordBytes; omega, beBytes_split, hp]
    simp only [wordsBytes, List.flatMap_cons, List.flatMap_nil, List.append_nil, BitVec.toNat_ofNat, Nat.mod_mod]
    rw [← hp, beBytes_mod, beBytes_mod]
  rw [h1, h2, List.append_assoc [0x80], List.replicate_append_replicate]
  congr 3
  show _ = blockBytes w - 1 - 2 * wordBytes w
  rcases hw with rfl | rfl <;> decide

theorem halfWords_bytes (b : Build) (p : Params w) (hw : w = 32 ∨ w = 64) :
    wordsBytes (halfWords w) = halfPad (shaAlgorithm b p) := by
  unfold halfPad
  show _ = [0x80] ++ List.replicate (blockBytes w / 2 - 1 - 2 * wordBytes w) 0 ++ beRep (2 * wordBytes w) (8 * (blockBytes w / 2))
  rcases hw with rfl | rfl <;> decide

theorem width_mod (hw : w = 32 ∨ w = 64) : w % 8 = 0 := by rcases hw with rfl | rfl <;> rfl

theorem rd_padN (l : List (BitVec w)) (n : Nat) (hl : 16 ≤ l.length) (i : Nat) (h : i < 16) :
    rd (padN l n) i = rd (padWords w n) i := by
  unfold padN
  rw [rd_setMany, if_pos (by simp; omega), Nat.sub_zero]
  rfl

theorem padN_length (l : List (BitVec w)) (n : Nat) : (padN l n).length = l.length := by rw [padN, setMany_length]

/-- The cached padding schedules equal the computed ones. -/
theorem scheduleN_eq (b : Build) (hg : Compresses p g) (l s : List (BitVec w)) (hl : l.length = p.rounds) (n : Nat)
    (hs : s.length = p.stateWords) (hn : n * blockBytes w * 8 < 2 ^ 64) :
    compress p s (scheduleN b p l n) = blockFn g s (padBlock (shaAlgorithm b p) n) := by
  have hf := hg.few
  have hwd := hg.width
  rw [← padWords_bytes b p hwd n hn]
  have hpl : (padWords w n).length = 16 := by simp [padWords]
  unfold scheduleN
  by_cases hc : n = 1 ∨ n = 2 ∨ n = 3 ∨ n = 4
  · rw [if_pos hc]
    refine compress_of_words hg s _ hs (by simp [buffer0_length]) _ (fun i hi => ?_)
    rw [beWord_wordsBytes (width_mod hwd) _ _ (by omega), rd_set, rd_set, List.length_set, buffer0_length]
    have hz : rd (buffer0 p) i = 0 := by 
      simp only [rd, buffer0, List.getD_eq_getElem?_getD, List.getElem?_replicate]
      split <;> rfl
    have hcnt : BitVec.ofNat w (countBits w n / 2 ^ w) = 0 ∧
        BitVec.ofNat w (n * blockBytes w * 8) = BitVec.ofNat w (countBits w n % 2 ^ w) := by
      rcases hc with rfl | rfl | rfl | rfl <;> rcases hwd with rfl | rfl <;> exact ⟨by decide, by decide⟩
    rw [hcnt.2]
    unfold padWords
    rw [hcnt.1, hz]
    by_cases h0 : 0 = i
    · subst h0; rw [if_neg (by omega), if_pos (by omega)]; simp [rd]
    · by_cases h15 : 15 = i
      · subst h15; rw [if_pos (by omega)]; simp [rd, List.replicate]
      · rw [if_neg (by omega), if_neg (by omega)]
        have : i = 1 ∨ i = 2 ∨ i = 3 ∨ i = 4 ∨ i = 5 ∨ i = 6 ∨ i = 7 ∨ i = 8 ∨ i = 9 ∨ i = 10 ∨ i = 11 ∨ i = 12 ∨ i = 13 ∨ i = 14 := by
          omega
        rcases this with rfl | rfl | rfl | rfl | rfl | rfl | rfl | rfl | rfl | rfl | rfl | rfl | rfl | rfl <;> simp [rd, List.replicate]
  · rw [if_neg hc, schedule_eq b p hg.eight]
    exact compress_of_words hg s _ hs (by rw [padN_length, hl]) _
      (fun i hi => by rw [rd_padN _ _ (by omega) _ hi, beWord_wordsBytes (width_mod hwd) _ _ (by omega)])

theorem schedule1_eq (b : Build) (hg : Compresses p g) (s : List (BitVec w)) (hs : s.length = p.stateWords) :
    compress p s (schedule1 p) = blockFn g s (padBlock (shaAlgorithm b p) 1) := by
  have := scheduleN_eq b hg (buffer0 p) s (buffer0_length p) 1 hs (by rcases hg.width with rfl | rfl <;> decide)
  rw [scheduleN, if_pos (by simp)] at this
  exact this

/-- Half a block of words followed by the half padding. -/
theorem padHalf_eq (b : Build) (hg : Compresses p g) (l s : List (BitVec w)) (hl : l.length = p.rounds)
    (hs : s.length = p.stateWords) (d : Bytes) (hd : d.length = blockBytes w / 2)
    (h : ∀ i, i < 8 → rd l i = beWord w d i) :
    compress p s (schedule b p (padHalf l)) = blockFn g s (d ++ halfPad (shaAlgorithm b p)) := by
  have hf := hg.few
  have hwd := hg.width
  rw [schedule_eq b p hg.eight, ← halfWords_bytes b p hwd]
  have hdl : d.length = 8 * (w / 8) := by rw [hd]; rcases hwd with rfl | rfl <;> rfl
  refine compress_of_words hg s _ hs (by rw [padHalf, setMany_length, hl]) _ (fun i hi => ?_)
  rw [padHalf, rd_setMany]
  by_cases h8 : 8 ≤ i
  · rw [if_pos (by simp; omega)]
    obtain ⟨j, rfl⟩ : ∃ j, i = 8 + j := ⟨i - 8, by omega⟩
    rw [beWord_append_right d _ j 8 hdl, beWord_wordsBytes (width_mod hwd) _ _ (by simp [halfWords]; omega), Nat.add_sub_cancel_left]
    rfl
  · rw [if_neg (by omega), h i (by omega), beWord_append_left]
    rw [hdl]
    exact Nat.mul_le_mul_right _ (by omega)

/-- The digest of a state as bytes of its words. -/
theorem output_eq (p : Params w) (s : List (BitVec w)) : output p s = (wordsBytes s).take (p.digest / 8) := rfl

theorem second_eq (b : Build) (hg : Compresses p g) (l s : List (BitVec w)) (hl : l.length = p.rounds)
    (hs : s.length = 8) (h8 : p.stateWords = 8) (hfull : p.digest / 8 = 8 * (w / 8)) :
    second b p l s = blockFn g p.H (output p s ++ halfPad (shaAlgorithm b p)) := by
  have hf := hg.few
  have hwd := hg.width
  have ho : output p s = wordsBytes s := by
    rw [output_eq, List.take_of_length_le (by rw [wordsBytes_length, hs, hfull]; exact Nat.le_refl _)]
  unfold second
  refine padHalf_eq b hg _ _ (by rw [injectLeftHalf, setMany_length, hl]) hg.hlen _ ?_ ?_
  · rw [ho, wordsBytes_length, hs]
    rcases hwd with rfl | rfl <;> rfl
  · intro i hi
    rw [ho, beWord_wordsBytes (width_mod hwd) _ _ (by omega), injectLeftHalf, rd_setMany, if_pos (by simp; omega), Nat.sub_zero,
      rd_map_range _ _ _ hi]

theorem compress_input (b : Build) (hg : Compresses p g) (s : List (BitVec w)) (hs : s.length = p.stateWords) (block : Bytes)
    (l : List (BitVec w)) (hl : l.length = p.rounds) : compress p s (schedule b p (input l block)) = blockFn g s block := by
  have hf := hg.few
  rw [schedule_eq b p hg.eight]
  exact compress_of_words hg s _ hs (by rw [input_length, hl]) block (fun i hi => rd_input _ block (by omega) i hi)

theorem inputLeft_half (l : List (BitVec w)) (hl : 16 ≤ l.length) (d : Bytes) (i : Nat) (hi : i < 8) :
    rd (inputLeft l d) i = beWord w d i := by
  rw [inputLeft, rd_setMany, if_pos (by simp [beWords]; omega), Nat.sub_zero, rd_beWords _ _ _ hi]

/-- Two halves are one block. -/
theorem halves_eq (b : Build) (hg : Compresses p g) (s : List (BitVec w)) (hs : s.length = p.stateWords) (left right : Bytes)
    (h1 : left.length = blockBytes w / 2) (l : List (BitVec w)) (hl : l.length = p.rounds) :
    compress p s (schedule b p (inputRight (inputLeft l left) right)) = blockFn g s (left ++ right) := by
  have hf := hg.few
  have hdl : left.length = 8 * (w / 8) := by rw [h1]; rcases hg.width with rfl | rfl <;> rfl
  rw [schedule_eq b p hg.eight]
  refine compress_of_words hg s _ hs (by rw [inputRight, setMany_length, inputLeft, setMany_length, hl]) _ (fun i hi => ?_)
  rw [inputRight, rd_setMany]
  by_cases h8 : 8 ≤ i
  · rw [if_pos (by simp [beWords, inputLeft]; omega)]
    obtain ⟨j, rfl⟩ : ∃ j, i = 8 + j := ⟨i - 8, by omega⟩
    rw [beWord_append_right left _ j 8 hdl, Nat.add_sub_cancel_left, rd_beWords _ _ _ (by omega)]
  · rw [if_neg (by omega), inputLeft_half _ (by omega) _ _ (by omega), beWord_append_left]
    rw [hdl]
    exact Nat.mul_le_mul_right _ (by omega)

/-- Two quarters are one half. -/
theorem quarters_eq (b : Build) (hg : Compresses p g) (s : List (BitVec w)) (hs : s.length = p.stateWords) (left right : Bytes)
    (h1 : left.length = blockBytes w / 4) (h2 : right.length = blockBytes w / 4) (l : List (BitVec w)) (hl : l.length = p.rounds) :
    compress p s (schedule b p (padHalf (inputRightQuarter (inputLeftQuarter l left) right)))
      = blockFn g s ((left ++ right) ++ halfPad (shaAlgorithm b p)) := by
  have hf := hg.few
  have hdl : left.length = 4 * (w / 8) := by rw [h1]; rcases hg.width with rfl | rfl <;> rfl
  refine padHalf_eq b hg _ _ (by rw [inputRightQuarter, setMany_length, inputLeftQuarter, setMany_length, hl]) hs _
    (by rw [List.length_append, h1, h2]; rcases hg.width with rfl | rfl <;> rfl) (fun i hi => ?_)
  rw [inputRightQuarter, rd_setMany]
  by_cases h8 : 4 ≤ i
  · rw [if_pos (by simp [beWords, inputLeftQuarter]; omega)]
    obtain ⟨j, rfl⟩ : ∃ j, i = 4 + j := ⟨i - 4, by omega⟩
    rw [beWord_append_right left _ j 4 hdl, Nat.add_sub_cancel_left, rd_beWords _ _ _ (by omega)]
  · rw [if_neg (by omega), inputLeftQuarter, rd_setMany, if_pos (by simp [beWords]; omega), Nat.sub_zero,
      rd_beWords _ _ _ (by omega), beWord_append_left]
    rw [hdl]
    exact Nat.mul_le_mul_right _ (by omega)

/-! ### Lawfulness -/

theorem sha_lawful (b : Build) (hg : Compresses p g) :
    Lawful (shaAlgorithm b p) (blockFn g) (fun s => s.length = p.stateWords) where
  half := by show blockBytes w = 2 * (blockBytes w / 2); rcases hg.width with rfl | rfl <;> rfl
  count := by show 1 + 2 * wordBytes w ≤ blockBytes w / 2; rcases hg.width with rfl | rfl <;> decide
  small := by show blockBytes w ≤ 128; rcases hg.width with rfl | rfl <;> decide
  wide := by show 2 * wordBytes w = 8 ∨ 2 * wordBytes w = 16; rcases hg.width with rfl | rfl <;> decide
  bytes := by show 32 ≤ blockBytes w; rcases hg.width with rfl | rfl <;> decide
  vH := hg.hlen
  vf := fun s b hs _ => blockFn_length hg s b hs
  acc := fun s bs hs _ => iterate_build b hg bs s hs
  fin := fun s n hs hn => scheduleN_eq b hg _ s (buffer0_length p) n hs hn
  hb := fun bs _ hn => by
    show hashBlocks b p bs = output p _
    rw [hashBlocks, iterate_build b hg bs _ hg.hlen, finalizeState,
      scheduleN_eq b hg _ _ (buffer0_length p) _ (fold_length hg _ _ hg.hlen) hn]
    rfl
  hblock := fun x _ => by
    show hashBlocks b p [x] = output p _
    rw [hashBlocks, iterate_build b hg [x] _ hg.hlen, finalizeState,
      scheduleN_eq b hg _ _ (buffer0_length p) _ (fold_length hg _ _ hg.hlen)
        (by rw [List.length_singleton]; rcases hg.width with rfl | rfl <;> decide)]
    rfl
  hh := fun d hd => by
    have hf := hg.few
    show hashHalf b p d = output p _
    rw [hashHalf, padHalf_eq b hg _ _ (by rw [inputLeft, setMany_length, buffer0_length]) hg.hlen d hd
      (fun i hi => inputLeft_half _ (by rw [buffer0_length]; omega) _ _ hi)]
    rfl

theorem sha_double (b : Build) (hg : Compresses p g) (h8 : p.stateWords = 8) (hfull : p.digest / 8 = 8 * (w / 8)) :
    LawfulDouble (shaAlgorithm b p) (blockFn g) (fun s => s.length = p.stateWords) where
  len := fun s hs => by
    show (output p s).length = blockBytes w / 2
    rw [output_eq, List.length_take, wordsBytes_length, hs, h8, hfull]
    rcases hg.width with rfl | rfl <;> decide
  fs := fun s hs => by
    show output p (second b p (buffer0 p) s) = _
    rw [second_eq b hg _ _ (buffer0_length p) (hs.trans h8) h8 hfull]
    rfl
  fd := fun s n hs hn => by
    show finalizeDouble b p s n = _
    rw [finalizeDouble]
    rw [scheduleN_eq b hg _ s (buffer0_length p) n hs hn, second_eq b hg _ _ _ ((blockFn_length hg _ _ hs).trans h8) h8 hfull]
    · rfl
    · unfold scheduleN
      split
      · simp [scheduledPad, scheduleScalar_length, buffer0_length]
      · rw [schedule_length b hg, padN_length, buffer0_length]
  hb := fun bs _ hn => by
    show doubleHashBlocks b p bs = _
    rw [doubleHashBlocks, iterate_build b hg bs _ hg.hlen, finalizeDouble]
    rw [scheduleN_eq b hg _ _ (buffer0_length p) _ (fold_length hg _ _ hg.hlen) hn,
      second_eq b hg _ _ _ ((blockFn_length hg _ _ (fold_length hg _ _ hg.hlen)).trans h8) h8 hfull]
    · rfl
    · unfold scheduleN
      split
      · simp [scheduledPad, scheduleScalar_length, buffer0_length]
      · rw [schedule_length b hg, padN_length, buffer0_length]
  hblock := fun x hx => by
    show doubleHashBlock b p x = _
    rw [doubleHashBlock]
    rw [compress_input b hg _ hg.hlen x _ (buffer0_length p), schedule1_eq b hg _ (blockFn_length hg _ _ hg.hlen),
      second_eq b hg _ _ _ ((blockFn_length hg _ _ (blockFn_length hg _ _ hg.hlen)).trans h8) h8 hfull]
    · rfl
    · simp [schedule1, scheduledPad, scheduleScalar_length, buffer0_length]
  hh := fun d hd => by
    have hf := hg.few
    show doubleHashHalf b p d = _
    rw [doubleHashHalf]
    rw [padHalf_eq b hg _ _ (by rw [inputLeft, setMany_length, buffer0_length]) hg.hlen d hd
      (fun i hi => inputLeft_half _ (by rw [buffer0_length]; omega) _ _ hi),
      second_eq b hg _ _ _ ((blockFn_length hg _ _ hg.hlen).trans h8) h8 hfull]
    · rfl
    · rw [schedule_length b hg, padHalf, setMany_length, inputLeft, setMany_length, buffer0_length]

end Verif.Hash
