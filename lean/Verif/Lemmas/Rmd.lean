import Verif.Lemmas.Sha2
/-!
# RIPEMD-160 and RIPEMD-128: the model against the published algorithm
-/
namespace Verif.Hash
open Verif.Spec.Hash Verif.Sha

/-- Words as little-endian bytes. -/
def wordsLe (ws : List (BitVec 32)) : Bytes := ws.flatMap fun x => leBytes 4 x.toNat

theorem leWord_wordsLe (ws : List (BitVec 32)) : ∀ i, i < ws.length → leWord (wordsLe ws) i = rd ws i := by
  induction ws with
  | nil => intro i h; simp at h
  | cons x xs ih =>
    intro i h
    rw [leWord, wordsLe, List.flatMap_cons]
    cases i with
    | zero =>
      rw [Nat.zero_mul, List.drop_zero, List.take_append_of_le_length (by simp), List.take_of_length_le (by simp), leVal_eq,
        leNat_leBytes, show (256 : Nat) ^ 4 = 2 ^ 32 by rfl, Nat.mod_eq_of_lt x.isLt]
      simp [rd]
    | succ i =>
      have := ih i (by simpa using h)
      rw [leWord, wordsLe] at this
      rw [Nat.add_mul, Nat.one_mul, Nat.add_comm, ← List.drop_drop, List.drop_left' (by simp), this]
      simp [rd]

theorem leWord_append_left (a b : Bytes) (i : Nat) (h : (i + 1) * 4 ≤ a.length) : leWord (a ++ b) i = leWord a i := by
  rw [leWord, leWord, List.drop_append_of_le_length (by omega), List.take_append_of_le_length (by rw [List.length_drop]; omega)]

theorem leWord_append_right (a b : Bytes) (i k : Nat) (h : a.length = k * 4) : leWord (a ++ b) (k + i) = leWord b i := by
  rw [leWord, leWord, Nat.add_mul, ← List.drop_drop, List.drop_left' h]

/-- What is needed of the compression of sixteen words. -/
structure RmdCompresses (p : Rmd.Params) (g : List (BitVec 32) → (Nat → BitVec 32) → List (BitVec 32)) : Prop where
  hlen : p.H.length = p.stateWords
  glen : ∀ s M, s.length = p.stateWords → (g s M).length = p.stateWords
  comp : ∀ s l M, s.length = p.stateWords → l.length = 16 → (∀ i, i < 16 → rd l i = M i) → Rmd.compress p s l = g s M

/-- The block function on states of the model. -/
def rmdFn (g : List (BitVec 32) → (Nat → BitVec 32) → List (BitVec 32)) (s : List (BitVec 32)) (block : Bytes) :
    List (BitVec 32) := g s (leWord block)

variable {p : Rmd.Params} {g : List (BitVec 32) → (Nat → BitVec 32) → List (BitVec 32)}

theorem rd_leWords (n : Nat) (bytes : Bytes) (i : Nat) (h : i < n) : rd (Rmd.leWords n bytes) i = leWord bytes i := by
  rw [Rmd.leWords, rd_map_range _ _ _ h, leWord, leVal_eq]

theorem rmd_input (hg : RmdCompresses p g) (s l : List (BitVec 32)) (hs : s.length = p.stateWords) (hl : l.length = 16) (b : Bytes) :
    Rmd.compress p s (Rmd.input l b) = rmdFn g s b := by
  refine hg.comp s _ _ hs (by rw [Rmd.input, setMany_length, hl]) (fun i hi => ?_)
  rw [Rmd.input, rd_setMany, if_pos (by simp [Rmd.leWords]; omega), Nat.sub_zero, rd_leWords _ _ _ hi]

theorem rmdFn_length (hg : RmdCompresses p g) (s : List (BitVec 32)) (b : Bytes) (hs : s.length = p.stateWords) :
    (rmdFn g s b).length = p.stateWords := hg.glen s _ hs

theorem rmd_accumulate (hg : RmdCompresses p g) (bs : List Bytes) : ∀ s l : List (BitVec 32), s.length = p.stateWords →
    l.length = 16 → (Rmd.accumulate p s l bs).1 = bs.foldl (rmdFn g) s ∧ (Rmd.accumulate p s l bs).2.length = 16 ∧
    (bs.foldl (rmdFn g) s).length = p.stateWords := by
  induction bs with
  | nil => intro s l hs hl; exact ⟨rfl, hl, hs⟩
  | cons b bs ih =>
    intro s l hs hl
    rw [Rmd.accumulate, List.foldl_cons, List.foldl_cons]
    dsimp only
    rw [rmd_input hg s l hs hl]
    exact ih _ _ (rmdFn_length hg s b hs) (by rw [Rmd.input, setMany_length, hl])

theorem rmd_padWords (p : Rmd.Params) (n : Nat) (hn : n * 64 * 8 < 2 ^ 64) :
    wordsLe (0x80 :: List.replicate 13 0 ++ [BitVec.ofNat 32 ((n * 64 * 8) % 2 ^ 64 % 2 ^ 32),
      BitVec.ofNat 32 ((n * 64 * 8) % 2 ^ 64 / 2 ^ 32)]) = padBlock (rmdAlgorithm p) n := by
  rw [Nat.mod_eq_of_lt hn]
  unfold padBlock
  show _ = [0x80] ++ List.replicate 55 0 ++ leRep 8 (8 * (n * 64))
  rw [leRep_eq, show (8 : Nat) = 4 + 4 from rfl, leBytes_split, show (4 + 4) * (n * 64) = n * 64 * 8 by omega,
    wordsLe, List.flatMap_append]
  congr 1
  simp only [List.flatMap_cons, List.flatMap_nil, List.append_nil, BitVec.toNat_ofNat, Nat.mod_mod]
  rw [show (2 : Nat) ^ 32 = 256 ^ 4 by rfl, leBytes_mod, leBytes_mod]

theorem rmd_padN (hg : RmdCompresses p g) (s l : List (BitVec 32)) (hs : s.length = p.stateWords) (hl : l.length = 16) (n : Nat)
    (hn : n * 64 * 8 < 2 ^ 64) : Rmd.compress p s (Rmd.padN l n) = rmdFn g s (padBlock (rmdAlgorithm p) n) := by
  refine hg.comp s _ _ hs (by rw [Rmd.padN, setMany_length, hl]) (fun i hi => ?_)
  rw [← rmd_padWords p n hn, leWord_wordsLe _ _ (by simp; omega), Rmd.padN]
  rw [rd_setMany, if_pos (by simp; omega), Nat.sub_zero]

theorem rmd_padOne (hg : RmdCompresses p g) (s : List (BitVec 32)) (hs : s.length = p.stateWords) :
    Rmd.compress p s Rmd.padOne = rmdFn g s (padBlock (rmdAlgorithm p) 1) := by
  refine hg.comp s _ _ hs rfl (fun i hi => ?_)
  rw [← rmd_padWords p 1 (by decide), leWord_wordsLe _ _ (by simp; omega)]
  rfl

theorem rmd_padHalf (hg : RmdCompresses p g) (s : List (BitVec 32)) (hs : s.length = p.stateWords) (d : Bytes)
    (hd : d.length = 32) : Rmd.compress p s (Rmd.padHalf (Rmd.inputHalf Rmd.words0 d))
      = rmdFn g s (d ++ halfPad (rmdAlgorithm p)) := by
  have hh : halfPad (rmdAlgorithm p) = wordsLe (0x80 :: List.replicate 5 0 ++ [256, 0]) := by
    show [0x80] ++ List.replicate 23 0 ++ leRep 8 256 = _
    decide
  have hw : Rmd.words0.length = 16 := rfl
  refine hg.comp s _ _ hs (by rw [Rmd.padHalf, setMany_length, Rmd.inputHalf, setMany_length]; rfl) (fun i hi => ?_)
  rw [hh, Rmd.padHalf, rd_setMany]
  by_cases h8 : 8 ≤ i
  · rw [if_pos (by simp [Rmd.inputHalf, hw]; omega)]
    obtain ⟨j, rfl⟩ : ∃ j, i = 8 + j := ⟨i - 8, by omega⟩
    rw [leWord_append_right d _ j 8 hd, leWord_wordsLe _ _ (by simp; omega), Nat.add_sub_cancel_left]
  · rw [if_neg (by omega), Rmd.inputHalf, rd_setMany, if_pos (by simp [Rmd.leWords, hw]; omega), Nat.sub_zero,
      rd_leWords _ _ _ (by omega), leWord_append_left]
    rw [hd]
    omega

theorem rmd_lawful (hg : RmdCompresses p g) :
    Lawful (rmdAlgorithm p) (rmdFn g) (fun s => s.length = p.stateWords) where
  half := rfl
  count := by show 1 + 8 ≤ 32; decide
  small := by show 64 ≤ 128; decide
  wide := Or.inl rfl
  bytes := by show 32 ≤ 64; decide
  vH := hg.hlen
  vf := fun s b hs _ => rmdFn_length hg s b hs
  acc := fun s bs hs _ => (rmd_accumulate hg bs s _ hs rfl).1
  fin := fun s n hs hn => rmd_padN hg s _ hs rfl n hn
  hb := fun bs _ hn => by
    obtain ⟨h1, h2, h3⟩ := rmd_accumulate hg bs p.H Rmd.words0 hg.hlen rfl
    show Rmd.hashBlocks p bs = Rmd.output _
    rw [Rmd.hashBlocks]
    rw [h1, rmd_padN hg _ _ h3 h2 _ hn]
    rfl
  hblock := fun b _ => by
    show Rmd.hashBlock p b = Rmd.output _
    rw [Rmd.hashBlock, rmd_input hg _ _ hg.hlen rfl, rmd_padOne hg _ (rmdFn_length hg _ _ hg.hlen)]
    rfl
  hh := fun d hd => by
    show Rmd.hashHalf p d = Rmd.output _
    rw [Rmd.hashHalf, rmd_padHalf hg _ hg.hlen d hd]
    rfl

/-! ### The two lines of RIPEMD-160 -/

theorem rmd_round_length (p : Rmd.Params) (ws s : List (BitVec 32)) (r : Nat) : (Rmd.round p ws s r).length = s.length := by
  unfold Rmd.round
  dsimp only
  split <;> simp

theorem foldl_pair {α β : Type} (f g : α → β → α) (bs : List β) : ∀ a b : α,
    bs.foldl (fun (s : α × α) i => (f s.1 i, g s.2 i)) (a, b) = (bs.foldl f a, bs.foldl g b) := by
  induction bs with
  | nil => intros; rfl
  | cons x xs ih => intro a b; rw [List.foldl_cons, ih]; rfl

theorem compress_pair (p : Rmd.Params) (s ws : List (BitVec 32)) : Rmd.compress p s ws =
    Rmd.summarize p s ((List.range (p.strength / 2)).foldl (Rmd.round p ws) s)
      ((List.range (p.strength / 2)).foldl (fun s i => Rmd.round p ws s (i + p.strength / 2)) s) := by
  unfold Rmd.compress
  dsimp only
  rw [foldl_pair (Rmd.round p ws) (fun s i => Rmd.round p ws s (i + p.strength / 2))]

theorem word_table (s : List (BitVec 32)) (M : Nat → BitVec 32) (h0 : ∀ i, i < 16 → rd s i = M i) (i j : Nat) (h : i = j)
    (hj : j < 16) : rd s i = M j := by rw [h]; exact h0 j hj

theorem left160 : ∀ r, r < 80 → Rmd.word160.getD r 0 = rmdLeft r ∧ rmdLeft r < 16 ∧
    Rmd.rot160.getD r 0 = (rmdShift.getD (r / 16) []).getD (rmdLeft r) 0 ∧ rd Rmd.k160 (r / 16) = rmdKLeft (r / 16) := by
  decide +kernel

theorem right160 : ∀ r, r < 80 → Rmd.word160.getD (r + 80) 0 = rmdRight r ∧ rmdRight r < 16 ∧
    Rmd.rot160.getD (r + 80) 0 = (rmdShift.getD (r / 16) []).getD (rmdRight r) 0 ∧
    rd Rmd.k160 ((r + 80) / 16) = rmdKRight 5 (r / 16) := by
  decide +kernel

theorem div_cases (r : Nat) (h : r < 80) : r / 16 = 0 ∨ r / 16 = 1 ∨ r / 16 = 2 ∨ r / 16 = 3 ∨ r / 16 = 4 := by omega

theorem functorL160 (r : Nat) (h : r < 80) : Rmd.functor Rmd.rmd160 r = rmdF (r / 16) := by
  funext x y z
  unfold Rmd.functor rmdF
  rcases div_cases r h with h | h | h | h | h <;> simp [h, Rmd.rmd160, Rmd.f0, Rmd.f1, Rmd.f2, Rmd.f3, Rmd.f4]

theorem functorR160 (r : Nat) (h : r < 80) : Rmd.functor Rmd.rmd160 (r + 80) = rmdF (4 - r / 16) := by
  funext x y z
  unfold Rmd.functor rmdF
  rw [show (r + 80) / 16 = r / 16 + 5 by omega]
  rcases div_cases r h with h | h | h | h | h <;> simp [h, Rmd.rmd160, Rmd.f0, Rmd.f1, Rmd.f2, Rmd.f3, Rmd.f4]

/-- One round of RIPEMD-160 on the rotating state. -/
theorem rmd160_round (ws s : List (BitVec 32)) (hs : s.length = 5) (r : Nat) (hr : r < 160)
    (f : BitVec 32 → BitVec 32 → BitVec 32 → BitVec 32) (x k : BitVec 32) (t : Nat)
    (hf : Rmd.functor Rmd.rmd160 r = f) (hx : rd ws (Rmd.word160.getD r 0) = x) (hk : rd Rmd.k160 (r / 16) = k)
    (ht : Rmd.rot160.getD r 0 = t) :
    view5 160 (r + 1) (Rmd.round Rmd.rmd160 ws s r) = rmd160Step f x k t (view5 160 r s) := by
  obtain ⟨x0, x1, x2, x3, x4, rfl⟩ := list5 s hs
  unfold Rmd.round view5
  simp only [show Rmd.rmd160.stateWords = 5 from rfl, show Rmd.rmd160.strength = 160 from rfl,
    show Rmd.rmd160.rot = Rmd.rot160 from rfl, show Rmd.rmd160.word = Rmd.word160 from rfl,
    show Rmd.rmd160.K = Rmd.k160 from rfl, if_neg (show ¬ (160 : Nat) = 128 by decide)]
  simp only [mod5 _ _ _ hr, mod5' _ _ _ hr, hf, hx, hk, ht, rmd160Step]
  have hc : (160 - r) % 5 < 5 := Nat.mod_lt _ (by omega)
  generalize (160 - r) % 5 = c at hc
  match c, hc with
  | 0, _ | 1, _ | 2, _ | 3, _ | 4, _ => simp [rd]

/-- The RIPEMD-160 compression on lists of words. -/
def rmd160Fn (s : List (BitVec 32)) (X : Nat → BitVec 32) : List (BitVec 32) :=
  let h : Vars5 := ⟨rd s 0, rd s 1, rd s 2, rd s 3, rd s 4⟩
  let l := (List.range 80).foldl (fun v j => rmd160Step (rmdF (j / 16)) (X (rmdLeft j)) (rmdKLeft (j / 16))
    ((rmdShift.getD (j / 16) []).getD (rmdLeft j) 0) v) h
  let r := (List.range 80).foldl (fun v j => rmd160Step (rmdF (4 - j / 16)) (X (rmdRight j)) (rmdKRight 5 (j / 16))
    ((rmdShift.getD (j / 16) []).getD (rmdRight j) 0) v) h
  (⟨h.b + l.c + r.d, h.c + l.d + r.e, h.d + l.e + r.a, h.e + l.a + r.b, h.a + l.b + r.c⟩ : Vars5).toList

theorem rmd160_left (ws s : List (BitVec 32)) (M : Nat → BitVec 32) (hs : s.length = 5)
    (h0 : ∀ i, i < 16 → rd ws i = M i) (n : Nat) (hn : n ≤ 80) :
    view5 160 n ((List.range n).foldl (Rmd.round Rmd.rmd160 ws) s) = (List.range n).foldl (fun v j => rmd160Step (rmdF (j / 16))
      (M (rmdLeft j)) (rmdKLeft (j / 16)) ((rmdShift.getD (j / 16) []).getD (rmdLeft j) 0) v) (view5 160 0 s) := by
  induction n with
  | zero => rfl
  | succ n ih =>
    rw [List.range_succ, List.foldl_append, List.foldl_append, List.foldl_cons, List.foldl_nil, List.foldl_cons,
      List.foldl_nil, ← ih (by omega)]
    obtain ⟨t1, t2, t3, t4⟩ := left160 n (by omega)
    exact rmd160_round ws _ (by rw [foldl_length _ (rmd_round_length _ ws), hs]) n (by omega) _ _ _ _ (functorL160 n (by omega))
      (word_table ws M h0 _ _ t1 t2) t4 t3

theorem rmd160_right (ws s : List (BitVec 32)) (M : Nat → BitVec 32) (hs : s.length = 5)
    (h0 : ∀ i, i < 16 → rd ws i = M i) (n : Nat) (hn : n ≤ 80) :
    view5 160 (n + 80) ((List.range n).foldl (fun s i => Rmd.round Rmd.rmd160 ws s (i + 80)) s) = (List.range n).foldl
      (fun v j => rmd160Step (rmdF (4 - j / 16)) (M (rmdRight j)) (rmdKRight 5 (j / 16))
      ((rmdShift.getD (j / 16) []).getD (rmdRight j) 0) v) (view5 160 80 s) := by
  induction n with
  | zero => rw [Nat.zero_add]; rfl
  | succ n ih =>
    rw [List.range_succ, List.foldl_append, List.foldl_append, List.foldl_cons, List.foldl_nil, List.foldl_cons,
      List.foldl_nil, ← ih (by omega)]
    obtain ⟨t1, t2, t3, t4⟩ := right160 n (by omega)
    rw [Nat.add_right_comm]
    exact rmd160_round ws _ (by rw [foldl_length _ (fun _ _ => rmd_round_length _ ws _ _), hs]) (n + 80) (by omega) _ _ _ _
      (functorR160 n (by omega)) (word_table ws M h0 _ _ t1 t2) t4 t3

theorem view5_mid (s : List (BitVec 32)) : view5 160 80 s = ⟨rd s 0, rd s 1, rd s 2, rd s 3, rd s 4⟩ := rfl
theorem view5_beg (s : List (BitVec 32)) : view5 160 0 s = ⟨rd s 0, rd s 1, rd s 2, rd s 3, rd s 4⟩ := rfl
theorem view5_end (s : List (BitVec 32)) : view5 160 (80 + 80) s = ⟨rd s 0, rd s 1, rd s 2, rd s 3, rd s 4⟩ := rfl

theorem rmd160_compresses : RmdCompresses Rmd.rmd160 rmd160Fn where
  hlen := rfl
  glen := fun _ _ _ => rfl
  comp := fun s l M hs hl h0 => by
    have h1 := rmd160_left l s M hs h0 80 (Nat.le_refl _)
    have h2 := rmd160_right l s M hs h0 80 (Nat.le_refl _)
    rw [compress_pair, rmd160Fn]
    dsimp only
    rw [view5_mid, view5_beg] at h1
    rw [view5_mid, view5_end] at h2
    rw [← h1, ← h2, show Rmd.rmd160.strength / 2 = 80 from rfl]
    generalize (List.range 80).foldl (Rmd.round Rmd.rmd160 l) s = t
    generalize (List.range 80).foldl (fun s i => Rmd.round Rmd.rmd160 l s (i + 80)) s = u
    rfl

theorem rmd160_iterate (m : Bytes) (h : Vars5) :
    Spec.Hash.iterate 64 (rmdFn rmd160Fn) h.toList m = (Spec.Hash.iterate 64 rmd160Compress h m).toList := by
  rw [iterate_eq, iterate_eq]
  generalize blocksOf 64 m = bs
  induction bs generalizing h with
  | nil => rfl
  | cons b bs ih =>
    rw [List.foldl_cons, List.foldl_cons, ← ih]
    rfl

theorem rmd160_digest (m : Bytes) : digestOf (rmdAlgorithm Rmd.rmd160) (rmdFn rmd160Fn) m = rmd160 m := by
  unfold digestOf rmd160
  show Rmd.output (Spec.Hash.iterate 64 _ iv5.toList (padded 64 8 leRep m)) = _
  rw [rmd160_iterate, Rmd.output]
  simp only [leRep_eq]

/-! ### RIPEMD-128 -/

/-- The working variables at round `r` in the rotating state of four words. -/
def view4 (n r : Nat) (s : List (BitVec 32)) : Vars4 :=
  let v := fun k => rd s ((n + k - r) % 4)
  ⟨v 0, v 1, v 2, v 3⟩

theorem list4 {α : Type} (s : List α) (h : s.length = 4) : ∃ a b c d, s = [a, b, c, d] := by
  match s, h with
  | [a, b, c, d], _ => exact ⟨a, b, c, d, rfl⟩

theorem mod4 (n k r : Nat) (h : r < n) : (n + k - r) % 4 = ((n - r) % 4 + k) % 4 := by omega
theorem mod4' (n k r : Nat) (h : r < n) : (n + k - (r + 1)) % 4 = ((n - r) % 4 + k + 3) % 4 := by omega

theorem left128 : ∀ r, r < 64 → Rmd.word128.getD r 0 = rmdLeft r ∧ rmdLeft r < 16 ∧
    Rmd.rot128.getD r 0 = (rmdShift.getD (r / 16) []).getD (rmdLeft r) 0 ∧ rd Rmd.k128 (r / 16) = rmdKLeft (r / 16) := by
  decide +kernel

theorem right128 : ∀ r, r < 64 → Rmd.word128.getD (r + 64) 0 = rmdRight r ∧ rmdRight r < 16 ∧
    Rmd.rot128.getD (r + 64) 0 = (rmdShift.getD (r / 16) []).getD (rmdRight r) 0 ∧
    rd Rmd.k128 ((r + 64) / 16) = rmdKRight 4 (r / 16) := by
  decide +kernel

theorem div_cases4 (r : Nat) (h : r < 64) : r / 16 = 0 ∨ r / 16 = 1 ∨ r / 16 = 2 ∨ r / 16 = 3 := by omega

theorem functorL128 (r : Nat) (h : r < 64) : Rmd.functor Rmd.rmd128 r = rmdF (r / 16) := by
  funext x y z
  unfold Rmd.functor rmdF
  rcases div_cases4 r h with h | h | h | h <;> simp [h, Rmd.rmd128, Rmd.f0, Rmd.f1, Rmd.f2, Rmd.f3]

theorem functorR128 (r : Nat) (h : r < 64) : Rmd.functor Rmd.rmd128 (r + 64) = rmdF (3 - r / 16) := by
  funext x y z
  unfold Rmd.functor rmdF
  rw [show (r + 64) / 16 = r / 16 + 4 by omega]
  rcases div_cases4 r h with h | h | h | h <;> simp [h, Rmd.rmd128, Rmd.f0, Rmd.f1, Rmd.f2, Rmd.f3]

theorem rmd128_round (ws s : List (BitVec 32)) (hs : s.length = 4) (r : Nat) (hr : r < 128)
    (f : BitVec 32 → BitVec 32 → BitVec 32 → BitVec 32) (x k : BitVec 32) (t : Nat)
    (hf : Rmd.functor Rmd.rmd128 r = f) (hx : rd ws (Rmd.word128.getD r 0) = x) (hk : rd Rmd.k128 (r / 16) = k)
    (ht : Rmd.rot128.getD r 0 = t) :
    view4 128 (r + 1) (Rmd.round Rmd.rmd128 ws s r) = rmd128Step f x k t (view4 128 r s) := by
  obtain ⟨x0, x1, x2, x3, rfl⟩ := list4 s hs
  unfold Rmd.round view4
  simp only [show Rmd.rmd128.stateWords = 4 from rfl, show Rmd.rmd128.strength = 128 from rfl,
    show Rmd.rmd128.rot = Rmd.rot128 from rfl, show Rmd.rmd128.word = Rmd.word128 from rfl,
    show Rmd.rmd128.K = Rmd.k128 from rfl, if_true]
  simp only [mod4 _ _ _ hr, mod4' _ _ _ hr, hf, hx, hk, ht, rmd128Step]
  have hc : (128 - r) % 4 < 4 := Nat.mod_lt _ (by omega)
  generalize (128 - r) % 4 = c at hc
  match c, hc with
  | 0, _ | 1, _ | 2, _ | 3, _ => simp [rd]

/-- The words of a RIPEMD-128 hash value. -/
def vars4List (v : Vars4) : List (BitVec 32) := [v.a, v.b, v.c, v.d]

/-- The RIPEMD-128 compression on lists of words. -/
def rmd128Fn (s : List (BitVec 32)) (X : Nat → BitVec 32) : List (BitVec 32) :=
  let h : Vars4 := ⟨rd s 0, rd s 1, rd s 2, rd s 3⟩
  let l := (List.range 64).foldl (fun v j => rmd128Step (rmdF (j / 16)) (X (rmdLeft j)) (rmdKLeft (j / 16))
    ((rmdShift.getD (j / 16) []).getD (rmdLeft j) 0) v) h
  let r := (List.range 64).foldl (fun v j => rmd128Step (rmdF (3 - j / 16)) (X (rmdRight j)) (rmdKRight 4 (j / 16))
    ((rmdShift.getD (j / 16) []).getD (rmdRight j) 0) v) h
  vars4List ⟨h.b + l.c + r.d, h.c + l.d + r.a, h.d + l.a + r.b, h.a + l.b + r.c⟩

theorem rmd128_left (ws s : List (BitVec 32)) (M : Nat → BitVec 32) (hs : s.length = 4)
    (h0 : ∀ i, i < 16 → rd ws i = M i) (n : Nat) (hn : n ≤ 64) :
    view4 128 n ((List.range n).foldl (Rmd.round Rmd.rmd128 ws) s) = (List.range n).foldl (fun v j => rmd128Step (rmdF (j / 16))
      (M (rmdLeft j)) (rmdKLeft (j / 16)) ((rmdShift.getD (j / 16) []).getD (rmdLeft j) 0) v) (view4 128 0 s) := by
  induction n with
  | zero => rfl
  | succ n ih =>
    rw [List.range_succ, List.foldl_append, List.foldl_append, List.foldl_cons, List.foldl_nil, List.foldl_cons,
      List.foldl_nil, ← ih (by omega)]
    obtain ⟨t1, t2, t3, t4⟩ := left128 n (by omega)
    exact rmd128_round ws _ (by rw [foldl_length _ (rmd_round_length _ ws), hs]) n (by omega) _ _ _ _ (functorL128 n (by omega))
      (word_table ws M h0 _ _ t1 t2) t4 t3

theorem rmd128_right (ws s : List (BitVec 32)) (M : Nat → BitVec 32) (hs : s.length = 4)
    (h0 : ∀ i, i < 16 → rd ws i = M i) (n : Nat) (hn : n ≤ 64) :
    view4 128 (n + 64) ((List.range n).foldl (fun s i => Rmd.round Rmd.rmd128 ws s (i + 64)) s) = (List.range n).foldl
      (fun v j => rmd128Step (rmdF (3 - j / 16)) (M (rmdRight j)) (rmdKRight 4 (j / 16))
      ((rmdShift.getD (j / 16) []).getD (rmdRight j) 0) v) (view4 128 64 s) := by
  induction n with
  | zero => rw [Nat.zero_add]; rfl
  | succ n ih =>
    rw [List.range_succ, List.foldl_append, List.foldl_append, List.foldl_cons, List.foldl_nil, List.foldl_cons,
      List.foldl_nil, ← ih (by omega)]
    obtain ⟨t1, t2, t3, t4⟩ := right128 n (by omega)
    rw [Nat.add_right_comm]
    exact rmd128_round ws _ (by rw [foldl_length _ (fun _ _ => rmd_round_length _ ws _ _), hs]) (n + 64) (by omega) _ _ _ _
      (functorR128 n (by omega)) (word_table ws M h0 _ _ t1 t2) t4 t3

theorem view4_mid (s : List (BitVec 32)) : view4 128 64 s = ⟨rd s 0, rd s 1, rd s 2, rd s 3⟩ := rfl
theorem view4_beg (s : List (BitVec 32)) : view4 128 0 s = ⟨rd s 0, rd s 1, rd s 2, rd s 3⟩ := rfl
theorem view4_end (s : List (BitVec 32)) : view4 128 (64 + 64) s = ⟨rd s 0, rd s 1, rd s 2, rd s 3⟩ := rfl

theorem rmd128_compresses : RmdCompresses Rmd.rmd128 rmd128Fn where
  hlen := rfl
  glen := fun _ _ _ => rfl
  comp := fun s l M hs hl h0 => by
    have h1 := rmd128_left l s M hs h0 64 (Nat.le_refl _)
    have h2 := rmd128_right l s M hs h0 64 (Nat.le_refl _)
    rw [compress_pair, rmd128Fn]
    dsimp only
    rw [view4_mid, view4_beg] at h1
    rw [view4_mid, view4_end] at h2
    rw [← h1, ← h2, show Rmd.rmd128.strength / 2 = 64 from rfl]
    generalize (List.range 64).foldl (Rmd.round Rmd.rmd128 l) s = t
    generalize (List.range 64).foldl (fun s i => Rmd.round Rmd.rmd128 l s (i + 64)) s = u
    rfl

theorem rmd128_iterate (m : Bytes) (h : Vars4) :
    Spec.Hash.iterate 64 (rmdFn rmd128Fn) (vars4List h) m = vars4List (Spec.Hash.iterate 64 rmd128Compress h m) := by
  rw [iterate_eq, iterate_eq]
  generalize blocksOf 64 m = bs
  induction bs generalizing h with
  | nil => rfl
  | cons b bs ih =>
    rw [List.foldl_cons, List.foldl_cons, ← ih]
    rfl

theorem rmd128_digest (m : Bytes) : digestOf (rmdAlgorithm Rmd.rmd128) (rmdFn rmd128Fn) m = rmd128 m := by
  unfold digestOf rmd128
  show Rmd.output (Spec.Hash.iterate 64 _ (vars4List ⟨0x67452301, 0xefcdab89, 0x98badcfe, 0x10325476⟩) (padded 64 8 leRep m)) = _
  rw [rmd128_iterate, Rmd.output]
  simp only [leRep_eq]
  rfl

end Verif.Hash
