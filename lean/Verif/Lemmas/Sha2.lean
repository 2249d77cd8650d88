import Verif.Lemmas.ShaLawful
/-!
# SHA-2 and SHA-1: the model against FIPS 180-4
-/
namespace Verif.Hash
open Verif.Spec.Hash Verif.Sha

variable {w : Nat}

/-- The SHA-2 compression on lists of words. -/
def sha2Fn (q : Sha2 w) (s : List (BitVec w)) (M : Nat → BitVec w) : List (BitVec w) :=
  let h := Vars.ofList s
  let v := (List.range q.rounds).foldl (q.step M) h
  (⟨h.a + v.a, h.b + v.b, h.c + v.c, h.d + v.d, h.e + v.e, h.f + v.f, h.g + v.g, h.h + v.h⟩ : Vars w).toList

theorem sha2_compresses (p : Params w) (q : Sha2 w) (hw : w = 32 ∨ w = 64) (hm : Matches p q) : Compresses p (sha2Fn q) where
  width := hw
  few := hm.few
  eight := hm.eight
  hlen := hm.hlen.trans hm.words.symm
  glen := fun _ _ _ => hm.words.symm
  comp := fun s l M hs hl h0 => compress_words p q hm M _ s (hs.trans hm.words) (fun t ht => rd_schedule p q hm M l hl h0 t ht)

theorem sha2_iterate (q : Sha2 w) (n : Nat) (m : Bytes) (h : Vars w) :
    Spec.Hash.iterate n (blockFn (sha2Fn q)) h.toList m = (Spec.Hash.iterate n q.compress h m).toList := by
  rw [iterate_eq, iterate_eq]
  generalize blocksOf n m = bs
  induction bs generalizing h with
  | nil => rfl
  | cons b bs ih =>
    rw [List.foldl_cons, List.foldl_cons, ← ih]
    rfl

theorem sha2_digest (b : Build) (p : Params w) (q : Sha2 w) (hw : w = 32 ∨ w = 64) (hm : Matches p q) (m : Bytes) :
    digestOf (shaAlgorithm b p) (blockFn (sha2Fn q)) m = q.digest m := by
  unfold digestOf Sha2.digest
  show output p (Spec.Hash.iterate (blockBytes w) _ p.H (padded (blockBytes w) (2 * wordBytes w) beRep m)) = _
  have e1 : blockBytes w = 2 * w := by rcases hw with rfl | rfl <;> rfl
  have e2 : 2 * wordBytes w = w / 4 := by rcases hw with rfl | rfl <;> rfl
  have e3 : p.H = (Vars.ofList q.H).toList := by rw [← hm.H, toList_ofList _ hm.hlen]
  rw [e1, e2, e3, sha2_iterate, output, hm.digest]
  simp only [beRep_eq]
  rfl

theorem matches256 : Matches sha256 Spec.Hash.sha256 where
  strength := by decide
  words := by decide
  rounds := rfl
  few := by decide
  eight := by decide
  K := by decide +kernel
  H := by decide +kernel
  digest := rfl
  hlen := rfl
  s0 := fun _ => rfl
  s1 := fun _ => rfl
  S0 := fun x => Sigma_eq 2 13 22 x (by decide) (by decide) (by decide)
  S1 := fun x => Sigma_eq 6 11 25 x (by decide) (by decide) (by decide)

theorem matches224 : Matches sha256_224 Spec.Hash.sha224 where
  strength := by decide
  words := by decide
  rounds := rfl
  few := by decide
  eight := by decide
  K := matches256.K
  H := by decide +kernel
  digest := rfl
  hlen := rfl
  s0 := fun _ => rfl
  s1 := fun _ => rfl
  S0 := matches256.S0
  S1 := matches256.S1

theorem matches512 : Matches sha512 Spec.Hash.sha512 where
  strength := by decide
  words := by decide
  rounds := rfl
  few := by decide
  eight := by decide
  K := by decide +kernel
  H := by decide +kernel
  digest := rfl
  hlen := rfl
  s0 := fun _ => rfl
  s1 := fun _ => rfl
  S0 := fun x => Sigma_eq 28 34 39 x (by decide) (by decide) (by decide)
  S1 := fun x => Sigma_eq 14 18 41 x (by decide) (by decide) (by decide)

theorem matches384 : Matches sha512_384 Spec.Hash.sha384 where
  strength := by decide
  words := by decide
  rounds := rfl
  few := by decide
  eight := by decide
  K := matches512.K
  H := by decide +kernel
  digest := rfl
  hlen := rfl
  s0 := fun _ => rfl
  s1 := fun _ => rfl
  S0 := matches512.S0
  S1 := matches512.S1

/-- The generator of the SHA-512/t initial values, as parameters of the code. -/
def ivParams : Params 64 := { Sha.sha512 with H := h512.map (· ^^^ 0xa5a5a5a5a5a5a5a5) }

theorem matchesIv : Matches ivParams { Spec.Hash.sha512 with H := Spec.Hash.sha512.H.map (· ^^^ 0xa5a5a5a5a5a5a5a5) } where
  strength := by decide
  words := by decide
  rounds := rfl
  few := by decide
  eight := by decide
  K := matches512.K
  H := congrArg (List.map (· ^^^ 0xa5a5a5a5a5a5a5a5)) matches512.H
  digest := rfl
  hlen := rfl
  s0 := fun _ => rfl
  s1 := fun _ => rfl
  S0 := matches512.S0
  S1 := matches512.S1

/-- The SHA-512/t initial values of the standard, computed with the model. -/
theorem ivOf_eq (name : Bytes) (h : name.length + 2 * 128 + 9 ≤ 2 ^ 61) :
    ivOf name = (List.range 8).map (beWord 64 (hash (shaAlgorithm Build.portable ivParams) false name)) := by
  unfold ivOf
  dsimp only
  rw [← sha2_digest Build.portable ivParams _ (Or.inr rfl) matchesIv name,
    hash_digest (sha_lawful Build.portable (sha2_compresses ivParams _ (Or.inr rfl) matchesIv)) false name h]

theorem matches512_256 : Matches sha512_256 Spec.Hash.sha512_256 where
  strength := by decide
  words := by decide
  rounds := rfl
  few := by decide
  eight := by decide
  K := matches512.K
  H := by show h512_256 = ivOf _; rw [ivOf_eq _ (by decide)]; decide +kernel
  digest := rfl
  hlen := rfl
  s0 := fun _ => rfl
  s1 := fun _ => rfl
  S0 := matches512.S0
  S1 := matches512.S1

theorem matches512_224 : Matches sha512_224 Spec.Hash.sha512_224 where
  strength := by decide
  words := by decide
  rounds := rfl
  few := by decide
  eight := by decide
  K := matches512.K
  H := by show h512_224 = ivOf _; rw [ivOf_eq _ (by decide)]; decide +kernel
  digest := rfl
  hlen := rfl
  s0 := fun _ => rfl
  s1 := fun _ => rfl
  S0 := matches512.S0
  S1 := matches512.S1

/-! ### SHA-1 -/

theorem rd_prepare1 (M : Nat → BitVec 32) (l : List (BitVec 32)) (n : Nat)
    (hn : 16 + n ≤ l.length) (h0 : ∀ i, i < 16 → rd l i = M i) :
    ∀ i, i < 16 + n → rd ((List.range' 16 n).foldl (prepare sha160) l) i = sha1W M i := by
  induction n with
  | zero =>
    intro i hi
    rw [sha1W, if_pos (by omega)]
    exact h0 i (by omega)
  | succ n ih =>
    intro i hi
    have ih := ih (by omega)
    rw [List.range'_concat, List.foldl_append, List.foldl_cons, List.foldl_nil, prepare, if_pos (show sha160.strength = 160 from rfl), rd_set,
      foldl_length _ (prepare_length sha160)]
    by_cases h : 16 + 1 * n = i
    · rw [if_pos ⟨h, by omega⟩, ih _ (by omega), ih _ (by omega), ih _ (by omega), ih _ (by omega), h]
      conv => rhs; rw [sha1W, if_neg (by omega)]
      congr 1
      ac_rfl
    · rw [if_neg (by omega)]
      exact ih i (by omega)

theorem k160_eq : ∀ t, t < 80 → rd k160 t = sha1K t := by decide +kernel

theorem rd_schedule1 (M : Nat → BitVec 32) (l : List (BitVec 32))
    (hl : l.length = 80) (h0 : ∀ i, i < 16 → rd l i = M i) (t : Nat) (ht : t < 80) :
    rd (scheduleScalar sha160 l) t = sha1W M t + sha1K t := by
  rw [scheduleScalar, konstant, rd_konstant_upto, foldl_length _ (prepare_length sha160),
    if_pos ⟨ht, by rw [hl]; exact ht⟩]
  rw [show sha160.rounds - 16 = 64 from rfl, rd_prepare1 M l 64 (by omega) h0 t (by omega), ← k160_eq t ht]
  rfl

/-- The working variables at round `r` in the rotating state of five words; `n` is a multiple of five. -/
def view5 (n r : Nat) (s : List (BitVec 32)) : Vars5 :=
  let v := fun k => rd s ((n + k - r) % 5)
  ⟨v 0, v 1, v 2, v 3, v 4⟩

theorem list5 {α : Type} (s : List α) (h : s.length = 5) : ∃ a b c d e, s = [a, b, c, d, e] := by
  match s, h with
  | [a, b, c, d, e], _ => exact ⟨a, b, c, d, e, rfl⟩

theorem mod5 (n k r : Nat) (h : r < n) : (n + k - r) % 5 = ((n - r) % 5 + k) % 5 := by omega
theorem mod5' (n k r : Nat) (h : r < n) : (n + k - (r + 1)) % 5 = ((n - r) % 5 + k + 4) % 5 := by omega

theorem functor_eq (r : Nat) (hr : r < 80) : (functor r : BitVec 32 → _ → _ → _) = sha1F r := by
  funext x y z
  unfold functor sha1F
  by_cases h1 : r < 20
  · rw [if_pos (by omega), if_pos h1, choice_eq]
  · rw [if_neg (by omega), if_neg h1]
    by_cases h2 : r < 40
    · rw [if_pos (by omega), if_pos h2]; rfl
    · rw [if_neg (by omega), if_neg h2]
      by_cases h3 : r < 60
      · rw [if_pos (by omega), if_pos h3, majority_eq]
      · rw [if_neg (by omega), if_neg h3]; rfl

theorem round1_view (M : Nat → BitVec 32) (wk s : List (BitVec 32))
    (hs : s.length = 5) (r : Nat) (hr : r < 80) (hwk : rd wk r = sha1W M r + sha1K r) :
    view5 80 (r + 1) (round sha160 wk s r) = sha1Step M (view5 80 r s) r := by
  obtain ⟨x0, x1, x2, x3, x4, rfl⟩ := list5 s hs
  unfold round view5
  simp only [show sha160.stateWords = 5 from rfl, show sha160.strength = 160 from rfl, show sha160.rounds = 80 from rfl, if_true]
  simp only [mod5 _ _ _ hr, mod5' _ _ _ hr, hwk, functor_eq r hr, sha1Step]
  have hc : (80 - r) % 5 < 5 := Nat.mod_lt _ (by omega)
  generalize (80 - r) % 5 = c at hc
  match c, hc with
  | 0, _ | 1, _ | 2, _ | 3, _ | 4, _ =>
    simp [rd, BitVec.add_assoc, BitVec.add_comm]

/-- The SHA-1 compression on lists of words. -/
def sha1Fn (s : List (BitVec 32)) (M : Nat → BitVec 32) : List (BitVec 32) :=
  let h : Vars5 := ⟨rd s 0, rd s 1, rd s 2, rd s 3, rd s 4⟩
  let v := (List.range 80).foldl (sha1Step M) h
  (⟨h.a + v.a, h.b + v.b, h.c + v.c, h.d + v.d, h.e + v.e⟩ : Vars5).toList

theorem rounds1_view (M : Nat → BitVec 32) (wk s : List (BitVec 32))
    (hs : s.length = 5) (hwk : ∀ t, t < 80 → rd wk t = sha1W M t + sha1K t) (n : Nat) (hn : n ≤ 80) :
    view5 80 n ((List.range n).foldl (round sha160 wk) s) = (List.range n).foldl (sha1Step M) (view5 80 0 s) := by
  induction n with
  | zero => rfl
  | succ n ih =>
    rw [List.range_succ, List.foldl_append, List.foldl_append, List.foldl_cons, List.foldl_nil, List.foldl_cons,
      List.foldl_nil, ← ih (by omega)]
    exact round1_view M wk _ (by rw [foldl_length _ (round_length sha160 wk), hs]) n (by omega) (hwk n (by omega))

theorem summarize1_eq (s t : List (BitVec 32)) (hs : s.length = 5) (ht : t.length = 5) :
    summarize sha160 s t = [rd t 0 + rd s 0, rd t 1 + rd s 1, rd t 2 + rd s 2, rd t 3 + rd s 3, rd t 4 + rd s 4] := by
  obtain ⟨x0, x1, x2, x3, x4, rfl⟩ := list5 s hs
  obtain ⟨y0, y1, y2, y3, y4, rfl⟩ := list5 t ht
  unfold summarize
  simp only [show sha160.strength = 160 from rfl]
  simp [List.range_succ, rd, BitVec.add_comm]

theorem sha1_compresses : Compresses sha160 sha1Fn where
  width := Or.inl rfl
  few := by decide
  eight := by decide
  hlen := rfl
  glen := fun _ _ _ => rfl
  comp := fun s l M hs hl h0 => by
    have key := rounds1_view M (scheduleScalar sha160 l) s hs (fun t ht => rd_schedule1 M l hl h0 t ht) 80 (Nat.le_refl _)
    rw [compress, summarize1_eq _ _ (by rw [foldl_length _ (round_length sha160 _), hs]; rfl) hs, sha1Fn]
    dsimp only
    rw [show (⟨rd s 0, rd s 1, rd s 2, rd s 3, rd s 4⟩ : Vars5) = view5 80 0 s from rfl, ← key,
      show sha160.rounds = 80 from rfl]
    generalize (List.range 80).foldl (round sha160 (scheduleScalar sha160 l)) s = t
    rfl

theorem sha1_iterate (m : Bytes) (h : Vars5) :
    Spec.Hash.iterate 64 (blockFn sha1Fn) h.toList m = (Spec.Hash.iterate 64 sha1Compress h m).toList := by
  rw [iterate_eq, iterate_eq]
  generalize blocksOf 64 m = bs
  induction bs generalizing h with
  | nil => rfl
  | cons b bs ih =>
    rw [List.foldl_cons, List.foldl_cons, ← ih]
    rfl

theorem sha1_digest (b : Build) (m : Bytes) : digestOf (shaAlgorithm b sha160) (blockFn sha1Fn) m = sha1 m := by
  unfold digestOf sha1
  show output sha160 (Spec.Hash.iterate 64 _ iv5.toList (padded 64 8 beRep m)) = _
  rw [sha1_iterate, output, List.take_of_length_le]
  · simp only [beRep_eq]
    rfl
  · show (List.flatMap (fun x : BitVec 32 => beBytes 4 x.toNat) _).length ≤ 20
    simp [Vars5.toList]

end Verif.Hash
