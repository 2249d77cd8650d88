import Verif.Lemmas.Native
import Verif.Props.Hash
/-!
# C90: Native SHA-256
-/
namespace Verif.Native
open Verif Verif.Sha Verif.Spec.ShaIsa Verif.Hash
open Verif.Spec.Hash (Vars beWord smallSigma)

/-- The block function of FIPS 180-4. -/
abbrev fn : List (BitVec 32) → Bytes → List (BitVec 32) := blockFn (sha2Fn q256)

theorem bswap_le (b : Bytes) (h : b.length = 4) : bswap (BitVec.ofNat 32 (leNat b)) = BitVec.ofNat 32 (beNat b) := by
  unfold bswap
  have := leNat_lt b
  rw [h] at this
  rw [BitVec.toNat_ofNat, Nat.mod_eq_of_lt (by omega), leBytes_leNat' h]

theorem bswap_be (x : BitVec 32) : leBytes 4 (bswap x).toNat = beBytes 4 x.toNat := by
  unfold bswap beNat beBytes
  have h : (leBytes 4 x.toNat).reverse.length = 4 := by simp
  have := leNat_lt (leBytes 4 x.toNat).reverse
  rw [h] at this
  rw [BitVec.toNat_ofNat, Nat.mod_eq_of_lt (by omega), leBytes_leNat' h]

theorem raw_word (n : Nat) (d : Bytes) (h : d.length = 4 * n) (i : Nat) (hi : i < n) : endian true (rd (rawWords n d) i) = beWord 32 d i := by
  unfold rawWords endian
  rw [if_pos rfl, rd_map_range _ _ _ hi]
  unfold leWord
  rw [bswap_le _ (by simp; omega), beWord, beVal_eq, Nat.mul_comm 4 i]

theorem finalize_eq (a : Arch) (p : Params 32) (s pad : List (BitVec 32)) : finalize a p s pad = output p (transform a p false s pad) := by
  unfold finalize output finalizeWords
  simp only [bswap_be]
  rfl

section
variable {a : Arch} {p : Params 32} (hK : p.K = q256.K)
include hK

theorem transform_fn {swap : Bool} {s words : List (BitVec 32)} {d : Bytes} (h : ∀ i, i < 16 → endian swap (rd words i) = beWord 32 d i) :
    transform a p swap s words = fn s d := transform_eq a p hK swap s words _ h

theorem block_fn (s : List (BitVec 32)) (d : Bytes) (h : d.length = 64) : transform a p true s (rawWords 16 d) = fn s d :=
  transform_fn hK (raw_word 16 d h)

theorem pad_fn (s : List (BitVec 32)) (n : Nat) (hn : n * 64 * 8 < 2 ^ 64) :
    transform a p false s (padBlocks n) = fn s (padBlock (nativeAlgorithm a p) n) := by
  refine transform_fn hK fun i hi => ?_
  unfold endian padBlocks
  rw [if_neg (by decide), rd_padN _ _ (by decide) _ hi]
  have := padWords_bytes Build.portable p (Or.inl rfl) n hn
  rw [show padBlock (nativeAlgorithm a p) n = padBlock (shaAlgorithm Build.portable p) n from rfl, ← this,
    beWord_wordsBytes (by decide) _ _ (by simpa [padWords] using hi)]

theorem half_fn (s l : List (BitVec 32)) (hl : l.length = 16) (d : Bytes) (hd : d.length = 32) (h : ∀ i, i < 8 → rd l i = beWord 32 d i) :
    transform a p false s (padHalf l) = fn s (d ++ halfPad (nativeAlgorithm a p)) := by
  refine transform_fn hK fun i hi => ?_
  rw [show halfPad (nativeAlgorithm a p) = halfPad (shaAlgorithm Build.portable p) from rfl, ← halfWords_bytes Build.portable p (Or.inl rfl)]
  unfold endian
  rw [if_neg (by decide), padHalf, rd_setMany]
  by_cases h8 : 8 ≤ i
  · rw [if_pos (by simp; omega)]
    obtain ⟨j, rfl⟩ : ∃ j, i = 8 + j := ⟨i - 8, by omega⟩
    rw [beWord_append_right d _ j 8 hd, beWord_wordsBytes (by decide) _ _ (by simp [halfWords]; omega), Nat.add_sub_cancel_left]
    rfl
  · rw [if_neg (by omega), h i (by omega), beWord_append_left]
    rw [hd]
    omega

theorem fn_length (s : List (BitVec 32)) (d : Bytes) : (fn s d).length = 8 := rfl

theorem second_fn (s l : List (BitVec 32)) (hs : s.length = 8) (hl : l.length = 16) (hd : p.digest = 256) :
    transform a p false p.H (padHalf (injectLeftHalf l s)) = fn p.H (output p s ++ halfPad (nativeAlgorithm a p)) := by
  have ho : output p s = wordsBytes s := by
    rw [output_eq, List.take_of_length_le (by rw [wordsBytes_length, hs, hd]; decide)]
  refine half_fn hK _ _ (by rw [injectLeftHalf, setMany_length, hl]) _ (by rw [ho, wordsBytes_length, hs]) fun i hi => ?_
  rw [ho, beWord_wordsBytes (by decide) _ _ (by omega), injectLeftHalf, rd_setMany, if_pos (by simp; omega), Nat.sub_zero, rd_map_range _ _ _ hi]

theorem blocks_fn (s : List (BitVec 32)) (bs : List Bytes) (hs : s.length = 8) (hb : ∀ b ∈ bs, b.length = 64) :
    transformBlocks a p s bs = bs.foldl fn s := by
  unfold transformBlocks
  rw [shuffle_eq, hK]
  have key : ∀ (bs : List Bytes) (u : Vars 32), (∀ b ∈ bs, b.length = 64) →
      storeState (unshuffle a (bs.foldl (fun s block => nativeRounds a q256.K true s (rawWords 16 block)) (pack a u))) = bs.foldl fn u.toList := by
    intro bs
    induction bs with
    | nil => intro u _; exact unshuffle_eq a u
    | cons b bs ih =>
      intro u h
      rw [List.foldl_cons, List.foldl_cons, nativeRounds_eq a true _ _ (raw_word 16 b (h b (by simp))), ih _ fun x hx => h x (by simp [hx])]
      rfl
  rw [key bs _ hb, toList_ofList _ hs]

theorem foldl_fn_length (bs : List Bytes) (s : List (BitVec 32)) (hs : s.length = 8) : (bs.foldl fn s).length = 8 := by
  induction bs generalizing s with
  | nil => exact hs
  | cons b bs ih => exact ih _ rfl

/-- The native functions satisfy what the accumulator relies on, for the block function of FIPS 180-4. -/
theorem native_lawful (hH : p.H.length = 8) : Lawful (nativeAlgorithm a p) fn (fun s => s.length = 8) where
  half := rfl
  count := by show 1 + 8 ≤ 32; decide
  small := by show 64 ≤ 128; decide
  wide := Or.inl rfl
  bytes := by show 32 ≤ 64; decide
  vH := hH
  vf := fun _ _ _ _ => rfl
  acc := fun s bs hs hb => blocks_fn hK s bs hs hb
  fin := fun s n _ hn => pad_fn hK s n hn
  hb := fun bs hb hn => by
    show finalize a p _ _ = output p _
    rw [finalize_eq, pad_fn hK _ _ hn, blocks_fn hK _ _ hH hb]
    rfl
  hblock := fun b hb => by
    show finalize a p _ _ = output p _
    rw [finalize_eq, pad_fn hK _ _ (by decide), block_fn hK _ _ hb]
    rfl
  hh := fun d hd => by
    show finalize a p _ _ = output p _
    rw [finalize_eq, half_fn hK _ _ (by rw [inputLeft, setMany_length]; rfl) d hd (fun i hi => inputLeft_half _ (by decide) _ _ hi)]
    rfl

theorem native_double (hH : p.H.length = 8) (hd : p.digest = 256) : LawfulDouble (nativeAlgorithm a p) fn (fun s => s.length = 8) where
  len := fun s hs => by
    show (output p s).length = 32
    rw [output_eq, List.length_take, wordsBytes_length, hs, hd]
    decide
  fs := fun s hs => by
    show finalize a p _ _ = output p _
    rw [finalize_eq, second_fn hK _ _ hs rfl hd]
    rfl
  fd := fun s n hs hn => by
    show finalize a p _ _ = output p _
    rw [finalize_eq, pad_fn hK _ _ hn, second_fn hK _ _ rfl (by rw [padBlocks, padN_length]; rfl) hd]
    rfl
  hb := fun bs hb hn => by
    show finalize a p _ _ = output p _
    rw [finalize_eq, pad_fn hK _ _ hn, blocks_fn hK _ _ hH hb, second_fn hK _ _ rfl (by rw [padBlocks, padN_length]; rfl) hd]
    rfl
  hblock := fun b hb => by
    show finalize a p _ _ = output p _
    rw [finalize_eq, pad_fn hK _ _ (by decide), block_fn hK _ _ hb, second_fn hK _ _ rfl rfl hd]
    rfl
  hh := fun d hl => by
    have e := half_fn hK (a := a) p.H (inputLeft words0 d) (by rw [inputLeft, setMany_length]; rfl) d hl (fun i hi => inputLeft_half _ (by decide) _ _ hi)
    show finalize a p _ _ = output p _
    rw [finalize_eq, e, second_fn hK _ _ rfl (by rw [padHalf, setMany_length, inputLeft, setMany_length]; rfl) hd]
    rfl

end

theorem k_eq : (Sha.sha256).K = q256.K := matches256.K
theorem k_eq224 : (Sha.sha256_224).K = q256.K := matches256.K

theorem digest_native (a : Arch) (m : Bytes) : digestOf (nativeAlgorithm a Sha.sha256) fn m = Spec.Hash.sha256.digest m :=
  sha2_digest Build.portable Sha.sha256 Spec.Hash.sha256 (Or.inl rfl) matches256 m

theorem W224 (M : Nat → BitVec 32) (t : Nat) : Spec.Hash.sha224.W M t = q256.W M t := by
  induction t using Nat.strongRecOn with
  | _ t ih =>
    by_cases h : t < 16
    · rw [Spec.Hash.Sha2.W, if_pos h, Spec.Hash.Sha2.W, if_pos h]
    · have e1 : Spec.Hash.sha224.W M t = smallSigma q256.small1 (Spec.Hash.sha224.W M (t - 2)) + Spec.Hash.sha224.W M (t - 7)
          + smallSigma q256.small0 (Spec.Hash.sha224.W M (t - 15)) + Spec.Hash.sha224.W M (t - 16) := by
        rw [Spec.Hash.Sha2.W, if_neg h]
        rfl
      have e2 : q256.W M t = smallSigma q256.small1 (q256.W M (t - 2)) + q256.W M (t - 7)
          + smallSigma q256.small0 (q256.W M (t - 15)) + q256.W M (t - 16) := by
        rw [Spec.Hash.Sha2.W, if_neg h]
      rw [e1, e2, ih _ (by omega), ih _ (by omega), ih _ (by omega), ih _ (by omega)]

theorem fn224 : blockFn (sha2Fn Spec.Hash.sha224) = fn := by
  have e : ∀ M, Spec.Hash.sha224.step M = q256.step M := fun M => by
    funext v t
    unfold Spec.Hash.Sha2.step
    rw [W224]
    rfl
  funext s b
  unfold fn blockFn sha2Fn
  rw [e]
  rfl

theorem digest_native224 (a : Arch) (m : Bytes) : digestOf (nativeAlgorithm a Sha.sha256_224) fn m = Spec.Hash.sha224.digest m := by
  rw [← sha2_digest Build.portable Sha.sha256_224 Spec.Hash.sha224 (Or.inl rfl) matches224 m, fn224]
  rfl

/-- C90. One block: the native transformation, with the instructions of either processor, of every state and block is the compression of
FIPS 180-4. -/
theorem C90_transform (a : Arch) (v : Vars 32) (block : Bytes) (h : block.length = 64) :
    transform a Sha.sha256 true v.toList (rawWords 16 block) = (Spec.Hash.sha256.compress v block).toList :=
  block_fn k_eq v.toList block h

/-- C90. Any number of blocks. -/
theorem C90_blocks (a : Arch) (v : Vars 32) (blocks : List Bytes) (h : ∀ b ∈ blocks, b.length = 64) :
    transformBlocks a Sha.sha256 v.toList blocks = (blocks.foldl Spec.Hash.sha256.compress v).toList := by
  rw [blocks_fn k_eq _ _ rfl h]
  clear h
  induction blocks generalizing v with
  | nil => rfl
  | cons b bs ih => exact ih _

/-- C90. Any message, in one call or in chunks, hashed once or twice, by a build with native SHA-256 has the digest of FIPS 180-4; and the 224
bit digest. -/
theorem C90_hash (a : Arch) (checked : Bool) (chunks : List Bytes) (hl : chunks.flatten.length + 512 ≤ 2 ^ 61) :
    hash (nativeAlgorithm a Sha.sha256) checked chunks.flatten = Spec.Hash.sha256.digest chunks.flatten ∧
    doubleHash (nativeAlgorithm a Sha.sha256) checked chunks.flatten = Spec.Hash.sha256.digest (Spec.Hash.sha256.digest chunks.flatten) ∧
    (flush (nativeAlgorithm a Sha.sha256) checked (writes (nativeAlgorithm a Sha.sha256) checked (init (nativeAlgorithm a Sha.sha256)) chunks)).1
      = Spec.Hash.sha256.digest chunks.flatten ∧
    doubleFlush (nativeAlgorithm a Sha.sha256) checked (writes (nativeAlgorithm a Sha.sha256) checked (init (nativeAlgorithm a Sha.sha256)) chunks)
      = Spec.Hash.sha256.digest (Spec.Hash.sha256.digest chunks.flatten) ∧
    hash (nativeAlgorithm a Sha.sha256_224) checked chunks.flatten = Spec.Hash.sha224.digest chunks.flatten := by
  have hA := native_lawful (a := a) k_eq (p := Sha.sha256) rfl
  have hD := native_double (a := a) k_eq (p := Sha.sha256) rfl rfl
  have h24 := native_lawful (a := a) k_eq224 (p := Sha.sha256_224) rfl
  have hi := writes_inv (checked := checked) hA hA.vH chunks (init_inv' hA) (by rw [List.nil_append]; omega)
  rw [List.nil_append] at hi
  simp only [← digest_native a, ← digest_native224 a]
  have hb : (nativeAlgorithm a Sha.sha256).blockSize = 64 := rfl
  have hb2 : (nativeAlgorithm a Sha.sha256_224).blockSize = 64 := rfl
  exact ⟨hash_digest hA checked _ (by rw [hb]; omega), doubleHash_digest hA hD checked _ (by rw [hb]; omega), flush_digest hA hi (by rw [hb]; omega),
    doubleFlush_digest hA hD hi (by rw [hb]; omega), hash_digest h24 checked _ (by rw [hb2]; omega)⟩

theorem halves_word (left right : Bytes) (h1 : left.length = 32) (h2 : right.length = 32) (i : Nat) (hi : i < 16) :
    endian true (rd (injectHalves words0 (rawWords 8 left) (rawWords 8 right)) i) = beWord 32 (left ++ right) i := by
  unfold injectHalves
  rw [rd_setMany]
  by_cases h8 : 8 ≤ i
  · rw [if_pos (by simp [injectLeftHalf, words0]; omega), rd_map_range _ _ _ (by omega), raw_word 8 right (by omega) _ (by omega)]
    obtain ⟨j, rfl⟩ : ∃ j, i = 8 + j := ⟨i - 8, by omega⟩
    rw [beWord_append_right left _ j 8 h1, Nat.add_sub_cancel_left]
  · rw [if_neg (by omega), injectLeftHalf, rd_setMany, if_pos (by simp [words0]; omega), Nat.sub_zero, rd_map_range _ _ _ (by omega),
      raw_word 8 left (by omega) _ (by omega), beWord_append_left]
    rw [h1]; omega

theorem half_digest (a : Arch) (d : Bytes) (h : d.length = 32) :
    output Sha.sha256 (fn Sha.sha256.H (d ++ halfPad (nativeAlgorithm a Sha.sha256))) = digestOf (nativeAlgorithm a Sha.sha256) fn d := by
  rw [digest_half (native_lawful (a := a) k_eq (p := Sha.sha256) rfl) d h]
  rfl

/-- C90. Pairs of hashes, as in merkle trees. -/
theorem C90_pair (a : Arch) (left right : Bytes) (h1 : left.length = 32) (h2 : right.length = 32) :
    hashHalves a Sha.sha256 left right = Spec.Hash.sha256.digest (left ++ right) ∧
    doubleHashHalves a Sha.sha256 left right = Spec.Hash.sha256.digest (Spec.Hash.sha256.digest (left ++ right)) := by
  have hA := native_lawful (a := a) k_eq (p := Sha.sha256) rfl
  have hD := native_double (a := a) k_eq (p := Sha.sha256) rfl rfl
  have hl : (left ++ right).length = 1 * (nativeAlgorithm a Sha.sha256).blockSize := by rw [List.length_append, h1, h2]; rfl
  have t : transform a Sha.sha256 true Sha.sha256.H (injectHalves words0 (rawWords 8 left) (rawWords 8 right)) = fn Sha.sha256.H (left ++ right) :=
    transform_fn k_eq (halves_word left right h1 h2)
  have key : Spec.Hash.sha256.digest (left ++ right) =
      output Sha.sha256 (fn (fn Sha.sha256.H (left ++ right)) (padBlock (nativeAlgorithm a Sha.sha256) 1)) := by
    rw [← digest_native a, digest_blocks hA _ 1 hl, blocksOf_one (by show 0 < 64; decide) _ (by rw [hl, Nat.one_mul])]
    rfl
  refine ⟨?_, ?_⟩
  · unfold hashHalves finalizeBlocks
    rw [finalize_eq, pad_fn k_eq _ _ (by decide), t, key]
  · unfold doubleHashHalves
    dsimp only
    rw [finalize_eq, pad_fn k_eq _ _ (by decide), t, second_fn k_eq _ _ rfl (by rw [injectHalves, setMany_length, injectLeftHalf, setMany_length]; rfl) rfl,
      key, ← digest_native a]
    have hv : (fn (fn Sha.sha256.H (left ++ right)) (padBlock (nativeAlgorithm a Sha.sha256) 1)).length = 8 := rfl
    generalize fn (fn Sha.sha256.H (left ++ right)) (padBlock (nativeAlgorithm a Sha.sha256) 1) = s at hv ⊢
    have hs : (output Sha.sha256 s).length = 32 := hD.len s hv
    exact half_digest a _ hs

theorem pad_one (a : Arch) (byte : UInt8) : Spec.Hash.padded 64 8 (rep (nativeAlgorithm a Sha.sha256)) [byte]
    = [byte, 0x80] ++ List.replicate 61 0 ++ [8] := by
  have h : rep (nativeAlgorithm a Sha.sha256) 8 8 = List.replicate 7 0 ++ [8] := by
    show Spec.Hash.beRep 8 8 = _
    decide
  unfold Spec.Hash.padded
  rw [show Spec.Hash.zeros 64 8 [byte].length = 54 from (by decide : Spec.Hash.zeros 64 8 1 = 54), show 8 * [byte].length = 8 from rfl]
  rw [h]
  rfl

theorem byte_word (byte : UInt8) (i : Nat) (hi : i < 16) :
    endian false (rd (rawWords 16 ((((List.replicate 64 (0 : UInt8)).set 3 byte).set 2 0x80).set 60 8)) i) =
      beWord 32 ([byte, 0x80] ++ List.replicate 61 0 ++ [8]) i := by
  unfold rawWords endian
  rw [if_neg (by decide), rd_map_range _ _ _ hi]
  unfold leWord beWord
  rw [beVal_eq]
  match i with
  | 0 => rfl
  | 1 | 2 | 3 | 4 | 5 | 6 | 7 | 8 | 9 | 10 | 11 | 12 | 13 | 14 | 15 => rfl
  | i + 16 => omega

/-- C90. One byte (the function is not called by the library). -/
theorem C90_byte (a : Arch) (byte : UInt8) : hashByte a Sha.sha256 byte = Spec.Hash.sha256.digest [byte] := by
  have t : transform a Sha.sha256 false Sha.sha256.H (rawWords 16 ((((List.replicate 64 (0 : UInt8)).set 3 byte).set 2 0x80).set 60 8))
      = fn Sha.sha256.H ([byte, 0x80] ++ List.replicate 61 0 ++ [8]) := transform_fn k_eq (byte_word byte)
  unfold hashByte
  dsimp only
  rw [finalize_eq, t, ← digest_native a, digestOf]
  show _ = output Sha.sha256 (Spec.Hash.iterate 64 fn Sha.sha256.H (Spec.Hash.padded 64 8 (rep (nativeAlgorithm a Sha.sha256)) [byte]))
  rw [pad_one, iterate_eq, blocksOf_one (by decide) _ (by simp)]
  rfl

/-- The four byte groups of the data, each reversed. -/
def reversed : Bytes → Bytes
  | b0 :: b1 :: b2 :: b3 :: rest => b3 :: b2 :: b1 :: b0 :: reversed rest
  | _ => []

theorem reversed_group (n : Nat) (d : Bytes) (h : d.length = 4 * n) (i : Nat) (hi : i < n) :
    ((reversed d).drop (4 * i)).take 4 = ((d.drop (4 * i)).take 4).reverse := by
  induction n generalizing d i with
  | zero => omega
  | succ n ih =>
    match d, h with
    | b0 :: b1 :: b2 :: b3 :: rest, h =>
      cases i with
      | zero => rfl
      | succ i =>
        rw [show 4 * (i + 1) = 4 * i + 4 by omega]
        exact ih rest (by simp at h; omega) i (by omega)
    | [], h => simp at h
    | [_], h => simp at h; omega
    | [_, _], h => simp at h; omega
    | [_, _, _], h => simp at h; omega

theorem reversed_length (n : Nat) (d : Bytes) (h : d.length = 4 * n) : (reversed d).length = 4 * n := by
  induction n generalizing d with
  | zero => rw [List.length_eq_zero_iff.1 (by omega : d.length = 0)]; rfl
  | succ n ih =>
    match d, h with
    | b0 :: b1 :: b2 :: b3 :: rest, h =>
      have := ih rest (by simp at h; omega)
      simp [reversed, this]
      omega
    | [], h => simp at h
    | [_], h => simp at h; omega
    | [_, _], h => simp at h; omega
    | [_, _, _], h => simp at h; omega

theorem leWord_reversed (n : Nat) (d : Bytes) (h : d.length = 4 * n) (i : Nat) (hi : i < n) : leWord d i = beWord 32 (reversed d) i := by
  unfold leWord beWord
  rw [beVal_eq, show 32 / 8 = 4 from rfl, Nat.mul_comm i 4, reversed_group n d h i hi, beNat, List.reverse_reverse]

theorem quarters_word (left right : Bytes) (h1 : left.length = 16) (h2 : right.length = 16) (i : Nat) (hi : i < 8) :
    rd (injectQuarters words0 (rawWords 4 left) (rawWords 4 right)) i = beWord 32 (reversed (left ++ right)) i := by
  rw [← leWord_reversed 8 _ (by simp [h1, h2]) i hi]
  unfold injectQuarters
  rw [rd_setMany]
  by_cases h4 : 4 ≤ i
  · rw [if_pos (by simp [words0]; omega), rd_map_range _ _ _ (by omega), rawWords, rd_map_range _ _ _ (by omega)]
    unfold leWord
    rw [List.drop_append, List.drop_eq_nil_of_le (as := left) (by omega), List.nil_append, h1, show 4 * i - 16 = 4 * (i - 4) by omega]
  · rw [if_neg (by omega), rd_setMany, if_pos (by simp [words0]; omega), Nat.sub_zero, rd_map_range _ _ _ (by omega), rawWords, rd_map_range _ _ _ (by omega)]
    unfold leWord
    rw [List.drop_append_of_le_length (by omega), List.take_append_of_le_length (by simp; omega)]

/-- C90. Pairs of quarter blocks: the words are swapped neither when injected nor when transformed, so what is hashed is not the data but the data
with every group of four bytes reversed. The intended claim, the digest of `left ++ right`, fails (`C90_quarters_counterexample`). -/
theorem C90_quarters_partial (a : Arch) (left right : Bytes) (h1 : left.length = 16) (h2 : right.length = 16) :
    hashQuarters a Sha.sha256 left right = Spec.Hash.sha256.digest (reversed (left ++ right)) := by
  have hl : (reversed (left ++ right)).length = 32 := reversed_length 8 _ (by simp [h1, h2])
  unfold hashQuarters
  rw [finalize_eq, half_fn k_eq _ _ (by rw [injectQuarters, setMany_length, setMany_length]; rfl) _ hl (quarters_word left right h1 h2),
    half_digest a _ hl, digest_native]

/-- C90. A pair of quarter blocks whose native digest is not that of FIPS 180-4. -/
theorem C90_quarters_counterexample (a : Arch) : ∃ left right : Bytes, left.length = 16 ∧ right.length = 16 ∧
    hashQuarters a Sha.sha256 left right ≠ Spec.Hash.sha256.digest (left ++ right) := by
  refine ⟨1 :: List.replicate 15 0, List.replicate 16 0, rfl, rfl, ?_⟩
  rw [C90_quarters_partial a _ _ rfl rfl, ← C58_simple Sha.Build.portable _ (by decide), ← C58_simple Sha.Build.portable _ (by decide)]
  decide +kernel

/-- One block with eight blocks of state: the known digest of the empty message, natively computed from its padding block. -/
example (a : Arch) : hash (nativeAlgorithm a Sha.sha256) true [] = Spec.Hash.sha256.digest [] := (C90_hash a true [] (by decide)).1

/-- The first bytes of the digest of "abc", computed with the instructions. -/
example : (hash (nativeAlgorithm .intel Sha.sha256) true [0x61, 0x62, 0x63]).take 4 = [0xba, 0x78, 0x16, 0xbf] := by decide +kernel
example : (hash (nativeAlgorithm .neon Sha.sha256) true [0x61, 0x62, 0x63]).take 4 = [0xba, 0x78, 0x16, 0xbf] := by decide +kernel

example (a : Arch) : hashHalves a Sha.sha256 (List.replicate 32 1) (List.replicate 32 2) =
    Spec.Hash.sha256.digest (List.replicate 32 1 ++ List.replicate 32 2) := (C90_pair a _ _ (by decide) (by decide)).1

end Verif.Native
