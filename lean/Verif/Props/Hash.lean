import Verif.Model.HashFunctions
import Verif.Lemmas.Rmd
import Verif.Spec.Mac
/-!
# C38, C58: the streaming accumulator and the hash functions

`Standard b A D n` says which published function `D`, with digests of `n` bytes, each algorithm `A` of the library stands for.
-/
namespace Verif.Hash
open Verif.Sha (Build)

/-- The algorithms of the library (include/bitcoin/system/hash/algorithms.hpp:27-40) and the functions they stand for. -/
inductive Standard (b : Build) : {σ : Type} → Algorithm σ → (Bytes → Bytes) → Nat → Prop
  | sha1 : Standard b (shaAlgorithm b Sha.sha160) Spec.Hash.sha1 20
  | sha224 : Standard b (shaAlgorithm b Sha.sha256_224) Spec.Hash.sha224.digest 28
  | sha256 : Standard b (shaAlgorithm b Sha.sha256) Spec.Hash.sha256.digest 32
  | sha384 : Standard b (shaAlgorithm b Sha.sha512_384) Spec.Hash.sha384.digest 48
  | sha512 : Standard b (shaAlgorithm b Sha.sha512) Spec.Hash.sha512.digest 64
  | sha512_256 : Standard b (shaAlgorithm b Sha.sha512_256) Spec.Hash.sha512_256.digest 32
  | sha512_224 : Standard b (shaAlgorithm b Sha.sha512_224) Spec.Hash.sha512_224.digest 28
  | rmd160 : Standard b (rmdAlgorithm Rmd.rmd160) Spec.Hash.rmd160 20
  | rmd128 : Standard b (rmdAlgorithm Rmd.rmd128) Spec.Hash.rmd128 16

/-- The algorithms with a double hash (`half_size == digest_size`). -/
inductive Doubling (b : Build) : {σ : Type} → Algorithm σ → (Bytes → Bytes) → Prop
  | sha256 : Doubling b (shaAlgorithm b Sha.sha256) Spec.Hash.sha256.digest
  | sha512 : Doubling b (shaAlgorithm b Sha.sha512) Spec.Hash.sha512.digest

variable {b : Build} {σ : Type} {A : Algorithm σ} {D : Bytes → Bytes} {n : Nat}

theorem sha2_standard {w : Nat} (b : Build) (p : Sha.Params w) (q : Spec.Hash.Sha2 w) (hw : w = 32 ∨ w = 64)
    (hm : Sha.Matches p q) (hn : q.digestBytes ≤ 8 * (w / 8)) :
    Lawful (shaAlgorithm b p) (blockFn (sha2Fn q)) (fun s => s.length = p.stateWords) ∧
    digestOf (shaAlgorithm b p) (blockFn (sha2Fn q)) = q.digest ∧
    ∀ s : List (BitVec w), s.length = p.stateWords → ((shaAlgorithm b p).normalize s).length = q.digestBytes := by
  refine ⟨sha_lawful b (sha2_compresses p q hw hm), funext fun m => sha2_digest b p q hw hm m, fun s hs => ?_⟩
  show (Sha.output p s).length = _
  rw [output_eq, List.length_take, wordsBytes_length, hs, hm.words, hm.digest, Nat.min_eq_left hn]

theorem standard_lawful (h : Standard b A D n) : ∃ f V, Lawful A f V ∧ digestOf A f = D ∧
    ∀ s, V s → (A.normalize s).length = n := by
  cases h with
  | sha1 => exact ⟨_, _, sha_lawful b sha1_compresses, funext fun m => sha1_digest b m, fun s hs => by
      show (Sha.output Sha.sha160 s).length = _
      rw [output_eq, List.length_take, wordsBytes_length, hs]; rfl⟩
  | sha224 => exact ⟨_, _, sha2_standard b _ _ (Or.inl rfl) matches224 (by decide)⟩
  | sha256 => exact ⟨_, _, sha2_standard b _ _ (Or.inl rfl) matches256 (by decide)⟩
  | sha384 => exact ⟨_, _, sha2_standard b _ _ (Or.inr rfl) matches384 (by decide)⟩
  | sha512 => exact ⟨_, _, sha2_standard b _ _ (Or.inr rfl) matches512 (by decide)⟩
  | sha512_256 => exact ⟨_, _, sha2_standard b _ _ (Or.inr rfl) matches512_256 (by decide)⟩
  | sha512_224 => exact ⟨_, _, sha2_standard b _ _ (Or.inr rfl) matches512_224 (by decide)⟩
  | rmd160 => exact ⟨_, _, rmd_lawful rmd160_compresses, funext rmd160_digest, fun s hs => by
      obtain ⟨x0, x1, x2, x3, x4, rfl⟩ := list5 s hs
      show (Rmd.output _).length = _
      simp [Rmd.output]⟩
  | rmd128 => exact ⟨_, _, rmd_lawful rmd128_compresses, funext rmd128_digest, fun s hs => by
      obtain ⟨x0, x1, x2, x3, rfl⟩ := list4 s hs
      show (Rmd.output _).length = _
      simp [Rmd.output]⟩

theorem doubling_lawful (h : Doubling b A D) : ∃ f V, Lawful A f V ∧ LawfulDouble A f V ∧ digestOf A f = D := by
  cases h with
  | sha256 => exact ⟨_, _, sha_lawful b (sha2_compresses _ _ (Or.inl rfl) matches256),
      sha_double b (sha2_compresses _ _ (Or.inl rfl) matches256) rfl rfl, funext fun m => sha2_digest b _ _ (Or.inl rfl) matches256 m⟩
  | sha512 => exact ⟨_, _, sha_lawful b (sha2_compresses _ _ (Or.inr rfl) matches512),
      sha_double b (sha2_compresses _ _ (Or.inr rfl) matches512) rfl rfl, funext fun m => sha2_digest b _ _ (Or.inr rfl) matches512 m⟩

/-! ## C38 -/

/-- The padding of the specification is the standard's: `0x80`, then the least number of zero bytes for which the length field
ends on a block boundary, then the bit length. -/
theorem C38_padding (block count len : Nat) (h : 1 + count ≤ block) :
    (len + 1 + Spec.Hash.zeros block count len + count) % block = 0 ∧
    ∀ z, (len + 1 + z + count) % block = 0 → Spec.Hash.zeros block count len ≤ z := zeros_spec block count len h

/-- Writing data in any sequence of chunks and flushing gives the digest of the concatenation. -/
theorem C38_chunks (h : Standard b A D n) (checked : Bool) (chunks : List Bytes) (hl : chunks.flatten.length + 512 ≤ 2 ^ 61) :
    (flush A checked (writes A checked (init A) chunks)).1 = D chunks.flatten := by
  obtain ⟨f, V, hA, rfl, _⟩ := standard_lawful h
  have := hA.small
  have hi := writes_inv (checked := checked) hA hA.vH chunks (init_inv' hA) (by rw [List.nil_append]; omega)
  rw [List.nil_append] at hi
  exact flush_digest hA hi (by omega)

/-- It is the value of hashing the concatenation in one call. -/
theorem C38_one_call (h : Standard b A D n) (checked : Bool) (chunks : List Bytes) (hl : chunks.flatten.length + 512 ≤ 2 ^ 61) :
    (flush A checked (writes A checked (init A) chunks)).1 = hash A checked chunks.flatten := by
  rw [C38_chunks h checked chunks hl]
  obtain ⟨f, V, hA, rfl, _⟩ := standard_lawful h
  have := hA.small
  rw [hash_digest hA checked _ (by omega)]

/-- No write is refused before the limit. -/
theorem C38_accepted (h : Standard b A D n) (checked : Bool) (chunks : List Bytes) (d : Bytes)
    (hl : (chunks.flatten ++ d).length + 512 ≤ 2 ^ 61) :
    (write A checked (writes A checked (init A) chunks) d).1 = true := by
  obtain ⟨f, V, hA, rfl, _⟩ := standard_lawful h
  have h1 : chunks.flatten.length ≤ (chunks.flatten ++ d).length := by simp
  have hlim := limit_bound hA
  have hi := writes_inv (checked := checked) hA hA.vH chunks (init_inv' hA) (by rw [List.nil_append]; omega)
  rw [List.nil_append] at hi
  exact (write_inv hA hA.vH hi (d := d) (by omega) (fun _ => by omega)).1

/-- Flushing and resetting makes the accumulator as good as new. -/
theorem C38_reset (h : Standard b A D n) (checked : Bool) (before after : List Bytes)
    (hb : before.flatten.length + 512 ≤ 2 ^ 61) (ha : after.flatten.length + 512 ≤ 2 ^ 61) :
    (flush A checked (writes A checked (reset A (flush A checked (writes A checked (init A) before)).2 A.H 0) after)).1
      = D after.flatten := by
  obtain ⟨f, V, hA, rfl, _⟩ := standard_lawful h
  have := hA.small
  have hi := writes_inv (checked := checked) hA hA.vH before (init_inv' hA) (by rw [List.nil_append]; omega)
  rw [List.nil_append] at hi
  have hbuf := (flush_state (checked := checked) hA hA.vH hi (by omega)).2
  have hr := reset_inv hA hbuf [] 0 (by simp) (by simp) A.H
  rw [show Spec.Hash.iterate A.blockSize f A.H [] = A.H by simp [Spec.Hash.iterate]] at hr
  have hi2 := writes_inv (checked := checked) hA hA.vH after hr (by rw [List.nil_append]; omega)
  rw [List.nil_append] at hi2
  exact flush_digest hA hi2 (by omega)

/-- Resuming from the state of a number of whole blocks continues the hash of those blocks. -/
theorem C38_midstate (h : Standard b A D n) (checked : Bool) (begun : Bytes) (k : Nat) (hk : begun.length = k * A.blockSize)
    (chunks : List Bytes) (hl : 2 * begun.length + chunks.flatten.length + 512 ≤ 2 ^ 61) :
    (flush A checked (writes A checked (initFrom A checked (A.accumulate A.H (Sha.blocksOf A.blockSize begun)) k) chunks)).1
      = D (begun ++ chunks.flatten) := by
  obtain ⟨f, V, hA, rfl, _⟩ := standard_lawful h
  have hs := hA.small
  have hlim := limit_bound hA
  have e : A.accumulate A.H (Sha.blocksOf A.blockSize begun) = Spec.Hash.iterate A.blockSize f A.H begun := by
    rw [hA.acc _ _ hA.vH (fun b h => blocksOf_mem h), iterate_eq]
  have hr := reset_inv hA (c := init A) (by simp [init]) begun k hk (by omega) A.H
  have hinit : initFrom A checked (A.accumulate A.H (Sha.blocksOf A.blockSize begun)) k
      = reset A (init A) (Spec.Hash.iterate A.blockSize f A.H begun) k := by
    unfold initFrom
    dsimp only
    rw [e, if_neg]
    rw [Nat.mod_eq_of_lt (show k * A.blockSize < 2 ^ 64 by omega)]
    have hlt : limitBytes A < 2 ^ (8 * A.countSize) := by
      unfold limitBytes
      have := Nat.two_pow_pos (8 * A.countSize)
      omega
    have hsz : (reset A (init A) (Spec.Hash.iterate A.blockSize f A.H begun) k).size = begun.length := hr.size
    unfold isBufferOverflow
    rw [hsz, show limitBytes A + 2 ^ (8 * A.countSize) - begun.length = (limitBytes A - begun.length) + 2 ^ (8 * A.countSize) by omega,
        Nat.add_mod_right, Nat.mod_eq_of_lt (by omega)]
    simp
    intro _
    omega
  rw [hinit]
  have hi := writes_inv (checked := checked) hA hA.vH chunks hr (by rw [List.length_append]; omega)
  exact flush_digest hA hi (by rw [List.length_append]; omega)

/-- The double hash of chunks. -/
theorem C38_double (h : Doubling b A D) (checked : Bool) (chunks : List Bytes) (hl : chunks.flatten.length + 512 ≤ 2 ^ 61) :
    doubleFlush A checked (writes A checked (init A) chunks) = D (D chunks.flatten) := by
  obtain ⟨f, V, hA, hD, rfl⟩ := doubling_lawful h
  have := hA.small
  have hi := writes_inv (checked := checked) hA hA.vH chunks (init_inv' hA) (by rw [List.nil_append]; omega)
  rw [List.nil_append] at hi
  exact doubleFlush_digest hA hD hi (by omega)

/-- Chunks of seven, zero, sixty and three bytes. -/
example : (flush (shaAlgorithm Build.portable Sha.sha256) true (writes (shaAlgorithm Build.portable Sha.sha256) true
    (init (shaAlgorithm Build.portable Sha.sha256))
    [List.replicate 7 1, [], List.replicate 60 2, [3, 4, 5]])).1
    = Spec.Hash.sha256.digest (List.replicate 7 1 ++ List.replicate 60 2 ++ [3, 4, 5]) :=
  C38_chunks (.sha256) true _ (by decide)

/-! ## C58 -/

/-- The one call hash equals the published function, for every message, whatever path its size selects. -/
theorem C58_hash (h : Standard b A D n) (checked : Bool) (m : Bytes) (hl : m.length + 512 ≤ 2 ^ 61) : hash A checked m = D m := by
  obtain ⟨f, V, hA, rfl, _⟩ := standard_lawful h
  have := hA.small
  exact hash_digest hA checked m (by omega)

/-- The one call double hash. -/
theorem C58_double_hash (h : Doubling b A D) (checked : Bool) (m : Bytes) (hl : m.length + 512 ≤ 2 ^ 61) :
    doubleHash A checked m = D (D m) := by
  obtain ⟨f, V, hA, hD, rfl⟩ := doubling_lawful h
  have := hA.small
  exact doubleHash_digest hA hD checked m (by omega)

theorem standard_length (h : Standard b A D n) (m : Bytes) : (D m).length = n := by
  obtain ⟨f, V, hA, rfl, hn⟩ := standard_lawful h
  exact hn _ (iterate_valid hA hA.vH _)

/-- Digest sizes. -/
theorem C58_size (h : Standard b A D n) (checked : Bool) (m : Bytes) (hl : m.length + 512 ≤ 2 ^ 61) :
    (hash A checked m).length = n := by rw [C58_hash h checked m hl, standard_length h]

/-- The SHA parameters for which pairs of half blocks are hashed. -/
theorem pair_digest {w : Nat} (b : Build) (p : Sha.Params w) (q : Spec.Hash.Sha2 w) (hw : w = 32 ∨ w = 64) (hm : Sha.Matches p q)
    (left right : Bytes) (h1 : left.length = Sha.blockBytes w / 2) (h2 : right.length = Sha.blockBytes w / 2) :
    Sha.hashHalves b p left right = q.digest (left ++ right) ∧
    (p.digest / 8 = 8 * (w / 8) → Sha.doubleHashHalves b p left right = q.digest (q.digest (left ++ right))) ∧
    Sha.midstate b p left right = (shaAlgorithm b p).accumulate p.H [left ++ right] := by
  have hg := sha2_compresses p q hw hm
  have hA := sha_lawful b hg
  have hbb : Sha.blockBytes w = 2 * (Sha.blockBytes w / 2) := by rcases hw with rfl | rfl <;> rfl
  have hlen : (left ++ right).length = 1 * (shaAlgorithm b p).blockSize := by
    rw [List.length_append, h1, h2, Nat.one_mul]
    show _ = Sha.blockBytes w
    omega
  have e := halves_eq b hg p.H hg.hlen left right h1 _ (buffer0_length p)
  have hv := blockFn_length hg p.H (left ++ right) hg.hlen
  have key : q.digest (left ++ right) = Sha.output p (blockFn (sha2Fn q) (blockFn (sha2Fn q) p.H (left ++ right)) (padBlock (shaAlgorithm b p) 1)) := by
    rw [← sha2_digest b p q hw hm, digest_blocks hA _ 1 hlen, blocksOf_one _ _ (by rw [hlen, Nat.one_mul])]
    · rfl
    · have := hA.bytes; omega
  refine ⟨?_, fun hfull => ?_, ?_⟩
  · rw [Sha.hashHalves]
    rw [e, schedule1_eq b hg _ hv, key]
  · have hD := sha_double b hg hm.words hfull
    have hv2 := blockFn_length hg _ (padBlock (shaAlgorithm b p) 1) hv
    rw [Sha.doubleHashHalves]
    rw [e, schedule1_eq b hg _ hv, second_eq b hg _ _ (by simp [Sha.schedule1, Sha.scheduledPad, Sha.scheduleScalar_length, buffer0_length])
      (hv2.trans hm.words) hm.words hfull, key, ← sha2_digest b p q hw hm]
    exact (digest_half hA _ (hD.len _ hv2)).symm
  · rw [Sha.midstate, e]
    show _ = Sha.iterate b p p.H _
    rw [iterate_build b hg _ _ hg.hlen]
    rfl

/-- Hashing a pair of digests (Merkle nodes), singly and doubly, and the state of the pair. -/
theorem C58_pair (b : Build) (left right : Bytes) (h1 : left.length = 32) (h2 : right.length = 32) :
    Sha.hashHalves b Sha.sha256 left right = Spec.Hash.sha256.digest (left ++ right) ∧
    Sha.doubleHashHalves b Sha.sha256 left right = Spec.Hash.sha256.digest (Spec.Hash.sha256.digest (left ++ right)) ∧
    Sha.midstate b Sha.sha256 left right = (shaAlgorithm b Sha.sha256).accumulate Sha.h256 [left ++ right] := by
  obtain ⟨a, c, d⟩ := pair_digest b Sha.sha256 Spec.Hash.sha256 (Or.inl rfl) matches256 left right h1 h2
  exact ⟨a, c rfl, d⟩

theorem C58_pair512 (b : Build) (left right : Bytes) (h1 : left.length = 64) (h2 : right.length = 64) :
    Sha.hashHalves b Sha.sha512 left right = Spec.Hash.sha512.digest (left ++ right) ∧
    Sha.doubleHashHalves b Sha.sha512 left right = Spec.Hash.sha512.digest (Spec.Hash.sha512.digest (left ++ right)) := by
  obtain ⟨a, c, _⟩ := pair_digest b Sha.sha512 Spec.Hash.sha512 (Or.inr rfl) matches512 left right h1 h2
  exact ⟨a, c rfl⟩

/-- Hashing a pair of quarter blocks. -/
theorem C58_quarters (b : Build) (left right : Bytes) (h1 : left.length = 16) (h2 : right.length = 16) :
    Sha.hashQuarters b Sha.sha256 left right = Spec.Hash.sha256.digest (left ++ right) := by
  have hg := sha2_compresses _ _ (Or.inl rfl) matches256
  rw [Sha.hashQuarters, quarters_eq b hg _ hg.hlen left right h1 h2 _ (buffer0_length _),
    ← sha2_digest b _ _ (Or.inl rfl) matches256, digest_half (sha_lawful b hg) _ (by
      rw [List.length_append, h1, h2]; rfl)]
  rfl

theorem set_at {α : Type} (l r : List α) (x y : α) : (l ++ x :: r).set l.length y = l ++ y :: r := by
  rw [List.set_append_right _ _ (Nat.le_refl _)]
  simp

/-- The single block hash of messages that fit with their padding. -/
theorem simple_digest {w : Nat} (b : Build) (p : Sha.Params w) (q : Spec.Hash.Sha2 w) (hw : w = 32 ∨ w = 64) (hm : Sha.Matches p q)
    (m : Bytes) (h : m.length ≤ Sha.blockBytes w - 2 * Sha.wordBytes w - 1) :
    Sha.simpleHash b p m = q.digest m := by
  have hg := sha2_compresses p q hw hm
  have hA := sha_lawful b hg
  have h4 : Sha.wordBytes w = 4 ∨ Sha.wordBytes w = 8 := by rcases hw with rfl | rfl <;> decide
  have hbb : Sha.blockBytes w = 16 * Sha.wordBytes w := rfl
  rw [Sha.simpleHash]
  rw [compress_input b hg _ hg.hlen _ _ (buffer0_length p), ← sha2_digest b p q hw hm, digestOf]
  have hblock : Sha.simplePad w (Sha.setMany (List.replicate (Sha.blockBytes w) 0) 0 m) m.length
      = Spec.Hash.padded (Sha.blockBytes w) (2 * Sha.wordBytes w) Spec.Hash.beRep m := by
    have hz : Spec.Hash.zeros (Sha.blockBytes w) (2 * Sha.wordBytes w) m.length
        = Sha.blockBytes w - 2 * Sha.wordBytes w - 1 - m.length := by
      unfold Spec.Hash.zeros
      rw [Nat.mod_eq_of_lt (show m.length < Sha.blockBytes w by omega), Nat.mod_eq_sub_mod (by omega), Nat.mod_eq_of_lt (by omega)]
      omega
    have hrep : Spec.Hash.beRep (2 * Sha.wordBytes w) (8 * m.length)
        = List.replicate (Sha.wordBytes w) 0 ++ beBytes (Sha.wordBytes w) (m.length * 8) := by
      rw [Sha.beRep_eq, Nat.two_mul, beBytes_split, Nat.mul_comm]
      congr 1
      rw [Nat.div_eq_of_lt, ← Sha.beRep_eq, Spec.Hash.beRep]
      · apply List.ext_getElem
        · simp
        · intro i h1 h2; simp
      · rcases h4 with h4 | h4 <;> rw [h4] <;> omega
    have e1 : Sha.setMany (List.replicate (Sha.blockBytes w) (0 : UInt8)) 0 m
        = m ++ List.replicate (Sha.blockBytes w - m.length) 0 := by
      rw [Sha.setMany_eq _ _ _ (by simp; omega)]
      simp
    have e2 : Sha.setMany (m ++ List.replicate (Sha.blockBytes w - m.length) (0 : UInt8)) (Sha.blockBytes w - Sha.wordBytes w)
        (beBytes (Sha.wordBytes w) (m.length * 8))
        = m ++ (0 :: List.replicate (Sha.blockBytes w - Sha.wordBytes w - m.length - 1) 0 ++ beBytes (Sha.wordBytes w) (m.length * 8)) := by
      rw [Sha.setMany_eq _ _ _ (by simp; omega), List.take_append, List.take_of_length_le (by omega), List.take_replicate,
        List.drop_eq_nil_of_le (by simp; omega), List.append_nil, Nat.min_eq_left (by omega), List.append_assoc,
        ← List.replicate_succ]
      congr 4
      omega
    rw [Sha.simplePad, e1, e2, List.cons_append, set_at, Spec.Hash.padded, hz, hrep]
    simp only [List.append_assoc, List.cons_append, List.nil_append]
    congr 2
    rw [← List.append_assoc, List.replicate_append_replicate]
    congr 2
    omega
  rw [hblock]
  show _ = Sha.output p (Spec.Hash.iterate (Sha.blockBytes w) _ p.H (Spec.Hash.padded (Sha.blockBytes w) (2 * Sha.wordBytes w) Spec.Hash.beRep m))
  have hplen : (Spec.Hash.padded (Sha.blockBytes w) (2 * Sha.wordBytes w) Spec.Hash.beRep m).length = Sha.blockBytes w := by
    rw [← hblock]
    simp [Sha.simplePad]
  rw [iterate_eq, blocksOf_one (by omega) _ hplen]
  rfl

theorem C58_simple (b : Build) (m : Bytes) (h : m.length ≤ 55) : Sha.simpleHash b Sha.sha256 m = Spec.Hash.sha256.digest m :=
  simple_digest b _ _ (Or.inl rfl) matches256 m h

end Verif.Hash

namespace Verif.HashFn
open Verif.Hash
open Verif.Sha (Build)

/-- The named hash functions. -/
theorem C58_functions (b : Build) (checked : Bool) (m : Bytes) (hl : m.length + 512 ≤ 2 ^ 61) :
    rmd128Hash checked m = Spec.Hash.rmd128 m ∧
    rmd160Hash checked m = Spec.Hash.rmd160 m ∧
    sha1Hash b checked m = Spec.Hash.sha1 m ∧
    sha256Hash b checked m = Spec.Hash.sha256.digest m ∧
    sha512Hash b checked m = Spec.Hash.sha512.digest m ∧
    bitcoinHash b checked m = Spec.Hash.sha256.digest (Spec.Hash.sha256.digest m) ∧
    bitcoinShortHash b checked m = Spec.Hash.rmd160 (Spec.Hash.sha256.digest m) ∧
    bitcoinShortChunk b checked m = Spec.Hash.rmd160 (Spec.Hash.sha256.digest m) := by
  have h256 := C58_hash (Standard.sha256 (b := b)) checked m hl
  have hlen := standard_length (Standard.sha256 (b := b)) m
  refine ⟨C58_hash (Standard.rmd128 (b := b)) checked m hl, C58_hash (Standard.rmd160 (b := b)) checked m hl,
    C58_hash .sha1 checked m hl, h256, C58_hash .sha512 checked m hl, C58_double_hash .sha256 checked m hl, ?_, ?_⟩
  · unfold bitcoinShortHash
    rw [h256, ← rmd160_digest, digest_half (rmd_lawful rmd160_compresses) _ hlen]
    exact (rmd_lawful rmd160_compresses).hh _ hlen
  · unfold bitcoinShortChunk
    rw [h256]
    exact C58_hash (Standard.rmd160 (b := b)) checked _ (by rw [hlen]; decide)

/-- The two argument functions, on parts of any size. -/
theorem C58_two_parts (b : Build) (checked : Bool) (left right : Bytes) (hl : (left ++ right).length + 512 ≤ 2 ^ 61) :
    sha256Hash2 b checked left right = Spec.Hash.sha256.digest (left ++ right) ∧
    bitcoinHash2 b checked left right = Spec.Hash.sha256.digest (Spec.Hash.sha256.digest (left ++ right)) := by
  have e : [left, right].flatten = left ++ right := by simp
  rw [← e] at hl ⊢
  exact ⟨C38_chunks .sha256 checked [left, right] hl, C38_double .sha256 checked [left, right] hl⟩

/-- Pairs of digests. -/
theorem C58_digest_pair (b : Build) (left right : Bytes) (h1 : left.length = 32) (h2 : right.length = 32) :
    sha256HashPair b left right = Spec.Hash.sha256.digest (left ++ right) ∧
    bitcoinHashPair b left right = Spec.Hash.sha256.digest (Spec.Hash.sha256.digest (left ++ right)) :=
  ⟨(C58_pair b left right h1 h2).1, (C58_pair b left right h1 h2).2.1⟩

/-- The tagged hash of BIP340. -/
theorem C58_tagged (b : Build) (checked : Bool) (tag m : Bytes) (ht : tag.length + 512 ≤ 2 ^ 61) (hl : m.length + 576 ≤ 2 ^ 61) :
    taggedHash b checked tag m = Spec.Hash.sha256.digest (Spec.Hash.sha256.digest tag ++ Spec.Hash.sha256.digest tag ++ m) := by
  have hlen := standard_length (Standard.sha256 (b := b)) tag
  unfold taggedHash sha256Hash
  dsimp only
  rw [C58_hash (Standard.sha256 (b := b)) checked tag ht]
  have := C38_chunks (Standard.sha256 (b := b)) checked [Spec.Hash.sha256.digest tag, Spec.Hash.sha256.digest tag, m]
    (by simp [hlen]; omega)
  rw [this]
  simp

/-! ### Hashing writers -/

/-- What was written between flushes; the destructor flushes the last message. -/
def messages : List WriterOp → List Bytes
  | [] => [[]]
  | .flush :: ops => [] :: messages ops
  | .write d :: ops => match messages ops with
    | [] => [d]
    | m :: ms => (d ++ m) :: ms

theorem messages_ne (ops : List WriterOp) : ∃ m ms, messages ops = m :: ms := by
  cases ops with
  | nil => exact ⟨_, _, rfl⟩
  | cons o ops =>
    cases o with
    | flush => exact ⟨_, _, rfl⟩
    | write d =>
      rw [messages]
      split
      · exact ⟨_, _, rfl⟩
      · exact ⟨_, _, rfl⟩

/-- A writer that keeps track of the message and emits `G` of it at each flush. -/
theorem run_messages (step : Writer → WriterOp → Writer) (P : Bytes → Writer → Prop) (G : Bytes → Bytes) (bound : Nat)
    (hw : ∀ m w d, P m w → (m ++ d).length ≤ bound → P (m ++ d) (step w (.write d)) ∧ (step w (.write d)).out = w.out)
    (hf : ∀ m w, P m w → m.length ≤ bound → P [] (step w .flush) ∧ (step w .flush).out = w.out ++ G m)
    (ops : List WriterOp) : ∀ (m : Bytes) (w : Writer), P m w → ∀ m1 ms, messages ops = m1 :: ms →
      (m ++ m1).length ≤ bound → (∀ x ∈ ms, x.length ≤ bound) →
      (step (ops.foldl step w) .flush).out = w.out ++ G (m ++ m1) ++ ms.flatMap G := by
  induction ops with
  | nil =>
    intro m w hp m1 ms hm hb hbs
    simp only [messages, List.cons.injEq] at hm
    obtain ⟨rfl, rfl⟩ := hm
    rw [List.append_nil] at hb
    rw [List.append_nil, List.flatMap_nil, List.append_nil]
    exact (hf m w hp hb).2
  | cons o ops ih =>
    intro m w hp m1 ms hm hb hbs
    rw [List.foldl_cons]
    cases o with
    | flush =>
      simp only [messages, List.cons.injEq] at hm
      obtain ⟨rfl, rfl⟩ := hm
      obtain ⟨m2, ms2, e⟩ := messages_ne ops
      rw [List.append_nil] at hb
      obtain ⟨h1, h2⟩ := hf m w hp hb
      rw [e] at hbs
      rw [ih [] _ h1 m2 ms2 e (by rw [List.nil_append]; exact hbs m2 List.mem_cons_self)
        (fun x hx => hbs x (List.mem_cons_of_mem _ hx)), h2, e, List.flatMap_cons, List.append_nil, List.nil_append,
        List.append_assoc _ (G m2)]
    | write d =>
      obtain ⟨m2, ms2, e⟩ := messages_ne ops
      simp only [messages, e, List.cons.injEq] at hm
      obtain ⟨rfl, rfl⟩ := hm
      rw [← List.append_assoc] at hb ⊢
      obtain ⟨h1, h2⟩ := hw m w d hp (by rw [List.length_append] at hb; omega)
      rw [ih (m ++ d) _ h1 m2 ms2 e hb hbs, h2]

theorem run_messages' (step : Writer → WriterOp → Writer) (P : Bytes → Writer → Prop) (G : Bytes → Bytes) (bound : Nat)
    (hw : ∀ m w d, P m w → (m ++ d).length ≤ bound → P (m ++ d) (step w (.write d)) ∧ (step w (.write d)).out = w.out)
    (hf : ∀ m w, P m w → m.length ≤ bound → P [] (step w .flush) ∧ (step w .flush).out = w.out ++ G m)
    (ops : List WriterOp) (c : Acc (List (BitVec 32))) (h0 : P [] ⟨c, []⟩) (hb : ∀ x ∈ messages ops, x.length ≤ bound) :
    runWriter step c ops = (messages ops).flatMap G := by
  obtain ⟨m1, ms, e⟩ := messages_ne ops
  rw [e] at hb
  rw [runWriter, run_messages step P G bound hw hf ops [] _ h0 m1 ms e (by simpa using hb m1 List.mem_cons_self)
    (fun x hx => hb x (List.mem_cons_of_mem _ hx)), e]
  simp

variable (b : Build) (checked : Bool)

/-- The SHA-256 block function on model states. -/
abbrev fn256 := blockFn (sha2Fn Spec.Hash.sha256)

theorem lawful256 : Lawful (acc256 b) fn256 (fun s => s.length = 8) :=
  sha_lawful b (sha2_compresses _ _ (Or.inl rfl) matches256)

theorem digest256 (m : Bytes) : digestOf (acc256 b) fn256 m = Spec.Hash.sha256.digest m := sha2_digest b _ _ (Or.inl rfl) matches256 m

/-- However many writes and flushes are made, a `sha256` writer emits the digest of what was written before each flush. -/
theorem C58_sha256_writer (ops : List WriterOp) (hb : ∀ m ∈ messages ops, m.length + 512 ≤ 2 ^ 61) :
    runWriter (sha256Writer b checked) (init (acc256 b)) ops = (messages ops).flatMap Spec.Hash.sha256.digest := by
  have hA := lawful256 b
  have hlim := limit_bound hA
  have hsm := hA.small
  refine run_messages' _ (fun m w => Inv (acc256 b) fn256 (fun s => s.length = 8) (acc256 b).H w.context m) _ (2 ^ 61 - 512)
    ?_ ?_ ops _ (init_inv' hA) (fun x hx => by have := hb x hx; omega)
  · intro m w d hp hl
    exact ⟨(write_inv hA hA.vH hp (d := d) (by omega) (fun _ => by omega)).2, rfl⟩
  · intro m w hp hl
    have hfl := flush_state (checked := checked) hA hA.vH hp (by omega)
    refine ⟨?_, ?_⟩
    · have hr := reset_inv hA hfl.2 [] 0 (by simp) (by simp) (acc256 b).H
      rw [show Spec.Hash.iterate (acc256 b).blockSize fn256 (acc256 b).H [] = (acc256 b).H by simp [Spec.Hash.iterate]] at hr
      exact hr
    · show w.out ++ (flush (acc256 b) checked w.context).1 = _
      rw [flush_digest hA hp (by omega), digest256]

/-- The same for the double hash writer. -/
theorem C58_sha256x2_writer (ops : List WriterOp) (hb : ∀ m ∈ messages ops, m.length + 512 ≤ 2 ^ 61) :
    runWriter (sha256x2Writer b checked) (init (acc256 b)) ops
      = (messages ops).flatMap fun m => Spec.Hash.sha256.digest (Spec.Hash.sha256.digest m) := by
  have hA := lawful256 b
  have hlim := limit_bound hA
  have hsm := hA.small
  have hit : Spec.Hash.iterate (acc256 b).blockSize fn256 (acc256 b).H [] = (acc256 b).H := by simp [Spec.Hash.iterate]
  refine run_messages' _ (fun m w => Inv (acc256 b) fn256 (fun s => s.length = 8) (acc256 b).H w.context m) _ (2 ^ 61 - 512)
    ?_ ?_ ops _ (init_inv' hA) (fun x hx => by have := hb x hx; omega)
  · intro m w d hp hl
    exact ⟨(write_inv hA hA.vH hp (d := d) (by omega) (fun _ => by omega)).2, rfl⟩
  · intro m w hp hl
    have hfl := flush_state (checked := checked) hA hA.vH hp (by omega)
    have hdl := standard_length (Standard.sha256 (b := b)) m
    have hfd : (flush (acc256 b) checked w.context).1 = Spec.Hash.sha256.digest m := by
      rw [flush_digest hA hp (by omega), digest256]
    have hr := reset_inv hA hfl.2 [] 0 (by simp) (by simp) (acc256 b).H
    rw [hit] at hr
    have hw2 := (write_inv (checked := checked) hA hA.vH hr (d := Spec.Hash.sha256.digest m) (by simp [hdl]) (fun _ => by simp [hdl]; omega)).2
    rw [List.nil_append] at hw2
    have hfl2 := flush_state (checked := checked) hA hA.vH hw2 (by rw [hdl]; omega)
    refine ⟨?_, ?_⟩
    · have hr2 := reset_inv hA hfl2.2 [] 0 (by simp) (by simp) (acc256 b).H
      rw [hit] at hr2
      show Inv _ _ _ _ (reset (acc256 b) (flush (acc256 b) checked (write (acc256 b) checked (reset (acc256 b)
        (flush (acc256 b) checked w.context).2 Sha.h256 0) (flush (acc256 b) checked w.context).1).2).2 Sha.h256 0) []
      rw [hfd]
      exact hr2
    · show w.out ++ (flush (acc256 b) checked (write (acc256 b) checked (reset (acc256 b)
        (flush (acc256 b) checked w.context).2 Sha.h256 0) (flush (acc256 b) checked w.context).1).2).1 = _
      rw [hfd, ← digest256 b (Spec.Hash.sha256.digest m), ← flush_digest (checked := checked) hA hw2 (by rw [hdl]; omega)]
      rfl

/-- The tagged writer starts from the compile time state of the tag, and emits tagged hashes (BIP340). -/
theorem C58_sha256t_writer (tag : Bytes) (ht : tag.length ≤ 55) (ops : List WriterOp)
    (hb : ∀ m ∈ messages ops, m.length + 640 ≤ 2 ^ 61) :
    runWriter (sha256tWriter b checked tag) (initFrom (acc256 b) checked (tagMidstate b tag) 1) ops
      = (messages ops).flatMap fun m =>
        Spec.Hash.sha256.digest (Spec.Hash.sha256.digest tag ++ Spec.Hash.sha256.digest tag ++ m) := by
  have hA := lawful256 b
  have hlim := limit_bound hA
  have hsm := hA.small
  generalize hpre : Spec.Hash.sha256.digest tag ++ Spec.Hash.sha256.digest tag = pre
  have hdl := standard_length (Standard.sha256 (b := b)) tag
  have hpl : pre.length = 1 * (acc256 b).blockSize := by
    rw [← hpre, List.length_append, hdl]
    rfl
  have hp64 : pre.length = 64 := hpl
  have hmid : tagMidstate b tag = Spec.Hash.iterate (acc256 b).blockSize fn256 (acc256 b).H pre := by
    rw [tagMidstate, C58_simple b tag ht]
    rw [(C58_pair b _ _ hdl hdl).2.2, hpre, iterate_eq, show (acc256 b).blockSize = 64 from rfl, blocksOf_one (by decide) _ hp64]
    exact hA.acc _ _ hA.vH (fun x hx => by rw [List.mem_singleton.1 hx]; exact hp64)
  have hinit : initFrom (acc256 b) checked (tagMidstate b tag) 1 = reset (acc256 b) (init (acc256 b)) (tagMidstate b tag) 1 := by
    unfold initFrom
    dsimp only
    rw [if_neg]
    have hlt : limitBytes (acc256 b) < 2 ^ (8 * (acc256 b).countSize) := by
      unfold limitBytes
      have := Nat.two_pow_pos (8 * (acc256 b).countSize)
      omega
    have hbs : (acc256 b).blockSize = 64 := rfl
    have hsz : (reset (acc256 b) (init (acc256 b)) (tagMidstate b tag) 1).size = 64 := by
      show (1 * (acc256 b).blockSize) % 2 ^ 64 = 64
      rw [hbs]
    unfold isBufferOverflow
    rw [hsz, hbs, show limitBytes (acc256 b) + 2 ^ (8 * (acc256 b).countSize) - 64
        = (limitBytes (acc256 b) - 64) + 2 ^ (8 * (acc256 b).countSize) by omega,
        Nat.add_mod_right, Nat.mod_eq_of_lt (show limitBytes (acc256 b) - 64 < 2 ^ (8 * (acc256 b).countSize) by omega)]
    simp
    intro _
    omega
  rw [hinit]
  have hreset : ∀ c : Acc (List (BitVec 32)), c.buffer.length = (acc256 b).blockSize →
      Inv (acc256 b) fn256 (fun s => s.length = 8) (acc256 b).H (reset (acc256 b) c (tagMidstate b tag) 1) pre := by
    intro c hc
    rw [hmid]
    exact reset_inv hA hc pre 1 hpl (by rw [hp64]; decide) _
  refine run_messages' _ (fun m w => Inv (acc256 b) fn256 (fun s => s.length = 8) (acc256 b).H w.context (pre ++ m)) _ (2 ^ 61 - 640)
    ?_ ?_ ops _ (by rw [List.append_nil]; exact hreset _ (by simp [init])) (fun x hx => by have := hb x hx; omega)
  · intro m w d hp hl
    rw [← List.append_assoc]
    rw [List.length_append] at hl
    exact ⟨(write_inv hA hA.vH hp (d := d) (by simp only [List.length_append]; omega)
      (fun _ => by simp only [List.length_append]; omega)).2, rfl⟩
  · intro m w hp hl
    have hfl := flush_state (checked := checked) hA hA.vH hp (by rw [List.length_append]; omega)
    refine ⟨?_, ?_⟩
    · rw [List.append_nil]
      exact hreset _ hfl.2
    · show w.out ++ (flush (acc256 b) checked w.context).1 = _
      rw [flush_digest hA hp (by rw [List.length_append]; omega), digest256]

/-- "abc" split over a flush, with the published digests. -/
example : runWriter (sha256Writer Build.portable true) (init (acc256 Build.portable)) [.write [0x61], .write [0x62, 0x63]]
    = [0xba, 0x78, 0x16, 0xbf, 0x8f, 0x01, 0xcf, 0xea, 0x41, 0x41, 0x40, 0xde, 0x5d, 0xae, 0x22, 0x23,
       0xb0, 0x03, 0x61, 0xa3, 0x96, 0x17, 0x7a, 0x9c, 0xb4, 0x10, 0xff, 0x61, 0xf2, 0x00, 0x15, 0xad] := by decide +kernel

example : messages [.write [1], .flush, .write [2], .write [3]] = [[1], [2, 3]] := by decide

/-! ### Table keys -/

/-- Equal keys give equal table hashes whatever object holds them, and every byte takes part. -/
theorem C58_djb2 (data : Bytes) (x : UInt8) : djb2Hash (data ++ [x]) = (33 * djb2Hash data + x.toNat) % 2 ^ 64 := by
  have hb : djb2Hash data < 2 ^ 64 := by
    unfold djb2Hash
    have : ∀ (d : Bytes) (s : Nat), s < 2 ^ 64 →
        d.foldl (fun h byte => (((h * 2 ^ 5) % 2 ^ 64 + h) % 2 ^ 64 + byte.toNat) % 2 ^ 64) s < 2 ^ 64 := by
      intro d
      induction d with
      | nil => intro s h; exact h
      | cons y ys ih => intro s h; exact ih _ (Nat.mod_lt _ (by decide))
    exact this data _ (by decide)
  unfold djb2Hash at *
  rw [List.foldl_append, List.foldl_cons, List.foldl_nil]
  omega

end Verif.HashFn
