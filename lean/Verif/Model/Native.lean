import Verif.Model.Sha
import Verif.Model.Accumulator
import Verif.Spec.ShaIsa
/-!
# Native SHA-256

include/bitcoin/system/impl/hash/sha/algorithm_native.ipp, with intrinsics/intel/intel_sha.hpp (`_mm_sha256*` and others) or
intrinsics/neon/neon_sha.hpp (`vsha256*`). The processor is little endian: a block of bytes is loaded as sixteen little endian words, an array of
words as those words. A register is loaded from four consecutive words. The instructions are those of `Verif/Spec/ShaIsa.lean`.
-/
namespace Verif.Native
open Verif Verif.Sha Verif.Spec.ShaIsa

/-- The intrinsics compiled in. Used for intel_sha.hpp:32-35. -/
inductive Arch where
  | intel
  | neon

/-- `schedule(message0, message1)` (intel_sha.hpp:32-35, neon_sha.hpp:32-35). -/
def prepareA : Arch → V4 → V4 → V4
  | .intel, m0, m1 => sha256msg1 m0 m1
  | .neon, m0, m1 => sha256su0 m0 m1

/-- `schedule(message0, message1, message2)` (intel_sha.hpp:37-42, neon_sha.hpp:37-41). -/
def prepareB : Arch → V4 → V4 → V4 → V4
  | .intel, m0, m1, m2 => sha256msg2 (m0.add (palignr m2 m1 4)) m2
  | .neon, m0, m1, m2 => sha256su1 m0 m1 m2

/-- `compress(state0, state1, wk)` (intel_sha.hpp:44-49, neon_sha.hpp:43-49). -/
def compress4 : Arch → V4 × V4 → V4 → V4 × V4
  | .intel, s, wk =>
    let state1 := sha256rnds2 s.2 s.1 wk
    let state0 := sha256rnds2 s.1 state1 (pshufd wk 0x0e)
    (state0, state1)
  | .neon, s, wk => (sha256h s.1 s.2 wk, sha256h2 s.2 s.1 wk)

/-- `shuffle` (intel_sha.hpp:51-58, neon_sha.hpp:51-53). -/
def shuffle : Arch → V4 × V4 → V4 × V4
  | .intel, s =>
    let shuffle0 := pshufd s.1 0xb1
    let shuffle1 := pshufd s.2 0x1b
    (palignr shuffle0 shuffle1 8, pblendw shuffle1 shuffle0 0xf0)
  | .neon, s => s

/-- `unshuffle` (intel_sha.hpp:60-67, neon_sha.hpp:55-57). -/
def unshuffle : Arch → V4 × V4 → V4 × V4
  | .intel, s =>
    let shuffle0 := pshufd s.1 0x1b
    let shuffle1 := pshufd s.2 0xb1
    (pblendw shuffle0 shuffle1 0xf0, palignr shuffle1 shuffle0 8)
  | .neon, s => s

/-- The little endian value of four bytes in a word. Used for algorithm_iterate.ipp:35-88. -/
def leWord (bytes : Bytes) (i : Nat) : BitVec 32 := BitVec.ofNat 32 (leNat ((bytes.drop (4 * i)).take 4))

/-- `array_cast<word_t>` of bytes on a little endian processor. Used for algorithm_native.ipp:163-180. -/
def rawWords (n : Nat) (bytes : Bytes) : List (BitVec 32) := (List.range n).map (leWord bytes)

/-- A lane of `f::byteswap<uint32_t>` (intel_128.hpp:260-265, neon_128.hpp:266-270). -/
def bswap (x : BitVec 32) : BitVec 32 := BitVec.ofNat 32 (beNat (leBytes 4 x.toNat))

/-- `endian<Swap>` (algorithm_native.ipp:36-45) of a lane. -/
def endian (swap : Bool) (x : BitVec 32) : BitVec 32 := if swap then bswap x else x

/-- A register loaded from words `i` to `i + 3`, and `endian`. -/
def load (swap : Bool) (words : List (BitVec 32)) (i : Nat) : V4 :=
  ⟨endian swap (rd words i), endian swap (rd words (i + 1)), endian swap (rd words (i + 2)), endian swap (rd words (i + 3))⟩

/-- The registers of `native_rounds`. Used for algorithm_native.ipp:105-151. -/
structure Regs where
  s : V4 × V4
  m0 : V4
  m1 : V4
  m2 : V4
  m3 : V4

/-- `round_4<Round>` (algorithm_native.ipp:75-83). -/
def round4 (a : Arch) (K : List (BitVec 32)) (r : Nat) (s : V4 × V4) (message : V4) : V4 × V4 :=
  compress4 a s (message.add ⟨rd K (r * 4), rd K (r * 4 + 1), rd K (r * 4 + 2), rd K (r * 4 + 3)⟩)

/-- The four lines `prepare(message0, message1); prepare(message0, message2, message3); round_4<r>(lo, hi, message0)` and the
like for the other registers (algorithm_native.ipp:105-151). -/
def turn0 (a : Arch) (K : List (BitVec 32)) (r : Nat) (x : Regs) : Regs :=
  let m := prepareB a (prepareA a x.m0 x.m1) x.m2 x.m3
  { x with m0 := m, s := round4 a K r x.s m }
/-- See `turn0` (algorithm_native.ipp:109-111). -/
def turn1 (a : Arch) (K : List (BitVec 32)) (r : Nat) (x : Regs) : Regs :=
  let m := prepareB a (prepareA a x.m1 x.m2) x.m3 x.m0
  { x with m1 := m, s := round4 a K r x.s m }
/-- See `turn0` (algorithm_native.ipp:113-115). -/
def turn2 (a : Arch) (K : List (BitVec 32)) (r : Nat) (x : Regs) : Regs :=
  let m := prepareB a (prepareA a x.m2 x.m3) x.m0 x.m1
  { x with m2 := m, s := round4 a K r x.s m }
/-- See `turn0` (algorithm_native.ipp:117-119). -/
def turn3 (a : Arch) (K : List (BitVec 32)) (r : Nat) (x : Regs) : Regs :=
  let m := prepareB a (prepareA a x.m3 x.m0) x.m1 x.m2
  { x with m3 := m, s := round4 a K r x.s m }

/-- The first four rounds of `native_rounds` (algorithm_native.ipp:100-103). -/
def turns0 (a : Arch) (K : List (BitVec 32)) (x : Regs) : Regs :=
  { x with s := round4 a K 3 (round4 a K 2 (round4 a K 1 (round4 a K 0 x.s x.m0) x.m1) x.m2) x.m3 }

/-- `native_rounds<Swap>` (algorithm_native.ipp:85-155) of sixteen words as loaded. -/
def nativeRounds (a : Arch) (K : List (BitVec 32)) (swap : Bool) (s : V4 × V4) (words : List (BitVec 32)) : V4 × V4 :=
  let x : Regs := ⟨s, load swap words 0, load swap words 4, load swap words 8, load swap words 12⟩
  let x := turns0 a K x
  let x := turn3 a K 7 (turn2 a K 6 (turn1 a K 5 (turn0 a K 4 x)))
  let x := turn3 a K 11 (turn2 a K 10 (turn1 a K 9 (turn0 a K 8 x)))
  let x := turn3 a K 15 (turn2 a K 14 (turn1 a K 13 (turn0 a K 12 x)))
  (x.s.1.add s.1, x.s.2.add s.2)

/-- The two registers of a state. Used for algorithm_native.ipp:182-198. -/
def loadState (s : List (BitVec 32)) : V4 × V4 := (load false s 0, load false s 4)
/-- The state stored from two registers. Used for algorithm_native.ipp:182-198. -/
def storeState (x : V4 × V4) : List (BitVec 32) := [x.1.x0, x.1.x1, x.1.x2, x.1.x3, x.2.x0, x.2.x1, x.2.x2, x.2.x3]

/-- `native_transform<Swap>(state, block)` (algorithm_native.ipp:182-198) of sixteen words as loaded. -/
def transform (a : Arch) (p : Params 32) (swap : Bool) (state words : List (BitVec 32)) : List (BitVec 32) :=
  storeState (unshuffle a (nativeRounds a p.K swap (shuffle a (loadState state)) words))

/-- `native_transform(state, blocks)` (algorithm_native.ipp:163-180): the registers stay shuffled from block to block. -/
def transformBlocks (a : Arch) (p : Params 32) (state : List (BitVec 32)) (blocks : List Bytes) : List (BitVec 32) :=
  storeState (unshuffle a (blocks.foldl (fun s block => nativeRounds a p.K true s (rawWords 16 block)) (shuffle a (loadState state))))

/-- The two registers of `native_finalize(state, pad)` before they are swapped (algorithm_native.ipp:236-247); `state` itself is not changed. -/
def finalizeWords (a : Arch) (p : Params 32) (state pad : List (BitVec 32)) : List (BitVec 32) := transform a p false state pad

/-- `native_finalize(state, pad)` (algorithm_native.ipp:236-254): the lanes swapped and stored, the first bytes of the digest size. -/
def finalize (a : Arch) (p : Params 32) (state pad : List (BitVec 32)) : Bytes :=
  ((finalizeWords a p state pad).flatMap fun x => leBytes 4 (bswap x).toNat).take (p.digest / 8)

/-- `words_t block{}`. Used for algorithm_padding.ipp:128-143. -/
def words0 : List (BitVec 32) := List.replicate 16 0

/-- `pad_blocks(blocks)` (algorithm_padding.ipp:128-143). -/
def padBlocks (blocks : Nat) : List (BitVec 32) := padN words0 blocks

/-- `native_finalize(state, blocks)` (algorithm_native.ipp:221-234). -/
def finalizeBlocks (a : Arch) (p : Params 32) (state : List (BitVec 32)) (blocks : Nat) : Bytes := finalize a p state (padBlocks blocks)

/-- `native_finalize_second` (algorithm_native.ipp:256-269). -/
def finalizeSecond (a : Arch) (p : Params 32) (state : List (BitVec 32)) : Bytes :=
  finalize a p p.H (padHalf (injectLeftHalf words0 state))

/-- `native_finalize_double` (algorithm_native.ipp:271-284). -/
def finalizeDouble (a : Arch) (p : Params 32) (state : List (BitVec 32)) (blocks : Nat) : Bytes :=
  let block := padBlocks blocks
  let state := transform a p false state block
  finalize a p p.H (padHalf (injectLeftHalf block state))

/-- `native_hash(block)` (algorithm_native.ipp:289-296). -/
def hashBlock (a : Arch) (p : Params 32) (block : Bytes) : Bytes :=
  finalize a p (transform a p true p.H (rawWords 16 block)) (padBlocks 1)

/-- `native_hash(half)` (algorithm_native.ipp:298-311). -/
def hashHalf (a : Arch) (p : Params 32) (half : Bytes) : Bytes := finalize a p p.H (padHalf (inputLeft words0 half))

/-- `inject_left_half`, then `inject_right_half`, of the words of two halves (algorithm_midstate.ipp:33-76). -/
def injectHalves (buffer left right : List (BitVec 32)) : List (BitVec 32) :=
  setMany (injectLeftHalf buffer left) 8 ((List.range 8).map (rd right))

/-- `native_hash(left, right)` of halves (algorithm_native.ipp:313-323). -/
def hashHalves (a : Arch) (p : Params 32) (left right : Bytes) : Bytes :=
  finalizeBlocks a p (transform a p true p.H (injectHalves words0 (rawWords 8 left) (rawWords 8 right))) 1

/-- `inject_left_quarter`, then `inject_right_quarter` (algorithm_midstate.ipp:77-113). -/
def injectQuarters (buffer left right : List (BitVec 32)) : List (BitVec 32) :=
  setMany (setMany buffer 0 ((List.range 4).map (rd left))) 4 ((List.range 4).map (rd right))

/-- `native_hash(left, right)` of quarters (algorithm_native.ipp:325-335). -/
def hashQuarters (a : Arch) (p : Params 32) (left right : Bytes) : Bytes :=
  finalize a p p.H (padHalf (injectQuarters words0 (rawWords 4 left) (rawWords 4 right)))

/-- `native_hash(byte)` (algorithm_native.ipp:337-351); not called (algorithm_single.ipp:178-183). -/
def hashByte (a : Arch) (p : Params 32) (byte : UInt8) : Bytes :=
  let block := (((List.replicate 64 (0 : UInt8)).set 3 byte).set 2 0x80).set 60 8
  finalize a p p.H (rawWords 16 block)

/-- `native_double_hash(block)` (algorithm_native.ipp:356-370). -/
def doubleHashBlock (a : Arch) (p : Params 32) (block : Bytes) : Bytes :=
  let state := transform a p false (transform a p true p.H (rawWords 16 block)) (padBlocks 1)
  finalize a p p.H (padHalf (injectLeftHalf words0 state))

/-- `native_double_hash(half)` (algorithm_native.ipp:372-388). -/
def doubleHashHalf (a : Arch) (p : Params 32) (half : Bytes) : Bytes :=
  let block := padHalf (inputLeft words0 half)
  let state := transform a p false p.H block
  finalize a p p.H (padHalf (injectLeftHalf block state))

/-- `native_double_hash(left, right)` (algorithm_native.ipp:390-406). -/
def doubleHashHalves (a : Arch) (p : Params 32) (left right : Bytes) : Bytes :=
  let block := injectHalves words0 (rawWords 8 left) (rawWords 8 right)
  let state := transform a p false (transform a p true p.H block) (padBlocks 1)
  finalize a p p.H (padHalf (injectLeftHalf block state))

/-- `sha::algorithm<SHA>` of a build with native SHA-256, as an accumulator algorithm: the dispatch to the functions above
(algorithm_stream.ipp:32-180, algorithm_single.ipp:32-101, algorithm_double.ipp:35-158, algorithm_iterate.ipp:244-334). `finalizeState` is
the words of which `finalize` returns the digest (the state object itself keeps its value). -/
def nativeAlgorithm (a : Arch) (p : Params 32) : Hash.Algorithm (List (BitVec 32)) where
  blockSize := 64
  halfSize := 32
  countSize := 8
  bigEndCount := true
  H := p.H
  accumulate := transformBlocks a p
  finalizeState := fun s n => finalizeWords a p s (padBlocks n)
  normalize := output p
  hashBlocks := fun bs => finalizeBlocks a p (transformBlocks a p p.H bs) bs.length
  hashBlock := hashBlock a p
  hashHalf := hashHalf a p
  finalizeSecond := finalizeSecond a p
  finalizeDouble := finalizeDouble a p
  doubleHashBlocks := fun bs => finalizeDouble a p (transformBlocks a p p.H bs) bs.length
  doubleHashBlock := doubleHashBlock a p
  doubleHashHalf := doubleHashHalf a p

end Verif.Native
