import Verif.Model.Sha
/-!
# RIPEMD-128 and RIPEMD-160 (include/bitcoin/system/hash/rmd, include/bitcoin/system/impl/hash/rmd/algorithm.ipp)
-/
namespace Verif.Rmd
open Verif.Sha (rd setMany)

/-- The compile time parameters of `rmd::algorithm<RMD>`: `RMD::strength` and the tables `K::get`, `K::word`, `K::rot` and
`H::get` (include/bitcoin/system/hash/rmd/rmd.hpp:31-62). `RMD::rounds = strength`, `K::columns = 16`; the digest is the
strength (the 256 and 320 bit variants are marked as not implemented, algorithms.hpp:30-32). -/
structure Params where
  strength : Nat
  K : List (BitVec 32)
  word : List Nat
  rot : List Nat
  H : List (BitVec 32)

/-- `k160::get` (include/bitcoin/system/hash/rmd/rmd160.hpp:33-48). -/
def k160 : List (BitVec 32) := [
    0x00000000, 0x5a827999, 0x6ed9eba1, 0x8f1bbcdc, 0xa953fd4e,
    0x50a28be6, 0x5c4dd124, 0x6d703ef3, 0x7a6d76e9, 0x00000000]

/-- `k160::word` (include/bitcoin/system/hash/rmd/rmd160.hpp:51-66). -/
def word160 : List (Nat) := [
    0, 1, 2, 3, 4, 5, 6, 7, 8, 9, 10, 11, 12, 13, 14, 15,
    7, 4, 13, 1, 10, 6, 15, 3, 12, 0, 9, 5, 2, 14, 11, 8,
    3, 10, 14, 4, 9, 15, 8, 1, 2, 7, 0, 6, 13, 11, 5, 12,
    1, 9, 11, 10, 0, 8, 12, 4, 13, 3, 7, 15, 14, 5, 6, 2,
    4, 0, 5, 9, 7, 12, 2, 10, 14, 1, 3, 8, 11, 6, 15, 13,
    5, 14, 7, 0, 9, 2, 11, 4, 13, 6, 15, 8, 1, 10, 3, 12,
    6, 11, 3, 7, 0, 13, 5, 10, 14, 15, 8, 12, 4, 9, 1, 2,
    15, 5, 1, 3, 7, 14, 6, 9, 11, 8, 12, 2, 10, 0, 4, 13,
    8, 6, 4, 1, 3, 11, 15, 0, 5, 12, 2, 13, 9, 7, 10, 14,
    12, 15, 10, 4, 1, 5, 8, 7, 6, 2, 13, 14, 0, 3, 9, 11]

/-- `k160::rot` (include/bitcoin/system/hash/rmd/rmd160.hpp:69-84). -/
def rot160 : List (Nat) := [
    11, 14, 15, 12, 5, 8, 7, 9, 11, 13, 14, 15, 6, 7, 9, 8,
    7, 6, 8, 13, 11, 9, 7, 15, 7, 12, 15, 9, 11, 7, 13, 12,
    11, 13, 6, 7, 14, 9, 13, 15, 14, 8, 13, 6, 5, 12, 7, 5,
    11, 12, 14, 15, 14, 15, 9, 8, 9, 14, 5, 6, 8, 6, 5, 12,
    9, 15, 5, 11, 6, 8, 13, 12, 5, 12, 13, 14, 11, 8, 5, 6,
    8, 9, 9, 11, 13, 15, 15, 5, 7, 7, 8, 11, 14, 14, 12, 6,
    9, 13, 15, 7, 12, 8, 9, 11, 7, 7, 12, 7, 6, 15, 13, 11,
    9, 7, 15, 11, 8, 6, 6, 14, 12, 13, 5, 14, 13, 13, 7, 5,
    15, 5, 8, 11, 14, 14, 6, 14, 6, 9, 12, 9, 12, 5, 15, 8,
    8, 5, 12, 9, 12, 5, 14, 6, 8, 13, 6, 5, 15, 13, 11, 11]

/-- `h160::get` (include/bitcoin/system/hash/rmd/rmd160.hpp:96-103). -/
def h160 : List (BitVec 32) := [
    0x67452301, 0xefcdab89, 0x98badcfe, 0x10325476, 0xc3d2e1f0]

/-- `k128::get` (include/bitcoin/system/hash/rmd/rmd128.hpp:33-46). -/
def k128 : List (BitVec 32) := [
    0x00000000, 0x5a827999, 0x6ed9eba1, 0x8f1bbcdc,
    0x50a28be6, 0x5c4dd124, 0x6d703ef3, 0x00000000]

/-- `k128::word` (include/bitcoin/system/hash/rmd/rmd128.hpp:49-62). -/
def word128 : List (Nat) := [
    0, 1, 2, 3, 4, 5, 6, 7, 8, 9, 10, 11, 12, 13, 14, 15,
    7, 4, 13, 1, 10, 6, 15, 3, 12, 0, 9, 5, 2, 14, 11, 8,
    3, 10, 14, 4, 9, 15, 8, 1, 2, 7, 0, 6, 13, 11, 5, 12,
    1, 9, 11, 10, 0, 8, 12, 4, 13, 3, 7, 15, 14, 5, 6, 2,
    5, 14, 7, 0, 9, 2, 11, 4, 13, 6, 15, 8, 1, 10, 3, 12,
    6, 11, 3, 7, 0, 13, 5, 10, 14, 15, 8, 12, 4, 9, 1, 2,
    15, 5, 1, 3, 7, 14, 6, 9, 11, 8, 12, 2, 10, 0, 4, 13,
    8, 6, 4, 1, 3, 11, 15, 0, 5, 12, 2, 13, 9, 7, 10, 14]

/-- `k128::rot` (include/bitcoin/system/hash/rmd/rmd128.hpp:65-78). -/
def rot128 : List (Nat) := [
    11, 14, 15, 12, 5, 8, 7, 9, 11, 13, 14, 15, 6, 7, 9, 8,
    7, 6, 8, 13, 11, 9, 7, 15, 7, 12, 15, 9, 11, 7, 13, 12,
    11, 13, 6, 7, 14, 9, 13, 15, 14, 8, 13, 6, 5, 12, 7, 5,
    11, 12, 14, 15, 14, 15, 9, 8, 9, 14, 5, 6, 8, 6, 5, 12,
    8, 9, 9, 11, 13, 15, 15, 5, 7, 7, 8, 11, 14, 14, 12, 6,
    9, 13, 15, 7, 12, 8, 9, 11, 7, 7, 12, 7, 6, 15, 13, 11,
    9, 7, 15, 11, 8, 6, 6, 14, 12, 13, 5, 14, 13, 13, 7, 5,
    15, 5, 8, 11, 14, 14, 6, 14, 6, 9, 12, 9, 12, 5, 15, 8]

/-- `h128::get` (include/bitcoin/system/hash/rmd/rmd128.hpp:90-96). -/
def h128 : List (BitVec 32) := [
    0x67452301, 0xefcdab89, 0x98badcfe, 0x10325476]
/-- `using rmd160 = rmd::algorithm<rmd::h160<>>` (include/bitcoin/system/hash/algorithms.hpp:31). -/
def rmd160 : Params := ⟨160, k160, word160, rot160, h160⟩
/-- `using rmd128 = rmd::algorithm<rmd::h128<>>` (algorithms.hpp:29). -/
def rmd128 : Params := ⟨128, k128, word128, rot128, h128⟩

/-- `RMD::state_words` (rmd.hpp:59). -/
def Params.stateWords (p : Params) : Nat := if p.strength = 128 then 4 else 5

/-! ### Functions (include/bitcoin/system/impl/hash/rmd/algorithm.ipp:37-70) -/

/-- `f0` (algorithm.ipp:37-42). -/
def f0 (x y z : BitVec 32) : BitVec 32 := (x ^^^ y) ^^^ z
/-- `f1` (algorithm.ipp:44-49). -/
def f1 (x y z : BitVec 32) : BitVec 32 := (x &&& y) ||| (~~~x &&& z)
/-- `f2` (algorithm.ipp:51-56). -/
def f2 (x y z : BitVec 32) : BitVec 32 := (x ||| ~~~y) ^^^ z
/-- `f3` (algorithm.ipp:58-63). -/
def f3 (x y z : BitVec 32) : BitVec 32 := (x &&& z) ||| (y &&& ~~~z)
/-- `f4` (algorithm.ipp:65-70). -/
def f4 (x y z : BitVec 32) : BitVec 32 := x ^^^ (y ||| ~~~z)

/-- `functor<Round>` (algorithm.ipp:75-108). -/
def functor (p : Params) (r : Nat) : BitVec 32 → BitVec 32 → BitVec 32 → BitVec 32 :=
  let fn := r / 16
  if p.strength = 128 then
    if fn = 0 ∨ fn = 7 then f0 else if fn = 1 ∨ fn = 6 then f1 else if fn = 2 ∨ fn = 5 then f2 else f3
  else
    if fn = 0 ∨ fn = 9 then f0 else if fn = 1 ∨ fn = 8 then f1 else if fn = 2 ∨ fn = 7 then f2
    else if fn = 3 ∨ fn = 6 then f3 else f4

/-- `round<Round>` (algorithm.ipp:110-120, 122-133 and 135-159): the variables are state slots selected by the round. -/
def round (p : Params) (words : List (BitVec 32)) (state : List (BitVec 32)) (r : Nat) : List (BitVec 32) :=
  let i := fun k => (p.strength + k - r) % p.stateWords
  let v := fun k => rd state (i k)
  let s := p.rot.getD r 0
  let k := rd p.K (r / 16)
  let x := rd words (p.word.getD r 0)
  if p.strength = 128 then
    state.set (i 0) ((((v 0 + functor p r (v 1) (v 2) (v 3)) + x) + k).rotateLeft s)
  else
    (state.set (i 0) (((((v 0 + functor p r (v 1) (v 2) (v 3)) + x) + k).rotateLeft s) + v 4)).set (i 2) ((v 2).rotateLeft 10)

/-- `summarize` (algorithm.ipp:266-288). -/
def summarize (p : Params) (state left right : List (BitVec 32)) : List (BitVec 32) :=
  if p.strength = 128 then
    [(rd state 1 + rd left 2) + rd right 3, (rd state 2 + rd left 3) + rd right 0,
     (rd state 3 + rd left 0) + rd right 1, (rd state 0 + rd left 1) + rd right 2]
  else
    [(rd state 1 + rd left 2) + rd right 3, (rd state 2 + rd left 3) + rd right 4,
     (rd state 3 + rd left 4) + rd right 0, (rd state 4 + rd left 0) + rd right 1,
     (rd state 0 + rd left 1) + rd right 2]

/-- `compress` (algorithm.ipp:161-264): the two lines are interleaved, `round<r>` on the left and `round<r + offset>` on the
right state. -/
def compress (p : Params) (state words : List (BitVec 32)) : List (BitVec 32) :=
  let offset := p.strength / 2
  let r := (List.range offset).foldl
    (fun (s : List (BitVec 32) × List (BitVec 32)) i => (round p words s.1 i, round p words s.2 (i + offset))) (state, state)
  summarize p state r.1 r.2

/-- `n` consecutive little-endian words (`from_little<i * size>`). Used for algorithm.ipp:294-342. -/
def leWords (n : Nat) (bytes : Bytes) : List (BitVec 32) :=
  (List.range n).map fun i => BitVec.ofNat 32 (leNat ((bytes.drop (i * 4)).take 4))

/-- `words_t words{}`. Used for algorithm.ipp:536-571. -/
def words0 : List (BitVec 32) := List.replicate 16 0
/-- `input(words, block)` (algorithm.ipp:294-342). -/
def input (words : List (BitVec 32)) (block : Bytes) : List (BitVec 32) := setMany words 0 (leWords 16 block)
/-- `input(words, half)` (algorithm.ipp:344-377). -/
def inputHalf (words : List (BitVec 32)) (half : Bytes) : List (BitVec 32) := setMany words 0 (leWords 8 half)
/-- `output` (algorithm.ipp:379-417). -/
def output (state : List (BitVec 32)) : Bytes := state.flatMap fun x => leBytes 4 x.toNat

/-- `pad_one` with `block_pad` (algorithm.ipp:422-435 and 462-469). -/
def padOne : List (BitVec 32) := 0x80 :: List.replicate 13 0 ++ [512, 0]
/-- `pad_half` with `chunk_pad` (algorithm.ipp:437-450 and 471-494). -/
def padHalf (words : List (BitVec 32)) : List (BitVec 32) := setMany words 8 (0x80 :: List.replicate 5 0 ++ [256, 0])
/-- `pad_n` with `stream_pad` (algorithm.ipp:452-460 and 496-531); the count is a `uint64_t`. -/
def padN (words : List (BitVec 32)) (blocks : Nat) : List (BitVec 32) :=
  let bits := (blocks * 64 * 8) % 2 ^ 64
  setMany words 0 (0x80 :: List.replicate 13 0 ++ [BitVec.ofNat 32 (bits % 2 ^ 32), BitVec.ofNat 32 (bits / 2 ^ 32)])

/-- `accumulate(state, blocks)` and `accumulate(state, block)` (algorithm.ipp:601-620); `words` is reused between blocks. -/
def accumulate (p : Params) (state : List (BitVec 32)) (words : List (BitVec 32)) (blocks : List Bytes) :
    List (BitVec 32) × List (BitVec 32) :=
  blocks.foldl (fun s block => (compress p s.1 (input s.2 block), input s.2 block)) (state, words)

/-- `hash(iblocks)` and `hash(ablocks)` (algorithm.ipp:536-571). -/
def hashBlocks (p : Params) (blocks : List Bytes) : Bytes :=
  let s := accumulate p p.H words0 blocks
  output (compress p s.1 (padN s.2 blocks.length))

/-- `hash(block)` (algorithm.ipp:573-584). -/
def hashBlock (p : Params) (block : Bytes) : Bytes :=
  output (compress p (compress p p.H (input words0 block)) padOne)

/-- `hash(half)` (algorithm.ipp:586-596). -/
def hashHalf (p : Params) (half : Bytes) : Bytes :=
  output (compress p p.H (padHalf (inputHalf words0 half)))

/-- `finalize(state, blocks)` (algorithm.ipp:622-630), the updated state; the digest is its `output`. -/
def finalizeState (p : Params) (state : List (BitVec 32)) (blocks : Nat) : List (BitVec 32) :=
  compress p state (padN words0 blocks)

end Verif.Rmd
