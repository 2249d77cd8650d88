import Verif.Model.Stream
/-!
# SHA-1, SHA-224/256 and SHA-384/512 (include/bitcoin/system/hash/sha, include/bitcoin/system/impl/hash/sha)

The algorithm template is modelled for any word width `w` (`SHA::word_bits`, 32 or 64) with words as `BitVec w` and the C arrays
as lists. Modelled: the portable code path and the two non-native vector optimisations (`schedule_sigma` and multiple-block
scheduling), where a vector operation is taken to be the scalar operation in each lane. The SHA-NI and ARM
(`native`) path of algorithm_native.ipp is in Model/Native.lean.
-/
namespace Verif.Sha

/-- The compile time parameters of `sha::algorithm<SHA>`: `SHA::strength`, `SHA::rounds`, `SHA::digest` (in bits) and the
constant tables `K::get` and `H::get` (include/bitcoin/system/hash/sha/sha.hpp:35-66). -/
structure Params (w : Nat) where
  strength : Nat
  rounds : Nat
  digest : Nat
  K : List (BitVec w)
  H : List (BitVec w)

/-- `SHA::state_words` (sha.hpp:63). -/
def Params.stateWords {w} (p : Params w) : Nat := if p.digest = 160 then 5 else 8

/-- `SHA::word_bytes` (sha.hpp:60). -/
def wordBytes (w : Nat) : Nat := w / 8

/-- Bytes of `block_t`: `SHA::block_words * SHA::word_bytes` with sixteen words (sha.hpp:61, algorithm.hpp:91). -/
def blockBytes (w : Nat) : Nat := 16 * wordBytes w

/-- `k160::get` (include/bitcoin/system/hash/sha/sha160.hpp:33-62). -/
def k160 : List (BitVec 32) := [
    0x5a827999, 0x5a827999, 0x5a827999, 0x5a827999, 0x5a827999,
    0x5a827999, 0x5a827999, 0x5a827999, 0x5a827999, 0x5a827999,
    0x5a827999, 0x5a827999, 0x5a827999, 0x5a827999, 0x5a827999,
    0x5a827999, 0x5a827999, 0x5a827999, 0x5a827999, 0x5a827999,
    0x6ed9eba1, 0x6ed9eba1, 0x6ed9eba1, 0x6ed9eba1, 0x6ed9eba1,
    0x6ed9eba1, 0x6ed9eba1, 0x6ed9eba1, 0x6ed9eba1, 0x6ed9eba1,
    0x6ed9eba1, 0x6ed9eba1, 0x6ed9eba1, 0x6ed9eba1, 0x6ed9eba1,
    0x6ed9eba1, 0x6ed9eba1, 0x6ed9eba1, 0x6ed9eba1, 0x6ed9eba1,
    0x8f1bbcdc, 0x8f1bbcdc, 0x8f1bbcdc, 0x8f1bbcdc, 0x8f1bbcdc,
    0x8f1bbcdc, 0x8f1bbcdc, 0x8f1bbcdc, 0x8f1bbcdc, 0x8f1bbcdc,
    0x8f1bbcdc, 0x8f1bbcdc, 0x8f1bbcdc, 0x8f1bbcdc, 0x8f1bbcdc,
    0x8f1bbcdc, 0x8f1bbcdc, 0x8f1bbcdc, 0x8f1bbcdc, 0x8f1bbcdc,
    0xca62c1d6, 0xca62c1d6, 0xca62c1d6, 0xca62c1d6, 0xca62c1d6,
    0xca62c1d6, 0xca62c1d6, 0xca62c1d6, 0xca62c1d6, 0xca62c1d6,
    0xca62c1d6, 0xca62c1d6, 0xca62c1d6, 0xca62c1d6, 0xca62c1d6,
    0xca62c1d6, 0xca62c1d6, 0xca62c1d6, 0xca62c1d6, 0xca62c1d6]

/-- `h160::get` (include/bitcoin/system/hash/sha/sha160.hpp:71-78). -/
def h160 : List (BitVec 32) := [
    0x67452301, 0xefcdab89, 0x98badcfe, 0x10325476, 0xc3d2e1f0]

/-- `k256::get` (include/bitcoin/system/hash/sha/sha256.hpp:33-58). -/
def k256 : List (BitVec 32) := [
    0x428a2f98, 0x71374491, 0xb5c0fbcf, 0xe9b5dba5, 0x3956c25b, 0x59f111f1, 0x923f82a4, 0xab1c5ed5,
    0xd807aa98, 0x12835b01, 0x243185be, 0x550c7dc3, 0x72be5d74, 0x80deb1fe, 0x9bdc06a7, 0xc19bf174,
    0xe49b69c1, 0xefbe4786, 0x0fc19dc6, 0x240ca1cc, 0x2de92c6f, 0x4a7484aa, 0x5cb0a9dc, 0x76f988da,
    0x983e5152, 0xa831c66d, 0xb00327c8, 0xbf597fc7, 0xc6e00bf3, 0xd5a79147, 0x06ca6351, 0x14292967,
    0x27b70a85, 0x2e1b2138, 0x4d2c6dfc, 0x53380d13, 0x650a7354, 0x766a0abb, 0x81c2c92e, 0x92722c85,
    0xa2bfe8a1, 0xa81a664b, 0xc24b8b70, 0xc76c51a3, 0xd192e819, 0xd6990624, 0xf40e3585, 0x106aa070,
    0x19a4c116, 0x1e376c08, 0x2748774c, 0x34b0bcb5, 0x391c0cb3, 0x4ed8aa4a, 0x5b9cca4f, 0x682e6ff3,
    0x748f82ee, 0x78a5636f, 0x84c87814, 0x8cc70208, 0x90befffa, 0xa4506ceb, 0xbef9a3f7, 0xc67178f2]

/-- `h256<256>::get` (include/bitcoin/system/hash/sha/sha256.hpp:76-86). -/
def h256 : List (BitVec 32) := [
    0x6a09e667, 0xbb67ae85, 0x3c6ef372, 0xa54ff53a, 0x510e527f, 0x9b05688c, 0x1f83d9ab, 0x5be0cd19]

/-- `h256<224>::get` (include/bitcoin/system/hash/sha/sha256.hpp:96-106). -/
def h224 : List (BitVec 32) := [
    0xc1059ed8, 0x367cd507, 0x3070dd17, 0xf70e5939, 0xffc00b31, 0x68581511, 0x64f98fa7, 0xbefa4fa4]

/-- `k512::get` (include/bitcoin/system/hash/sha/sha512.hpp:33-84). -/
def k512 : List (BitVec 64) := [
    0x428a2f98d728ae22, 0x7137449123ef65cd, 0xb5c0fbcfec4d3b2f, 0xe9b5dba58189dbbc,
    0x3956c25bf348b538, 0x59f111f1b605d019, 0x923f82a4af194f9b, 0xab1c5ed5da6d8118,
    0xd807aa98a3030242, 0x12835b0145706fbe, 0x243185be4ee4b28c, 0x550c7dc3d5ffb4e2,
    0x72be5d74f27b896f, 0x80deb1fe3b1696b1, 0x9bdc06a725c71235, 0xc19bf174cf692694,
    0xe49b69c19ef14ad2, 0xefbe4786384f25e3, 0x0fc19dc68b8cd5b5, 0x240ca1cc77ac9c65,
    0x2de92c6f592b0275, 0x4a7484aa6ea6e483, 0x5cb0a9dcbd41fbd4, 0x76f988da831153b5,
    0x983e5152ee66dfab, 0xa831c66d2db43210, 0xb00327c898fb213f, 0xbf597fc7beef0ee4,
    0xc6e00bf33da88fc2, 0xd5a79147930aa725, 0x06ca6351e003826f, 0x142929670a0e6e70,
    0x27b70a8546d22ffc, 0x2e1b21385c26c926, 0x4d2c6dfc5ac42aed, 0x53380d139d95b3df,
    0x650a73548baf63de, 0x766a0abb3c77b2a8, 0x81c2c92e47edaee6, 0x92722c851482353b,
    0xa2bfe8a14cf10364, 0xa81a664bbc423001, 0xc24b8b70d0f89791, 0xc76c51a30654be30,
    0xd192e819d6ef5218, 0xd69906245565a910, 0xf40e35855771202a, 0x106aa07032bbd1b8,
    0x19a4c116b8d2d0c8, 0x1e376c085141ab53, 0x2748774cdf8eeb99, 0x34b0bcb5e19b48a8,
    0x391c0cb3c5c95a63, 0x4ed8aa4ae3418acb, 0x5b9cca4f7763e373, 0x682e6ff3d6b2b8a3,
    0x748f82ee5defb2fc, 0x78a5636f43172f60, 0x84c87814a1f0ab72, 0x8cc702081a6439ec,
    0x90befffa23631e28, 0xa4506cebde82bde9, 0xbef9a3f7b2c67915, 0xc67178f2e372532b,
    0xca273eceea26619c, 0xd186b8c721c0c207, 0xeada7dd6cde0eb1e, 0xf57d4f7fee6ed178,
    0x06f067aa72176fba, 0x0a637dc5a2c898a6, 0x113f9804bef90dae, 0x1b710b35131c471b,
    0x28db77f523047d84, 0x32caab7b40c72493, 0x3c9ebe0a15c9bebc, 0x431d67c49c100d4c,
    0x4cc5d4becb3e42b6, 0x597f299cfc657e2a, 0x5fcb6fab3ad6faec, 0x6c44198c4a475817]

/-- `h512<512>::get` (include/bitcoin/system/hash/sha/sha512.hpp:103-113). -/
def h512 : List (BitVec 64) := [
    0x6a09e667f3bcc908, 0xbb67ae8584caa73b, 0x3c6ef372fe94f82b, 0xa54ff53a5f1d36f1,
    0x510e527fade682d1, 0x9b05688c2b3e6c1f, 0x1f83d9abfb41bd6b, 0x5be0cd19137e2179]

/-- `h512<384>::get` (include/bitcoin/system/hash/sha/sha512.hpp:123-133). -/
def h384 : List (BitVec 64) := [
    0xcbbb9d5dc1059ed8, 0x629a292a367cd507, 0x9159015a3070dd17, 0x152fecd8f70e5939,
    0x67332667ffc00b31, 0x8eb44a8768581511, 0xdb0c2e0d64f98fa7, 0x47b5481dbefa4fa4]

/-- `h512<256>::get` (include/bitcoin/system/hash/sha/sha512.hpp:143-153). -/
def h512_256 : List (BitVec 64) := [
    0x22312194fc2bf72c, 0x9f555fa3c84c64c2, 0x2393b86b6f53b151, 0x963877195940eabd,
    0x96283ee2a88effe3, 0xbe5e1e2553863992, 0x2b0199fc2c85b8aa, 0x0eb72ddc81c52ca2]

/-- `h512<224>::get` (include/bitcoin/system/hash/sha/sha512.hpp:163-173). -/
def h512_224 : List (BitVec 64) := [
    0x8c3d37c819544da2, 0x73e1996689dcd4d6, 0x1dfab7ae32ff9c82, 0x679dd514582f9fcf,
    0x0f6d2b697bd44da8, 0x77e36f7304c48942, 0x3f9d85a86a1d36c8, 0x1112e6ad91d692a1]
/-- `using sha160 = sha::algorithm<sha::h160>` (include/bitcoin/system/hash/algorithms.hpp:34). -/
def sha160 : Params 32 := ⟨160, 80, 160, k160, h160⟩
/-- `using sha256 = sha::algorithm<sha::h256<>>` (algorithms.hpp:36). -/
def sha256 : Params 32 := ⟨256, 64, 256, k256, h256⟩
/-- `using sha256_224` (algorithms.hpp:35). -/
def sha256_224 : Params 32 := ⟨256, 64, 224, k256, h224⟩
/-- `using sha512 = sha::algorithm<sha::h512<>>` (algorithms.hpp:40). -/
def sha512 : Params 64 := ⟨512, 80, 512, k512, h512⟩
/-- `using sha512_384` (algorithms.hpp:39). -/
def sha512_384 : Params 64 := ⟨512, 80, 384, k512, h384⟩
/-- `using sha512_256` (algorithms.hpp:37). -/
def sha512_256 : Params 64 := ⟨512, 80, 256, k512, h512_256⟩
/-- `using sha512_224` (algorithms.hpp:38). -/
def sha512_224 : Params 64 := ⟨512, 80, 224, k512, h512_224⟩

variable {w : Nat}

/-- Array read `array[i]` (indices are in range in every use). Used for algorithm_schedule.ipp:33-52. -/
def rd (l : List (BitVec w)) (i : Nat) : BitVec w := l.getD i 0

/-- Consecutive array writes `array[i] = x0, array[i + 1] = x1, ...`. -/
def setMany {α : Type} (l : List α) (i : Nat) : List α → List α
  | [] => l
  | x :: xs => setMany (l.set i x) (i + 1) xs

/-! ### Functions -/

/-- `parity` (include/bitcoin/system/impl/hash/sha/algorithm_functions.ipp:36-42). -/
def parity (x y z : BitVec w) : BitVec w := (x ^^^ y) ^^^ z
/-- `choice` (algorithm_functions.ipp:44-51). -/
def choice (x y z : BitVec w) : BitVec w := (x &&& (y ^^^ z)) ^^^ z
/-- `majority` (algorithm_functions.ipp:53-60). -/
def majority (x y z : BitVec w) : BitVec w := (x &&& (y ||| z)) ||| (y &&& z)
/-- `sigma<A, B, C>` (algorithm_functions.ipp:62-70). -/
def sigma (A B C : Nat) (x : BitVec w) : BitVec w := (x.rotateRight A ^^^ x.rotateRight B) ^^^ (x >>> C)
/-- `Sigma<A, B, C>` (algorithm_functions.ipp:72-105). -/
def Sigma (A B C : Nat) (x : BitVec w) : BitVec w :=
  ((((x.rotateRight (C - B)) ^^^ x).rotateRight (B - A)) ^^^ x).rotateRight A
/-- `sigma0` (algorithm_functions.ipp:111-119). -/
def sigma0 (p : Params w) (x : BitVec w) : BitVec w := if p.strength = 256 then sigma 7 18 3 x else sigma 1 8 7 x
/-- `sigma1` (algorithm_functions.ipp:121-129). -/
def sigma1 (p : Params w) (x : BitVec w) : BitVec w := if p.strength = 256 then sigma 17 19 10 x else sigma 19 61 6 x
/-- `Sigma0` (algorithm_functions.ipp:131-139). -/
def Sigma0 (p : Params w) (x : BitVec w) : BitVec w := if p.strength = 256 then Sigma 2 13 22 x else Sigma 28 34 39 x
/-- `Sigma1` (algorithm_functions.ipp:141-149). -/
def Sigma1 (p : Params w) (x : BitVec w) : BitVec w := if p.strength = 256 then Sigma 6 11 25 x else Sigma 14 18 41 x

/-! ### Message schedule -/

/-- `prepare<Round>` (algorithm_schedule.ipp:33-52). -/
def prepare (p : Params w) (buffer : List (BitVec w)) (r : Nat) : List (BitVec w) :=
  if p.strength = 160 then
    buffer.set r (((rd buffer (r - 16) ^^^ rd buffer (r - 14)) ^^^ (rd buffer (r - 8) ^^^ rd buffer (r - 3))).rotateLeft 1)
  else
    buffer.set r ((rd buffer (r - 16) + sigma0 p (rd buffer (r - 15))) + (rd buffer (r - 7) + sigma1 p (rd buffer (r - 2))))

/-- `konstant<Round>` (algorithm_konstant.ipp:34-41). -/
def konstant1 (p : Params w) (buffer : List (BitVec w)) (r : Nat) : List (BitVec w) :=
  buffer.set r (rd buffer r + rd p.K r)

/-- `konstant_` (algorithm_konstant.ipp:149-240), also `konstant` (algorithm_konstant.ipp:250-267). -/
def konstant (p : Params w) (buffer : List (BitVec w)) : List (BitVec w) :=
  (List.range p.rounds).foldl (konstant1 p) buffer

/-- `schedule_` (algorithm_schedule.ipp:54-130): `prepare<16>` up to the last round, then `konstant`. -/
def scheduleScalar (p : Params w) (buffer : List (BitVec w)) : List (BitVec w) :=
  konstant p ((List.range' 16 (p.rounds - 16)).foldl (prepare p) buffer)

/-- `prepare_1<Round, Offset>` (algorithm_sigma.ipp:41-55) given the precomputed `sigma0` lane values. -/
def prepare1 (p : Params w) (r : Nat) (x : List (BitVec w)) (buffer : List (BitVec w)) (o : Nat) : List (BitVec w) :=
  buffer.set (r + o)
    ((rd buffer (r - 16 + o) + rd x o) + (rd buffer (r - 7 + o) + sigma1 p (rd buffer (r - 2 + o))))

/-- `prepare_8<Round>` (algorithm_sigma.ipp:57-83): the eight `sigma0` values are read before any of the eight writes. -/
def prepare8 (p : Params w) (buffer : List (BitVec w)) (r : Nat) : List (BitVec w) :=
  let x := (List.range 8).map fun o => sigma0 p (rd buffer (r - 15 + o))
  (List.range 8).foldl (prepare1 p r x) buffer

/-- `schedule_sigma` (algorithm_sigma.ipp:94-119) where eight lanes are available: `prepare_8<16>`, `prepare_8<24>`, ... -/
def scheduleSigma (p : Params w) (buffer : List (BitVec w)) : List (BitVec w) :=
  if p.strength ≠ 160 then
    konstant p ((List.range ((p.rounds - 16) / 8)).foldl (fun b i => prepare8 p b (16 + 8 * i)) buffer)
  else scheduleScalar p buffer

/-- The compiled optimisations: `sigma8` for `have_lanes<word_t, 8>` in `schedule`, and the lane widths of `iterate_vector`
with its threshold `min_lanes`. `Build.portable` is the build without vectorisation. -/
structure Build where
  sigma8 : Bool
  minLanes : Nat
  lanes : List Nat

/-- The build without vectorisation. -/
def Build.portable : Build := ⟨false, 0, []⟩

/-- `schedule` (algorithm_schedule.ipp:132-149). -/
def schedule (b : Build) (p : Params w) (buffer : List (BitVec w)) : List (BitVec w) :=
  if b.sigma8 then scheduleSigma p buffer else scheduleScalar p buffer

/-! ### Compression -/

/-- `functor<Round>` (algorithm_compress.ipp:43-60). -/
def functor (r : Nat) : BitVec w → BitVec w → BitVec w → BitVec w :=
  if r / 20 = 0 then choice else if r / 20 = 1 then parity else if r / 20 = 2 then majority else parity

/-- `round<Round>` on the state (algorithm_compress.ipp:62-73, 75-88 and 90-120): the variables a, b, ... are state slots
selected by the round number, and only two slots are assigned. -/
def round (p : Params w) (wk : List (BitVec w)) (state : List (BitVec w)) (r : Nat) : List (BitVec w) :=
  let i := fun k => (p.rounds + k - r) % p.stateWords
  let v := fun k => rd state (i k)
  if p.strength = 160 then
    let e := (((v 0).rotateLeft 5 + functor r (v 1) (v 2) (v 3)) + v 4) + rd wk r
    (state.set (i 4) e).set (i 1) ((v 1).rotateLeft 30)
  else
    let t := ((Sigma1 p (v 4) + choice (v 4) (v 5) (v 6)) + v 7) + rd wk r
    (state.set (i 3) (v 3 + t)).set (i 7) ((Sigma0 p (v 0) + majority (v 0) (v 1) (v 2)) + t)

/-- `summarize` (algorithm_compress.ipp:122-139). -/
def summarize (p : Params w) (out inn : List (BitVec w)) : List (BitVec w) :=
  let one := fun (o : List (BitVec w)) i => o.set i (rd o i + rd inn i)
  let o5 := (List.range 5).foldl one out
  if p.strength ≠ 160 then [5, 6, 7].foldl one o5 else o5

/-- `compress_` and `compress` (algorithm_compress.ipp:141-247). -/
def compress (p : Params w) (state wk : List (BitVec w)) : List (BitVec w) :=
  summarize p ((List.range p.rounds).foldl (round p wk) state) state

/-! ### Parsing -/

/-- `n` consecutive big-endian words of a byte array (`from_big<i * size>`). Used for algorithm_parsing.ipp:33-109. -/
def beWords (w n : Nat) (bytes : Bytes) : List (BitVec w) :=
  (List.range n).map fun i => BitVec.ofNat w (beNat ((bytes.drop (i * wordBytes w)).take (wordBytes w)))

/-- `input` (algorithm_parsing.ipp:33-109). -/
def input (buffer : List (BitVec w)) (block : Bytes) : List (BitVec w) := setMany buffer 0 (beWords w 16 block)
/-- `input_left` of a half block (algorithm_parsing.ipp:111-162). -/
def inputLeft (buffer : List (BitVec w)) (half : Bytes) : List (BitVec w) := setMany buffer 0 (beWords w 8 half)
/-- `input_right` of a half block (algorithm_parsing.ipp:164-216). -/
def inputRight (buffer : List (BitVec w)) (half : Bytes) : List (BitVec w) := setMany buffer 8 (beWords w 8 half)
/-- `input_left` of a quarter block (algorithm_parsing.ipp:218-245). -/
def inputLeftQuarter (buffer : List (BitVec w)) (quarter : Bytes) : List (BitVec w) := setMany buffer 0 (beWords w 4 quarter)
/-- `input_right` of a quarter block (algorithm_parsing.ipp:247-275). -/
def inputRightQuarter (buffer : List (BitVec w)) (quarter : Bytes) : List (BitVec w) := setMany buffer 4 (beWords w 4 quarter)
/-- `inject_left_half` (algorithm_midstate.ipp:33-53). -/
def injectLeftHalf (buffer left : List (BitVec w)) : List (BitVec w) :=
  setMany buffer 0 ((List.range 8).map (rd left))
/-- `output` (algorithm_parsing.ipp:277-403): the state words big-endian, truncated to the digest size. -/
def output (p : Params w) (state : List (BitVec w)) : Bytes :=
  (state.flatMap fun x => beBytes (wordBytes w) x.toNat).take (p.digest / 8)

/-- `buffer_t buffer{}` (algorithm.hpp:84). -/
def buffer0 (p : Params w) : List (BitVec w) := List.replicate p.rounds 0

/-! ### Padding -/

/-- `bit_hi<word_t>`. Used for algorithm_padding.ipp:152-163. -/
def bitHi (w : Nat) : BitVec w := BitVec.ofNat w (2 ^ (w - 1))

/-- `to_bits(blocks * array_count<block_t>)` in `count_t`, an unsigned type of twice the word width
(include/bitcoin/system/hash/sha/algorithm.hpp:106-108, algorithm_padding.ipp:209). -/
def countBits (w : Nat) (blocks : Nat) : Nat := (blocks * blockBytes w * 8) % 2 ^ (2 * w)

/-- `pad_half` with `chunk_pad` (algorithm_padding.ipp:152-163 and 180-202). -/
def padHalf (buffer : List (BitVec w)) : List (BitVec w) :=
  setMany buffer 8 (bitHi w :: List.replicate 6 0 ++ [BitVec.ofNat w (8 * wordBytes w * 8)])

/-- `pad_n` with `stream_pad` (algorithm_padding.ipp:165-175 and 204-239). -/
def padN (buffer : List (BitVec w)) (blocks : Nat) : List (BitVec w) :=
  setMany buffer 0 (bitHi w :: List.replicate 13 0 ++
    [BitVec.ofNat w (countBits w blocks / 2 ^ w), BitVec.ofNat w (countBits w blocks % 2 ^ w)])

/-- `scheduled_pad<Blocks>` (algorithm_padding.ipp:38-55); evaluated at compile time, so always with the scalar schedule. -/
def scheduledPad (p : Params w) (blocks : Nat) : List (BitVec w) :=
  scheduleScalar p (((buffer0 p).set 0 (bitHi w)).set 15 (BitVec.ofNat w (blocks * blockBytes w * 8)))

/-- `schedule_n(buffer, blocks)` with caching (algorithm_padding.ipp:57-103). -/
def scheduleN (b : Build) (p : Params w) (buffer : List (BitVec w)) (blocks : Nat) : List (BitVec w) :=
  if blocks = 1 ∨ blocks = 2 ∨ blocks = 3 ∨ blocks = 4 then scheduledPad p blocks
  else schedule b p (padN buffer blocks)

/-- `schedule_1` (algorithm_padding.ipp:105-111). -/
def schedule1 (p : Params w) : List (BitVec w) := scheduledPad p 1

/-- `simple_pad<Bytes>` (algorithm_padding.ipp:116-126). -/
def simplePad (w : Nat) (block : Bytes) (bytes : Nat) : Bytes :=
  (setMany block (blockBytes w - wordBytes w) (beBytes (wordBytes w) (bytes * 8))).set bytes 0x80

/-! ### Iteration -/

/-- The blocks of an `iterable<block_t>(size, data)` (include/bitcoin/system/data/iterable.hpp:66-200): `size / block_size`
consecutive arrays. -/
def blocksOf (size : Nat) (data : Bytes) : List Bytes :=
  (List.range (data.length / size)).map fun i => (data.drop (i * size)).take size

/-- `iterate_` (algorithm_iterate.ipp:266-291): the buffer is reused from one block to the next. -/
def iterateScalar (b : Build) (p : Params w) (state : List (BitVec w)) (blocks : List Bytes) : List (BitVec w) :=
  (blocks.foldl (fun (s : List (BitVec w) × List (BitVec w)) block =>
    let buffer := schedule b p (input s.2 block)
    (compress p s.1 buffer, buffer)) (state, buffer0 p)).1

/-- `vector_schedule_sequential_compress` (algorithm_iterate.ipp:90-115, 131-169 and 175-201): while `lanes` blocks remain, all
of them are scheduled (one per lane) and then compressed in order. Returns the state and the remaining blocks. -/
def vectorBlocks (p : Params w) (lanes : Nat) : Nat → List (BitVec w) → List Bytes → List (BitVec w) × List Bytes
  | 0, state, blocks => (state, blocks)
  | fuel + 1, state, blocks =>
    if lanes ≠ 0 ∧ blocks.length ≥ lanes then
      let buffers := (blocks.take lanes).map fun block => scheduleScalar p (input (buffer0 p) block)
      vectorBlocks p lanes fuel (buffers.foldl (compress p) state) (blocks.drop lanes)
    else (state, blocks)

/-- `iterate_vector` (algorithm_iterate.ipp:203-237) and `iterate` (algorithm_iterate.ipp:293-334) without the native path. -/
def iterate (b : Build) (p : Params w) (state : List (BitVec w)) (blocks : List Bytes) : List (BitVec w) :=
  if blocks.length ≥ b.minLanes then
    let r := b.lanes.foldl (fun s l => vectorBlocks p l s.2.length s.1 s.2) (state, blocks)
    iterateScalar b p r.1 r.2
  else iterateScalar b p state blocks

/-! ### Hashing -/

/-- `finalize(state, blocks)` and `finalize<Blocks>(state)` (algorithm_stream.ipp:55-106): new state and digest. -/
def finalizeState (b : Build) (p : Params w) (state : List (BitVec w)) (blocks : Nat) : List (BitVec w) :=
  compress p state (scheduleN b p (buffer0 p) blocks)

/-- The second hash of a state (algorithm_stream.ipp:108-139, and the tail of every double hash): the digest words go straight
into the reused buffer. -/
def second (b : Build) (p : Params w) (buffer state : List (BitVec w)) : List (BitVec w) :=
  compress p p.H (schedule b p (padHalf (injectLeftHalf buffer state)))

/-- `finalize_second` (algorithm_stream.ipp:108-139). -/
def finalizeSecond (b : Build) (p : Params w) (state : List (BitVec w)) : Bytes :=
  output p (second b p (buffer0 p) state)

/-- `finalize_double` (algorithm_stream.ipp:141-174); the state is updated by the first compression. -/
def finalizeDouble (b : Build) (p : Params w) (state : List (BitVec w)) (blocks : Nat) : Bytes :=
  let buffer := scheduleN b p (buffer0 p) blocks
  output p (second b p buffer (compress p state buffer))

/-- `hash(iblocks)` and `hash(ablocks)`, also `hash(block)` (algorithm_single.ipp:32-72). -/
def hashBlocks (b : Build) (p : Params w) (blocks : List Bytes) : Bytes :=
  output p (finalizeState b p (iterate b p p.H blocks) blocks.length)

/-- `hash(half)` (algorithm_single.ipp:74-101). -/
def hashHalf (b : Build) (p : Params w) (half : Bytes) : Bytes :=
  output p (compress p p.H (schedule b p (padHalf (inputLeft (buffer0 p) half))))

/-- `hash(left, right)` of half blocks (algorithm_single.ipp:103-132). -/
def hashHalves (b : Build) (p : Params w) (left right : Bytes) : Bytes :=
  let buffer := schedule b p (inputRight (inputLeft (buffer0 p) left) right)
  output p (compress p (compress p p.H buffer) (schedule1 p))

/-- `midstate(left, right)` (algorithm_single.ipp:134-146). -/
def midstate (b : Build) (p : Params w) (left right : Bytes) : List (BitVec w) :=
  compress p p.H (schedule b p (inputRight (inputLeft (buffer0 p) left) right))

/-- `hash(left, right)` of quarter blocks (algorithm_single.ipp:148-176). -/
def hashQuarters (b : Build) (p : Params w) (left right : Bytes) : Bytes :=
  output p (compress p p.H (schedule b p (padHalf (inputRightQuarter (inputLeftQuarter (buffer0 p) left) right))))

/-- `simple_hash` and `hash(byte)` (algorithm_single.ipp:178-218). -/
def simpleHash (b : Build) (p : Params w) (bytes : Bytes) : Bytes :=
  let block := simplePad w (setMany (List.replicate (blockBytes w) 0) 0 bytes) bytes.length
  output p (compress p p.H (schedule b p (input (buffer0 p) block)))

/-- `double_hash(iblocks)` and `double_hash(ablocks)` (algorithm_double.ipp:35-79). -/
def doubleHashBlocks (b : Build) (p : Params w) (blocks : List Bytes) : Bytes :=
  finalizeDouble b p (iterate b p p.H blocks) blocks.length

/-- `double_hash(block)` (algorithm_double.ipp:81-119). -/
def doubleHashBlock (b : Build) (p : Params w) (block : Bytes) : Bytes :=
  let buffer := schedule b p (input (buffer0 p) block)
  let state := compress p (compress p p.H buffer) (schedule1 p)
  output p (second b p (schedule1 p) state)

/-- `double_hash(half)` (algorithm_double.ipp:121-158). -/
def doubleHashHalf (b : Build) (p : Params w) (half : Bytes) : Bytes :=
  let buffer := schedule b p (padHalf (inputLeft (buffer0 p) half))
  output p (second b p buffer (compress p p.H buffer))

/-- `double_hash(left, right)` (algorithm_double.ipp:160-199). -/
def doubleHashHalves (b : Build) (p : Params w) (left right : Bytes) : Bytes :=
  let buffer := schedule b p (inputRight (inputLeft (buffer0 p) left) right)
  let state := compress p (compress p p.H buffer) (schedule1 p)
  output p (second b p (schedule1 p) state)

end Verif.Sha
