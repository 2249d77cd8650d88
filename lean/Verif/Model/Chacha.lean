import Verif.Model.Stream
/-!
# ChaCha20 (src/crypto/chacha20.cpp, include/bitcoin/system/crypto/chacha20.hpp)

The template code is modelled once for any word type with the operations it uses: for a 32 bit word, and for a vector of
32 bit lanes, where `f::add`, `f::xor_` and `f::rol` act in each lane. The lane shuffles `f::unpack_lo/hi` and
`f::tile_lo/hi` are modelled by the lane selection of the instructions they name. C arrays are functions from the index,
and their writes are `upd`. Words are stored little-endian (x86, ARM); `to_little_endians` is exact on any host.
-/
namespace Verif.Chacha

/-- `uint32_t`. -/
abbrev W := BitVec 32

/-- Array write `x[i] = v`. Used for chacha20.cpp:49-61. -/
def upd {α : Type} (x : Nat → α) (i : Nat) (v : α) : Nat → α := fun j => if j = i then v else x j

/-- The word operations used by the template: `f::add<32>`, `f::xor_`, `f::rol<B, 32>`
(include/bitcoin/system/intrinsics/none/none_128.hpp and the intel/neon headers). -/
structure Ops (α : Type) where
  add : α → α → α
  xor : α → α → α
  rol : Nat → α → α

/-- The operations of `uint32_t`. -/
def wordOps : Ops W := ⟨(· + ·), (· ^^^ ·), fun n x => x.rotateLeft n⟩

/-- A vector of 32 bit lanes (`xint128_t`, `xint256_t`, `xint512_t`), lane zero lowest. -/
abbrev V (α : Type) := Nat → α

/-- The operations of a vector, in each lane. Used for chacha20.cpp:282-336. -/
def vecOps : Ops (V W) := ⟨fun a b i => a i + b i, fun a b i => a i ^^^ b i, fun n a i => (a i).rotateLeft n⟩

section
variable {α : Type} (o : Ops α)

/-- `quarter` (chacha20.cpp:49-61). -/
def quarter (A B C D : Nat) (x : Nat → α) : Nat → α :=
  let x := upd x A (o.add (x A) (x B))
  let x := upd x D (o.rol 16 (o.xor (x D) (x A)))
  let x := upd x C (o.add (x C) (x D))
  let x := upd x B (o.rol 12 (o.xor (x B) (x C)))
  let x := upd x A (o.add (x A) (x B))
  let x := upd x D (o.rol 8 (o.xor (x D) (x A)))
  let x := upd x C (o.add (x C) (x D))
  upd x B (o.rol 7 (o.xor (x B) (x C)))

/-- `double_round` (chacha20.cpp:63-75). -/
def doubleRound (x : Nat → α) : Nat → α :=
  let x := quarter o 0 4  8 12 x
  let x := quarter o 1 5  9 13 x
  let x := quarter o 2 6 10 14 x
  let x := quarter o 3 7 11 15 x
  let x := quarter o 0 5 10 15 x
  let x := quarter o 1 6 11 12 x
  let x := quarter o 2 7  8 13 x
  quarter o 3 4  9 14 x

/-- `summate<Index>` (chacha20.cpp:77-84). -/
def summate (start : Nat → α) (x : Nat → α) (i : Nat) : Nat → α := upd x i (o.add (x i) (start i))

/-- `rounds` (chacha20.cpp:86-118). -/
def rounds (x : Nat → α) : Nat → α :=
  let start := x
  let x := doubleRound o x
  let x := doubleRound o x
  let x := doubleRound o x
  let x := doubleRound o x
  let x := doubleRound o x
  let x := doubleRound o x
  let x := doubleRound o x
  let x := doubleRound o x
  let x := doubleRound o x
  let x := doubleRound o x
  [0, 1, 2, 3, 4, 5, 6, 7, 8, 9, 10, 11, 12, 13, 14, 15].foldl (summate o start) x
end

/-! ### Vectorisation -/
section
variable {α : Type}

/-- `f::unpack_lo<32>` (intrinsics/intel/intel_128.hpp:305-315, intel_256.hpp:329-339, intel_512.hpp:345-355,
neon/neon_128.hpp:306-316): in each 128 bit group, the two low words interleaved. -/
def unpackLo32 (a b : V α) : V α := fun i =>
  let g := 4 * (i / 4)
  match i % 4 with | 0 => a g | 1 => b g | 2 => a (g + 1) | _ => b (g + 1)

/-- `f::unpack_hi<32>` (intel_128.hpp:319-329, intel_256.hpp:343-353, intel_512.hpp:359-369, neon_128.hpp:319-329). -/
def unpackHi32 (a b : V α) : V α := fun i =>
  let g := 4 * (i / 4)
  match i % 4 with | 0 => a (g + 2) | 1 => b (g + 2) | 2 => a (g + 3) | _ => b (g + 3)

/-- `f::unpack_lo<64>` (same lines): the low 64 bits of each group of both. -/
def unpackLo64 (a b : V α) : V α := fun i =>
  let g := 4 * (i / 4)
  match i % 4 with | 0 => a g | 1 => a (g + 1) | 2 => b g | _ => b (g + 1)

/-- `f::unpack_hi<64>` (same lines). -/
def unpackHi64 (a b : V α) : V α := fun i =>
  let g := 4 * (i / 4)
  match i % 4 with | 0 => a (g + 2) | 1 => a (g + 3) | 2 => b (g + 2) | _ => b (g + 3)

/-- The 128 bit group `g` of a vector at lane `i`. -/
def group (a : V α) (g i : Nat) : α := a (4 * g + i % 4)

/-- `f::tile_lo` by number of lanes: intel_128.hpp:331-334 (and neon), `_mm256_permute2x128_si256(a, b, 0x20)`
(intel_256.hpp:356-359), `_mm512_shuffle_i32x4(a, b, 0x88)` (intel_512.hpp:372-375). -/
def tileLo (lanes : Nat) (a b : V α) : V α := fun i =>
  if lanes = 4 then a i
  else if lanes = 8 then match i / 4 with | 0 => group a 0 i | _ => group b 0 i
  else match i / 4 with | 0 => group a 0 i | 1 => group a 2 i | 2 => group b 0 i | _ => group b 2 i

/-- `f::tile_hi` by number of lanes: intel_128.hpp:336-339 (and neon), `_mm256_permute2x128_si256(a, b, 0x31)`
(intel_256.hpp:362-365), `_mm512_shuffle_i32x4(a, b, 0xdd)` (intel_512.hpp:378-381). -/
def tileHi (lanes : Nat) (a b : V α) : V α := fun i =>
  if lanes = 4 then b i
  else if lanes = 8 then match i / 4 with | 0 => group a 1 i | _ => group b 1 i
  else match i / 4 with | 0 => group a 1 i | 1 => group a 3 i | 2 => group b 1 i | _ => group b 3 i

/-- `interleave32<Index>` (chacha20.cpp:143-150). -/
def interleave32 (I : Nat) (to from' : Nat → V α) : Nat → V α :=
  let to := upd to (2 * I + 0) (unpackLo32 (from' (2 * I)) (from' (2 * I + 1)))
  upd to (2 * I + 1) (unpackHi32 (from' (2 * I)) (from' (2 * I + 1)))

/-- `interleave64<Index>` (chacha20.cpp:152-163). -/
def interleave64 (I : Nat) (to from' : Nat → V α) : Nat → V α :=
  let to := upd to (4 * I + 0) (unpackLo64 (from' (4 * I)) (from' (4 * I + 2)))
  let to := upd to (4 * I + 1) (unpackHi64 (from' (4 * I)) (from' (4 * I + 2)))
  let to := upd to (4 * I + 2) (unpackLo64 (from' (4 * I + 1)) (from' (4 * I + 3)))
  upd to (4 * I + 3) (unpackHi64 (from' (4 * I + 1)) (from' (4 * I + 3)))

/-- `exchange<Index, Span>` (chacha20.cpp:165-171). -/
def exchange (lanes I S : Nat) (to from' : Nat → V α) : Nat → V α :=
  let to := upd to I (tileLo lanes (from' I) (from' (I + S)))
  upd to (I + S) (tileHi lanes (from' I) (from' (I + S)))

/-- `transpose` (chacha20.cpp:173-239) of `lanes` rows; `zero` is the value initialization of `t`, `u` and `v`. -/
def transpose (lanes : Nat) (zero : α) (row : Nat → V α) : Nat → V α :=
  let z : Nat → V α := fun _ _ => zero
  if lanes = 4 then
    let t := interleave32 0 z row
    let t := interleave32 1 t row
    interleave64 0 z t
  else if lanes = 8 then
    let t := interleave32 0 z row
    let t := interleave32 1 t row
    let t := interleave32 2 t row
    let t := interleave32 3 t row
    let u := interleave64 0 z t
    let u := interleave64 1 u t
    let row := exchange 8 0 4 row u
    let row := exchange 8 1 4 row u
    let row := exchange 8 2 4 row u
    exchange 8 3 4 row u
  else
    let t := interleave32 0 z row
    let t := interleave32 1 t row
    let t := interleave32 2 t row
    let t := interleave32 3 t row
    let t := interleave32 4 t row
    let t := interleave32 5 t row
    let t := interleave32 6 t row
    let t := interleave32 7 t row
    let u := interleave64 0 z t
    let u := interleave64 1 u t
    let u := interleave64 2 u t
    let u := interleave64 3 u t
    let v := exchange 16 0 4 z u
    let v := exchange 16 1 4 v u
    let v := exchange 16 2 4 v u
    let v := exchange 16 3 4 v u
    let v := exchange 16 8 4 v u
    let v := exchange 16 9 4 v u
    let v := exchange 16 10 4 v u
    let v := exchange 16 11 4 v u
    let row := exchange 16 0 8 row v
    let row := exchange 16 1 8 row v
    let row := exchange 16 2 8 row v
    let row := exchange 16 3 8 row v
    let row := exchange 16 4 8 row v
    let row := exchange 16 5 8 row v
    let row := exchange 16 6 8 row v
    exchange 16 7 8 row v

/-- `transpose(array_cast<xWord, lanes, at>(x))`: the rows from `at` are transposed in place (chacha20.cpp:247-261). -/
def transposeAt (lanes : Nat) (zero : α) (x : Nat → V α) (at' : Nat) : Nat → V α := fun k =>
  if at' ≤ k ∧ k < at' + lanes then transpose lanes zero (fun i => x (at' + i)) (k - at') else x k

/-- `transpose_groups` (chacha20.cpp:241-263). -/
def transposeGroups (lanes : Nat) (zero : α) (x : Nat → V α) : Nat → V α :=
  if lanes = 4 then [0, 4, 8, 12].foldl (transposeAt 4 zero) x
  else if lanes = 8 then [0, 8].foldl (transposeAt 8 zero) x
  else [0].foldl (transposeAt 16 zero) x

/-- `sequence<Lane>` (chacha20.cpp:265-280), with `parts = 16 / lanes` (chacha20.hpp:79-80). -/
def sequence (lanes : Nat) (x : Nat → V α) (keystream : Nat → V α) (lane : Nat) : Nat → V α :=
  let part := 16 / lanes
  let k := if part > 0 then upd keystream (part * lane + 0) (x (lanes * 0 + lane)) else keystream
  let k := if part > 1 then upd k (part * lane + 1) (x (lanes * 1 + lane)) else k
  let k := if part > 2 then upd k (part * lane + 2) (x (lanes * 2 + lane)) else k
  if part > 3 then upd k (part * lane + 3) (x (lanes * 3 + lane)) else k

/-- The lanes sequenced by `xnext` (chacha20.cpp:313-335). -/
def sequenceLanes (lanes : Nat) : List Nat :=
  [0, 1, 2, 3] ++ (if lanes > 4 then [4, 5, 6, 7] else []) ++ (if lanes > 8 then [8, 9, 10, 11, 12, 13, 14, 15] else [])
end

/-- `sigma` (chacha20.cpp:40-43). -/
def sigma : Nat → W
  | 0 => 0x61707865 | 1 => 0x3320646e | 2 => 0x79622d32 | 3 => 0x6b206574 | _ => 0

/-- `counters` (chacha20.cpp:126-141). -/
def counters (counter : W) : V W := fun i => counter + BitVec.ofNat 32 i

/-- The initial state of `xnext` and `next` (chacha20.cpp:289-307, 406-412), by word. -/
def initial {α : Type} (bc : W → α) (ctr : α) (key nonce : Nat → W) : Nat → α := fun k =>
  if k < 4 then bc (sigma k) else if k < 12 then bc (key (k - 4)) else if k = 12 then ctr else bc (nonce (k - 13))

/-- `xnext` (chacha20.cpp:282-336). -/
def xnext (lanes : Nat) (key nonce : Nat → W) (counter : W) : Nat → V W :=
  let x := initial (fun w _ => w) (counters counter) key nonce
  let x := rounds vecOps x
  let x := transposeGroups lanes 0 x
  (sequenceLanes lanes).foldl (sequence lanes x) (fun _ _ => 0)

/-- `array_cast<uint8_t>(keystream)` (chacha20.cpp:355): the bytes of the vectors in memory order. -/
def vectorBytes (lanes : Nat) (k : Nat → V W) : Bytes :=
  (List.range 16).flatMap fun i => (List.range lanes).flatMap fun l => leBytes 4 (k i l).toNat

/-- The instructions the library is compiled for (`have<xint512_t>` etc., intrinsics/types.hpp:112-128). -/
structure Build where
  have512 : Bool
  have256 : Bool
  have128 : Bool

/-- The members of `chacha20` (chacha20.hpp:136-141). -/
structure Cipher where
  key : Nat → W
  nonce : Nat → W
  counter : W
  buffer : Bytes
  offset : Nat

/-- `array_cast<uint32_t>` and `from_little_endians` of the secret (chacha20.cpp:386). -/
def keyWords (secret : Bytes) : Nat → W := fun i => BitVec.ofNat 32 (leNat ((secret.drop (4 * i)).take 4))

/-- `set_key` (chacha20.cpp:382-390). -/
def setKey (c : Cipher) (secret : Bytes) : Cipher :=
  { c with key := keyWords secret, nonce := fun _ => 0, counter := 0, offset := 64 }

/-- The constructor (chacha20.cpp:377-380, chacha20.hpp:136-141). -/
def construct (secret : Bytes) : Cipher :=
  setKey { key := fun _ => 0, nonce := fun _ => 0, counter := 0, buffer := List.replicate 64 0, offset := 64 } secret

/-- `seek` (chacha20.cpp:392-401). -/
def seek (c : Cipher) (nonce32 : BitVec 32) (nonce64 : BitVec 64) (counter : W) : Cipher :=
  { c with
    nonce := fun i => match i with | 0 => nonce32 | 1 => nonce64.truncate 32 | 2 => (nonce64 >>> 32).truncate 32 | _ => 0
    counter := counter
    offset := 64 }

/-- The block made by `next` (chacha20.cpp:403-417). -/
def nextBlock (c : Cipher) : Bytes :=
  let x := initial (fun w => w) c.counter c.key c.nonce
  let x := rounds wordOps x
  (List.range 16).flatMap fun i => leBytes 4 (x i).toNat

/-- `next(buffer_)` (chacha20.cpp:403-419). -/
def next (c : Cipher) : Cipher := { c with buffer := nextBlock c, counter := c.counter + 1 }

/-- `in.empty() ? stream : bit_xor(in[byte], stream)` (chacha20.cpp:357-362, 429-430). -/
def mix (inp : Bytes) (byte : Nat) (stream : UInt8) : UInt8 :=
  if inp.isEmpty then stream else (inp.getD byte 0) ^^^ stream

/-- The first loop of `crypt` (chacha20.cpp:428-430); `out` is the part written, `byte` its length. -/
def drain (inp : Bytes) (size : Nat) (c : Cipher) (out : Bytes) : Cipher × Bytes :=
  if c.offset < 64 ∧ out.length < size then
    drain inp size { c with offset := c.offset + 1 } (out ++ [mix inp out.length (c.buffer.getD c.offset 0)])
  else (c, out)
termination_by 64 - c.offset

/-- `xcrypt` (chacha20.cpp:338-372). -/
def xcrypt (lanes : Nat) (inp : Bytes) (size : Nat) (c : Cipher) (out : Bytes) : Cipher × Bytes :=
  if 64 * lanes ≤ size - out.length ∧ 0 < lanes then
    let stream := vectorBytes lanes (xnext lanes c.key c.nonce c.counter)
    xcrypt lanes inp size { c with counter := c.counter + BitVec.ofNat 32 lanes }
      (out ++ (List.range (64 * lanes)).map fun i => mix inp (out.length + i) (stream.getD i 0))
  else (c, out)
termination_by size - out.length
decreasing_by simp; omega

/-- The loop over whole blocks of `crypt` (chacha20.cpp:438-444). -/
def blocks (inp : Bytes) (size : Nat) (c : Cipher) (out : Bytes) : Cipher × Bytes :=
  if 64 ≤ size - out.length then
    let c := next c
    blocks inp size c (out ++ (List.range 64).map fun i => mix inp (out.length + i) (c.buffer.getD i 0))
  else (c, out)
termination_by size - out.length
decreasing_by simp; omega

/-- `crypt` (chacha20.cpp:421-456): the bytes written to `out`, of `size` bytes. -/
def crypt (b : Build) (c : Cipher) (inp : Bytes) (size : Nat) : Cipher × Bytes :=
  let (c, out) := drain inp size c []
  let (c, out) := if b.have512 then xcrypt 16 inp size c out else (c, out)
  let (c, out) := if b.have256 then xcrypt 8 inp size c out else (c, out)
  let (c, out) := if b.have128 then xcrypt 4 inp size c out else (c, out)
  let (c, out) := blocks inp size c out
  if out.length < size then drain inp size { next c with offset := 0 } out else (c, out)

/-- `stream` (chacha20.cpp:458-461). -/
def stream (b : Build) (c : Cipher) (size : Nat) : Cipher × Bytes := crypt b c [] size

end Verif.Chacha
