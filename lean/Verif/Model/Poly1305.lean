import Verif.Model.Stream
/-!
# Poly1305 (src/crypto/poly1305.cpp, include/bitcoin/system/crypto/poly1305.hpp)

A word is a `Nat` below `2^64` (or `2^32`), with the wrap around of each C++ operation explicit. The template code is modelled
once for any word type with the operations it uses: a `uint64_t`, and a vector of 64 bit lanes, where `f::mul<64>` is the
product of the low 32 bits of each lane (`_mm_mul_epu32`, `vmull_u32`).
-/
namespace Verif.Poly

/-- `limbs_t<Word>` (poly1305.hpp:54-57): five limbs of 26 bits. -/
structure Limbs (α : Type) where
  l0 : α
  l1 : α
  l2 : α
  l3 : α
  l4 : α
deriving DecidableEq

/-- The operations of the template: `f::mul<64>`, `f::add<64>`, `f::shr<26, 64>`, `f::and_`, `f::broadcast`. -/
structure Ops (α : Type) where
  mul : α → α → α
  add : α → α → α
  shr : α → α
  and : α → α → α
  bc : Nat → α

/-- The operations of `uint64_t` (include/bitcoin/system/math/functional.hpp:34-109). -/
def wordOps : Ops Nat := ⟨fun a b => a * b % 2 ^ 64, fun a b => (a + b) % 2 ^ 64, fun a => a >>> 26, (· &&& ·), fun a => a⟩

/-- One lane of a vector: as `uint64_t` but the product is of the low halves
(intrinsics/intel/intel_128.hpp:161-167, intel_256.hpp, intel_512.hpp:154-160, neon/neon_128.hpp:156-162). -/
def laneOps : Ops Nat := { wordOps with mul := fun a b => (a % 2 ^ 32) * (b % 2 ^ 32) }

/-- A vector of 64 bit lanes. -/
abbrev V := Nat → Nat

/-- The operations of a vector. Used for poly1305.cpp:318-337. -/
def vecOps : Ops V := ⟨fun a b i => laneOps.mul (a i) (b i), fun a b i => laneOps.add (a i) (b i), fun a i => laneOps.shr (a i),
  fun a b i => laneOps.and (a i) (b i), fun a _ => a⟩

/-- `limb_mask` (poly1305.cpp:46). -/
def limbMask : Nat := 0x03ffffff
/-- `prime_delta` (poly1305.cpp:48). -/
def primeDelta : Nat := 5
/-- `high_bit` (poly1305.cpp:51). -/
def highBit : Nat := 0x01000000

/-- `unsafe_from_little_endian<uint32_t>(&data[at])`. -/
def word (data : Bytes) (at' : Nat) : Nat := leNat ((data.drop at').take 4)

/-- `limb<Limb>` (poly1305.cpp:91-110). -/
def limb (i : Nat) (data : Bytes) (hibit : Nat) : Nat :=
  if i = 4 then (word data 12 >>> 8) ||| hibit
  else (word data ((i * 26) / 8) >>> ((i * 26) % 8)) &&& limbMask

section
variable {α : Type} (o : Ops α)

/-- `scale` (poly1305.cpp:112-122). -/
def scale (r : Limbs α) : Limbs α :=
  let delta := o.bc primeDelta
  ⟨o.mul r.l0 delta, o.mul r.l1 delta, o.mul r.l2 delta, o.mul r.l3 delta, o.mul r.l4 delta⟩

/-- `dot` (poly1305.cpp:124-137). -/
def dot (a : Limbs α) (w0 w1 w2 w3 w4 : α) : α :=
  let p0 := o.mul a.l0 w0
  let p1 := o.mul a.l1 w1
  let p2 := o.mul a.l2 w2
  let p3 := o.mul a.l3 w3
  let p4 := o.mul a.l4 w4
  let q1 := o.add p0 p1
  let q2 := o.add p2 p3
  let q3 := o.add q1 q2
  o.add q3 p4

/-- `multiply` (poly1305.cpp:139-150). -/
def multiply (a r s : Limbs α) : Limbs α :=
  ⟨dot o a r.l0 s.l4 s.l3 s.l2 s.l1,
   dot o a r.l1 r.l0 s.l4 s.l3 s.l2,
   dot o a r.l2 r.l1 r.l0 s.l4 s.l3,
   dot o a r.l3 r.l2 r.l1 r.l0 s.l4,
   dot o a r.l4 r.l3 r.l2 r.l1 r.l0⟩

/-- `reduce` (poly1305.cpp:152-179). -/
def reduce (d : Limbs α) : Limbs α :=
  let mask := o.bc limbMask
  let delta := o.bc primeDelta
  let c0 := o.shr d.l0
  let d1 := o.add d.l1 c0
  let c1 := o.shr d1
  let d2 := o.add d.l2 c1
  let c2 := o.shr d2
  let d3 := o.add d.l3 c2
  let c3 := o.shr d3
  let d4 := o.add d.l4 c3
  let c4 := o.shr d4
  let lo := o.and d.l0 mask
  let fo := o.mul c4 delta
  let d0 := o.add lo fo
  let c5 := o.shr d0
  ⟨o.and d0 mask, o.add (o.and d1 mask) c5, o.and d2 mask, o.and d3 mask, o.and d4 mask⟩

/-- Limb-wise addition (poly1305.cpp:330-334). -/
def addLimbs (a b : Limbs α) : Limbs α := ⟨o.add a.l0 b.l0, o.add a.l1 b.l1, o.add a.l2 b.l2, o.add a.l3 b.l3, o.add a.l4 b.l4⟩
end

/-- `load<Limb, xWord>` (poly1305.cpp:187-219): one block to each lane, `extra` added in lane zero. -/
def load (i : Nat) (data : Bytes) (hibit extra : Nat) : V := fun l =>
  if l = 0 then (extra + limb i data hibit) % 2 ^ 64 else limb i (data.drop (16 * l)) hibit

/-- The five loads (poly1305.cpp:309-313, 325-329). -/
def loadAll (data : Bytes) (hibit : Nat) (extra : Limbs Nat) : Limbs V :=
  ⟨load 0 data hibit extra.l0, load 1 data hibit extra.l1, load 2 data hibit extra.l2, load 3 data hibit extra.l3, load 4 data hibit extra.l4⟩

/-- The ladder of powers of r (poly1305.cpp:288-296): entry `power`. -/
def ladder (r s : Limbs Nat) : Nat → Limbs Nat
  | 0 => r
  | power + 1 => reduce wordOps (multiply wordOps (ladder r s power) r s)

/-- `descend` (poly1305.cpp:221-243): lane zero takes the highest power. -/
def descend (lanes : Nat) (entry : Nat → Nat) : V := fun l => entry (lanes - 1 - l)

/-- The five limbs of the descending powers (poly1305.cpp:340-344). -/
def descendAll (lanes : Nat) (ld : Nat → Limbs Nat) : Limbs V :=
  ⟨descend lanes fun k => (ld k).l0, descend lanes fun k => (ld k).l1, descend lanes fun k => (ld k).l2,
   descend lanes fun k => (ld k).l3, descend lanes fun k => (ld k).l4⟩

/-- `sum` (poly1305.cpp:245-276): the lanes added from the first, modulo 2^64. -/
def sum (lanes : Nat) (a : V) : Nat := (List.range lanes).foldl (fun t l => (t + a l) % 2 ^ 64) 0

/-- The loop over groups in `xblocks` (poly1305.cpp:318-337). -/
def xloop (lanes : Nat) (rn sn : Limbs V) (hibit : Nat) (data : Bytes) (blocks : Nat) (a : Limbs V) : Bytes × Nat × Limbs V :=
  if lanes ≤ blocks ∧ 0 < lanes then
    let a := reduce vecOps (multiply vecOps a rn sn)
    let m := loadAll data hibit ⟨0, 0, 0, 0, 0⟩
    xloop lanes rn sn hibit (data.drop (lanes * 16)) (blocks - lanes) (addLimbs vecOps a m)
  else (data, blocks, a)
termination_by blocks

/-- `xblocks` (poly1305.cpp:278-358), where the vector is available. -/
def xblocks (lanes : Nat) (data : Bytes) (blocks hibit : Nat) (r s h : Limbs Nat) : Bytes × Nat × Limbs Nat :=
  if 2 * lanes ≤ blocks then
    let top := ladder r s (lanes - 1)
    let rn : Limbs V := ⟨vecOps.bc top.l0, vecOps.bc top.l1, vecOps.bc top.l2, vecOps.bc top.l3, vecOps.bc top.l4⟩
    let sn := scale vecOps rn
    let a := loadAll data hibit h
    let (data, blocks, a) := xloop lanes rn sn hibit (data.drop (lanes * 16)) (blocks - lanes) a
    let w := descendAll lanes (ladder r s)
    let sw := scale vecOps w
    let xd := multiply vecOps a w sw
    let d : Limbs Nat := ⟨sum lanes xd.l0, sum lanes xd.l1, sum lanes xd.l2, sum lanes xd.l3, sum lanes xd.l4⟩
    (data, blocks, reduce wordOps d)
  else (data, blocks, h)

/-- The scalar loop of `blocks` (poly1305.cpp:374-389). -/
def scalarLoop (hibit : Nat) (r s : Limbs Nat) : Nat → Bytes → Limbs Nat → Limbs Nat
  | 0, _, h => h
  | n + 1, data, h =>
    let h := addLimbs wordOps h ⟨limb 0 data hibit, limb 1 data hibit, limb 2 data hibit, limb 3 data hibit, limb 4 data hibit⟩
    scalarLoop hibit r s n (data.drop 16) (reduce wordOps (multiply wordOps h r s))

/-- The instructions the library is compiled for. Used for poly1305.cpp:363-396. -/
structure Build where
  have512 : Bool
  have256 : Bool
  have128 : Bool

/-- The members of `poly1305` (poly1305.hpp:111-116). -/
structure Mac where
  r : Limbs Nat
  h : Limbs Nat
  pad : List Nat
  buffer : Bytes
  offset : Nat

/-- `narrow_cast<uint32_t>` of each limb (poly1305.cpp:391-395). -/
def narrow (h : Limbs Nat) : Limbs Nat := ⟨h.l0 % 2 ^ 32, h.l1 % 2 ^ 32, h.l2 % 2 ^ 32, h.l3 % 2 ^ 32, h.l4 % 2 ^ 32⟩

/-- `blocks` (poly1305.cpp:363-396). -/
def blocks (b : Build) (m : Mac) (data : Bytes) (n hibit : Nat) : Mac :=
  let s := scale wordOps m.r
  let (data, n, h) := if b.have512 then xblocks 8 data n hibit m.r s m.h else (data, n, m.h)
  let (data, n, h) := if b.have256 then xblocks 4 data n hibit m.r s h else (data, n, h)
  let (data, n, h) := if b.have128 then xblocks 2 data n hibit m.r s h else (data, n, h)
  { m with h := narrow (scalarLoop hibit m.r s n data h) }

/-- The constructor (poly1305.cpp:65-86). -/
def construct (key : Bytes) : Mac where
  r := ⟨(word key 0 >>> 0) &&& 0x03ffffff, (word key 3 >>> 2) &&& 0x03ffff03, (word key 6 >>> 4) &&& 0x03ffc0ff,
        (word key 9 >>> 6) &&& 0x03f03fff, (word key 12 >>> 8) &&& 0x000fffff⟩
  h := ⟨0, 0, 0, 0, 0⟩
  pad := [word key 16, word key 20, word key 24, word key 28]
  buffer := List.replicate 16 0
  offset := 0

/-- `std::copy_n(bytes, n, std::next(buffer_.begin(), at))`. Used for poly1305.cpp:398-430. -/
def copyAt (buffer : Bytes) (at' : Nat) (src : Bytes) : Bytes := buffer.take at' ++ src ++ buffer.drop (at' + src.length)

/-- `write` (poly1305.cpp:398-430). -/
def write (b : Build) (m : Mac) (data : Bytes) : Mac :=
  let (m, data) :=
    if m.offset ≠ 0 then
      let fill := min data.length (16 - m.offset)
      let m := { m with buffer := copyAt m.buffer m.offset (data.take fill), offset := m.offset + fill }
      let data := data.drop fill
      if m.offset = 16 then ({ blocks b m m.buffer 1 highBit with offset := 0 }, data) else (m, data)
    else (m, data)
  if data.length ≠ 0 then
    let whole := data.length / 16
    let m := blocks b m data whole highBit
    let data := data.drop (whole * 16)
    { m with buffer := copyAt m.buffer 0 data, offset := data.length }
  else m

/-- `uint32_t` addition. -/
def add32 (a b : Nat) : Nat := (a + b) % 2 ^ 32

/-- `flush` after the final block (poly1305.cpp:442-512): full carry, subtraction of the prime if it is not greater, the low 128
bits and the addition of the second half of the key. -/
def finish (h : Limbs Nat) (pad : List Nat) : Bytes :=
  let h0 := h.l0
  let h1 := h.l1
  let h2 := h.l2
  let h3 := h.l3
  let h4 := h.l4
  let carry := h1 >>> 26
  let h1 := h1 &&& limbMask
  let h2 := add32 h2 carry
  let carry := h2 >>> 26
  let h2 := h2 &&& limbMask
  let h3 := add32 h3 carry
  let carry := h3 >>> 26
  let h3 := h3 &&& limbMask
  let h4 := add32 h4 carry
  let carry := h4 >>> 26
  let h4 := h4 &&& limbMask
  let h0 := add32 h0 (carry * primeDelta % 2 ^ 32)
  let carry := h0 >>> 26
  let h0 := h0 &&& limbMask
  let h1 := add32 h1 carry
  let g0 := add32 h0 primeDelta
  let carry := g0 >>> 26
  let g0 := g0 &&& limbMask
  let g1 := add32 h1 carry
  let carry := g1 >>> 26
  let g1 := g1 &&& limbMask
  let g2 := add32 h2 carry
  let carry := g2 >>> 26
  let g2 := g2 &&& limbMask
  let g3 := add32 h3 carry
  let carry := g3 >>> 26
  let g3 := g3 &&& limbMask
  let g4 := (add32 h4 carry + 2 ^ 32 - 0x04000000) % 2 ^ 32
  let mask := (g4 >>> 31 + 2 ^ 32 - 1) % 2 ^ 32
  let g0 := g0 &&& mask
  let g1 := g1 &&& mask
  let g2 := g2 &&& mask
  let g3 := g3 &&& mask
  let g4 := g4 &&& mask
  let mask := 2 ^ 32 - 1 - mask
  let h0 := (h0 &&& mask) ||| g0
  let h1 := (h1 &&& mask) ||| g1
  let h2 := (h2 &&& mask) ||| g2
  let h3 := (h3 &&& mask) ||| g3
  let h4 := (h4 &&& mask) ||| g4
  let h0 := (h0 >>> 0) ||| (h1 <<< 26 % 2 ^ 32)
  let h1 := (h1 >>> 6) ||| (h2 <<< 20 % 2 ^ 32)
  let h2 := (h2 >>> 12) ||| (h3 <<< 14 % 2 ^ 32)
  let h3 := (h3 >>> 18) ||| (h4 <<< 8 % 2 ^ 32)
  let f := (h0 + pad.getD 0 0) % 2 ^ 64
  let h0 := f % 2 ^ 32
  let f := (h1 + pad.getD 1 0 + f >>> 32) % 2 ^ 64
  let h1 := f % 2 ^ 32
  let f := (h2 + pad.getD 2 0 + f >>> 32) % 2 ^ 64
  let h2 := f % 2 ^ 32
  let f := (h3 + pad.getD 3 0 + f >>> 32) % 2 ^ 64
  let h3 := f % 2 ^ 32
  leBytes 4 h0 ++ leBytes 4 h1 ++ leBytes 4 h2 ++ leBytes 4 h3

/-- `flush` (poly1305.cpp:432-513). -/
def flush (b : Build) (m : Mac) : Bytes :=
  let m :=
    if m.offset ≠ 0 then
      let buffer := m.buffer.set m.offset 1
      let offset := m.offset + 1
      let buffer := copyAt buffer offset (List.replicate (16 - offset) 0)
      blocks b { m with buffer := buffer, offset := offset } buffer 1 0
    else m
  finish m.h m.pad

end Verif.Poly
