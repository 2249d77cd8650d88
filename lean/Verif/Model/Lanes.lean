import Verif.Model.Native
import Verif.Model.Merkle
/-!
# SHA-256 of several blocks at once, in the lanes of vector registers

The functions of `sha::algorithm` are templates over the word type: `auto` is a word, or a vector register (`xWord`) of 4, 8 or 16 words. Here they
are written over an abstract word type with the functions of namespace `f` it uses, instantiated with words (`Ops.scalar`) and with registers
(`Ops.vector`). SHA-256 only: merkle hashing is used with no other (include/bitcoin/system/impl/hash/functions.ipp:199-202).
-/
namespace Verif.Lanes
open Verif Verif.Sha

/-- The functions of namespace `f` used by the templates. Used for intel_128.hpp:32-145. -/
structure Ops (W : Type) where
  /-- Value initialized. -/
  zero : W
  xor : W → W → W
  and : W → W → W
  or : W → W → W
  add : W → W → W
  addc : BitVec 32 → W → W
  ror : Nat → W → W
  shr : Nat → W → W

/-- Words (include/bitcoin/system/intrinsics/none/none_128.hpp and impl/math: operators of the integer type). -/
def Ops.scalar : Ops (BitVec 32) where
  zero := 0
  xor := fun a b => a ^^^ b
  and := fun a b => a &&& b
  or := fun a b => a ||| b
  add := fun a b => a + b
  addc := fun k a => a + k
  ror := fun n a => a.rotateRight n
  shr := fun n a => a >>> n

/-- A register of `L` lanes. Used for intel_128.hpp:32-145. -/
abbrev Reg (L : Nat) := Fin L → BitVec 32

/-- Registers (include/bitcoin/system/intrinsics/intel/intel_128.hpp:32-145, with the like of intel_256.hpp, intel_512.hpp and neon_128.hpp): the
instructions compute lane by lane; `ror` is two shifts (no rotation of SHA-256 is by whole bytes). -/
def Ops.vector (L : Nat) : Ops (Reg L) where
  zero := fun _ => 0
  xor := fun a b i => a i ^^^ b i
  and := fun a b i => a i &&& b i
  or := fun a b i => a i ||| b i
  add := fun a b i => a i + b i
  addc := fun k a i => a i + k
  ror := fun n a i => (a i >>> n) ||| (a i <<< (32 - n))
  shr := fun n a i => a i >>> n

section
variable {W : Type} (o : Ops W)

/-- Array read. Used for algorithm_schedule.ipp:33-52. -/
def get (l : List W) (i : Nat) : W := l.getD i o.zero

/-- `choice` (algorithm_functions.ipp:44-51). -/
def choice (x y z : W) : W := o.xor (o.and x (o.xor y z)) z
/-- `majority` (algorithm_functions.ipp:53-60). -/
def majority (x y z : W) : W := o.or (o.and x (o.or y z)) (o.and y z)
/-- `sigma<A, B, C>` (algorithm_functions.ipp:62-70). -/
def sigma (A B C : Nat) (x : W) : W := o.xor (o.xor (o.ror A x) (o.ror B x)) (o.shr C x)
/-- `Sigma<A, B, C>` (algorithm_functions.ipp:72-105). -/
def Sigma (A B C : Nat) (x : W) : W := o.ror A (o.xor (o.ror (B - A) (o.xor (o.ror (C - B) x) x)) x)

/-- `prepare<Round>` (algorithm_schedule.ipp:33-52), with `sigma0` and `sigma1` of strength 256 (algorithm_functions.ipp:111-129). -/
def prepare (buffer : List W) (r : Nat) : List W :=
  buffer.set r (o.add (o.add (get o buffer (r - 16)) (sigma o 7 18 3 (get o buffer (r - 15))))
    (o.add (get o buffer (r - 7)) (sigma o 17 19 10 (get o buffer (r - 2)))))

/-- `konstant<Round>` (algorithm_konstant.ipp:34-41). -/
def konstant1 (buffer : List W) (r : Nat) : List W := buffer.set r (o.addc (rd k256 r) (get o buffer r))

/-- `schedule_` (algorithm_schedule.ipp:54-130), with `konstant` (algorithm_konstant.ipp:149-248). -/
def schedule (buffer : List W) : List W :=
  (List.range 64).foldl (konstant1 o) ((List.range' 16 48).foldl (prepare o) buffer)

/-- `round<Round>` (algorithm_compress.ipp:75-120), with `Sigma0` and `Sigma1` of strength 256 (algorithm_functions.ipp:131-149). -/
def round (wk : List W) (state : List W) (r : Nat) : List W :=
  let i := fun k => (64 + k - r) % 8
  let v := fun k => get o state (i k)
  let t := o.add (o.add (o.add (Sigma o 6 11 25 (v 4)) (choice o (v 4) (v 5) (v 6))) (v 7)) (get o wk r)
  (state.set (i 3) (o.add (v 3) t)).set (i 7) (o.add (o.add (Sigma o 2 13 22 (v 0)) (majority o (v 0) (v 1) (v 2))) t)

/-- One line of `summarize`. Used for algorithm_compress.ipp:122-238. -/
def summarize1 (inn out : List W) (i : Nat) : List W := out.set i (o.add (get o out i) (get o inn i))

/-- `compress_` with `summarize` (algorithm_compress.ipp:122-238). -/
def compress (state wk : List W) : List W :=
  [5, 6, 7].foldl (summarize1 o state) ((List.range 5).foldl (summarize1 o state) ((List.range 64).foldl (round o wk) state))

end

/-- `f::broadcast` (intel_128.hpp:185-199). -/
def broadcast (L : Nat) (x : BitVec 32) : Reg L := fun _ => x

/-- `pack<Word>` of the blocks (algorithm_iterate.ipp:35-88): word `k` of block `i`, as loaded and then swapped, in lane `i`. -/
def packWord {L : Nat} (blocks : Fin L → Bytes) (k : Nat) : Reg L := fun i => Native.bswap (Native.leWord (blocks i) k)

/-- `xinput` (algorithm_iterate.ipp:90-115). -/
def xinput {L : Nat} (xbuffer : List (Reg L)) (blocks : Fin L → Bytes) : List (Reg L) :=
  setMany xbuffer 0 ((List.range 16).map (packWord blocks))

/-- `pack` of a state (algorithm_merkle.ipp:255-270). -/
def packState (L : Nat) (state : List (BitVec 32)) : List (Reg L) := (List.range 8).map fun k => broadcast L (rd state k)

/-- `schedule_1` of registers: `pack_schedule_1` of `scheduled_pad<1>` (algorithm_merkle.ipp:55-229, 240-248). -/
def schedule1 (L : Nat) : List (Reg L) := (List.range 64).map fun k => broadcast L (rd (Sha.scheduledPad Sha.sha256 1) k)

/-- `inject_left_half` of a state of registers (algorithm_midstate.ipp:33-53). -/
def injectLeftHalf {L : Nat} (xbuffer xstate : List (Reg L)) : List (Reg L) :=
  setMany xbuffer 0 ((List.range 8).map (get (Ops.vector L) xstate))

/-- `pad_half` of registers: `pack_pad_half` of `chunk_pad` (algorithm_merkle.ipp:36-53, 231-238; algorithm_padding.ipp:152-163). -/
def padHalf {L : Nat} (xbuffer : List (Reg L)) : List (Reg L) :=
  setMany xbuffer 8 ((bitHi 32 :: List.replicate 6 0 ++ [BitVec.ofNat 32 (8 * wordBytes 32 * 8)]).map (broadcast L))

/-- `unpack<Lane>` (algorithm_merkle.ipp:272-289): the lane of each register, swapped, as bytes in memory. -/
def unpack {L : Nat} (xstate : List (Reg L)) (i : Fin L) : Bytes :=
  (List.range 8).flatMap fun k => leBytes 4 (Native.bswap (get (Ops.vector L) xstate k i)).toNat

/-- The body of the loop of `merkle_hash_vector<xWord>` (algorithm_merkle.ipp:364-382) up to `xoutput`: the digests of `L` blocks, and the
buffer left for the next iteration. -/
def hashLanes {L : Nat} (xbuffer : List (Reg L)) (blocks : Fin L → Bytes) : (Fin L → Bytes) × List (Reg L) :=
  let initial := packState L Sha.sha256.H
  let xbuffer := schedule (Ops.vector L) (xinput xbuffer blocks)
  let xstate := compress (Ops.vector L) initial xbuffer
  let xbuffer := schedule1 L
  let xstate := compress (Ops.vector L) xstate xbuffer
  let xbuffer := schedule (Ops.vector L) (padHalf (injectLeftHalf xbuffer xstate))
  let xstate := compress (Ops.vector L) initial xbuffer
  (unpack xstate, xbuffer)

/-- The digests memory as blocks: block `k` is digests `2k` and `2k + 1` (`iblocks_t` of the same memory, algorithm_merkle.ipp:396-401). -/
def blockAt (d : List Bytes) (k : Nat) : Bytes := d.getD (2 * k) [] ++ d.getD (2 * k + 1) []

/-- `merkle_hash_vector<xWord>(digests, blocks)` (algorithm_merkle.ipp:344-387), in place: while at least `L` blocks remain from block `next`. -/
def vectorRound (L : Nat) : Nat → List (Reg L) → Nat → List Bytes → Nat × List Bytes
  | 0, _, next, d => (next, d)
  | fuel + 1, xbuffer, next, d =>
    if L ≠ 0 ∧ d.length / 2 - next ≥ L then
      let r := hashLanes xbuffer fun i : Fin L => blockAt d (next + i)
      vectorRound L fuel r.2 (next + L) (setMany d next (List.ofFn r.1))
    else (next, d)

/-- What is compiled in: the native instructions, and 512, 256 and 128 bit registers. -/
structure Build where
  native : Option Native.Arch
  use512 : Bool
  use256 : Bool
  use128 : Bool
  /-- The other vectorizations (`Sha.Build`). -/
  sha : Sha.Build

/-- `vector` (include/bitcoin/system/hash/sha/algorithm.hpp:463). -/
def Build.vector (b : Build) : Bool := b.use128 || b.use256 || b.use512

/-- `min_lanes` (algorithm.hpp:177-180). -/
def Build.minLanes (b : Build) : Nat := (if b.use128 then 16 else if b.use256 then 32 else if b.use512 then 64 else 0) / 4

/-- `double_hash(left, right)` (algorithm_double.ipp:160-199). -/
def Build.doubleHash (b : Build) (left right : Bytes) : Bytes :=
  match b.native with
  | some a => Native.doubleHashHalves a Sha.sha256 left right
  | none => Sha.doubleHashHalves b.sha Sha.sha256 left right

/-- A guarded call of `vectorRound` with a new buffer. Used for algorithm_merkle.ipp:389-421. -/
def vectorIf (use : Bool) (L : Nat) (x : Nat × List Bytes) : Nat × List Bytes :=
  if use then vectorRound L x.2.length (List.replicate 64 fun _ => 0) x.1 x.2 else x

/-- `merkle_hash_vector(digests)` (algorithm_merkle.ipp:389-421). -/
def merkleHashVector (b : Build) (d : List Bytes) : Option (List Bytes) :=
  if d.length ≥ b.minLanes * 2 then
    let x := vectorIf b.use512 16 (0, d)
    let x := vectorIf (b.use256 && b.native.isNone) 8 x
    let x := vectorIf (b.use128 && b.native.isNone) 4 x
    Merkle.merkleHashFrom b.doubleHash x.2 x.1
  else Merkle.merkleHashFrom b.doubleHash d 0

/-- `merkle_hash` (algorithm_merkle.ipp:451-473). -/
def merkleHash (b : Build) (d : List Bytes) : Option (List Bytes) :=
  if b.vector then merkleHashVector b d else Merkle.merkleHashFrom b.doubleHash d 0

/-- The loop of `merkle_root` (algorithm_merkle.ipp:440-446); `fuel` as in `Merkle.rootLoop`. -/
def rootLoop (b : Build) : Nat → List Bytes → Option (List Bytes)
  | 0, d => if d.length = 1 then some d else none
  | fuel + 1, d => if d.length = 1 then some d else (merkleHash b (Merkle.evened d)).bind (rootLoop b fuel)

/-- `merkle_root` (algorithm_merkle.ipp:431-449). -/
def merkleRoot (b : Build) (d : List Bytes) : Option Bytes :=
  if d.length = 0 then some (List.replicate 32 0) else (rootLoop b d.length d).bind List.head?

end Verif.Lanes
