import Verif.Spec.Scrypt
import Verif.Model.HashFunctions
/-!
# scrypt

Models include/bitcoin/system/impl/hash/scrypt.ipp, and `scrypt_hash` (impl/hash/functions.ipp). An allocation can fail; which ones do is
a parameter. Arrays are lists of their fixed size, `array_cast` is the flat layout.
-/
namespace Verif.Scrypt
open Verif
open Verif.Sha (Build)

/-- `x[t] ^= std::rotl(x[a] + x[b], r)` (scrypt.ipp:265-303). -/
def assign (x : List (BitVec 32)) (s : Nat × Nat × Nat × Nat) : List (BitVec 32) :=
  x.set s.1 (x.getD s.1 0 ^^^ (x.getD s.2.1 0 + x.getD s.2.2.1 0).rotateLeft s.2.2.2)

/-- The statements of the loop of `salsa_8` (scrypt.ipp:264-304). -/
def statements : List (Nat × Nat × Nat × Nat) := [
  (4, 0, 12, 7), (8, 4, 0, 9), (12, 8, 4, 13), (0, 12, 8, 18),
  (9, 5, 1, 7), (13, 9, 5, 9), (1, 13, 9, 13), (5, 1, 13, 18),
  (14, 10, 6, 7), (2, 14, 10, 9), (6, 2, 14, 13), (10, 6, 2, 18),
  (3, 15, 11, 7), (7, 3, 15, 9), (11, 7, 3, 13), (15, 11, 7, 18),
  (1, 0, 3, 7), (2, 1, 0, 9), (3, 2, 1, 13), (0, 3, 2, 18),
  (6, 5, 4, 7), (7, 6, 5, 9), (4, 7, 6, 13), (5, 4, 7, 18),
  (11, 10, 9, 7), (8, 11, 10, 9), (9, 8, 11, 13), (10, 9, 8, 18),
  (12, 15, 14, 7), (13, 12, 15, 9), (14, 13, 12, 13), (15, 14, 13, 18)]

/-- `salsa_qr<A, B, C, D>` (scrypt.ipp:183-195). -/
def salsaQr (x : List (BitVec 32)) (q : Nat × Nat × Nat × Nat) : List (BitVec 32) :=
  [(q.2.1, q.1, q.2.2.2, 7), (q.2.2.1, q.2.1, q.1, 9), (q.2.2.2, q.2.2.1, q.2.1, 13), (q.1, q.2.2.2, q.2.2.1, 18)].foldl assign x

/-- Two rounds of the form with `USE_QUARTER_ROUNDS` (scrypt.ipp:213-222, repeated in 224-258). -/
def quarters : List (Nat × Nat × Nat × Nat) := [
  (0, 4, 8, 12), (5, 9, 13, 1), (10, 14, 2, 6), (15, 3, 7, 11),
  (0, 1, 2, 3), (5, 6, 7, 4), (10, 11, 8, 9), (15, 12, 13, 14)]

/-- The rounds of `salsa_8` (scrypt.ipp:211-305), in the form chosen when building. -/
def rounds (quarter : Bool) (x : List (BitVec 32)) : List (BitVec 32) :=
  if quarter then (quarters ++ quarters ++ quarters ++ quarters).foldl salsaQr x
  else (List.range 4).foldl (fun x _ => statements.foldl assign x) x

/-- `salsa_8` (scrypt.ipp:197-312), with `add` (56-81). -/
def salsa8 (quarter : Bool) (block : Bytes) : Bytes :=
  let save := (List.range 16).map fun i => BitVec.ofNat 32 (leNat ((block.drop (4 * i)).take 4))
  let words := rounds quarter save
  (List.zipWith (· + ·) words save).flatMap fun w => leBytes 4 w.toNat

/-- `xor_` of blocks (scrypt.ipp:83-156). -/
def xorBlock (to source : Bytes) : Bytes := List.zipWith (· ^^^ ·) to source

/-- Element of an array of blocks. Used for scrypt.ipp:404-409. -/
def at_ (B : List Bytes) (i : Nat) : Bytes := B.getD i []

/-- The first loop of `block_mix` (scrypt.ipp:404-409) from `i`, for `n` iterations: rblock, yblock, xblock. -/
def evenOdd (H : Bytes → Bytes) : Nat → Nat → List Bytes → List Bytes → Bytes → List Bytes × List Bytes × Bytes
  | 0, _, B, Y, x => (B, Y, x)
  | n + 1, i, B, Y, x =>
    let x := H (xorBlock x (at_ B (2 * i)))
    let B := B.set i x
    let x := H (xorBlock x (at_ B (2 * i + 1)))
    let Y := Y.set i x
    evenOdd H n (i + 1) B Y x

/-- The last loop of `block_mix` (scrypt.ipp:418-425) from `i`, for `n` iterations. -/
def relocate (r : Nat) : Nat → Nat → List Bytes → List Bytes → List Bytes
  | 0, _, B, _ => B
  | n + 1, i, B, Y => relocate r n (i + 1) (B.set (r + i) (at_ Y i)) Y

/-- `block_mix` in the form that is built (scrypt.ipp:315-430, `BLOCK_MIX_OPTIMAL_FORM`), of `2 r` blocks. -/
def blockMix (H : Bytes → Bytes) (r : Nat) (ok : Bool) (B : List Bytes) : Bool × List Bytes :=
  if !ok then (false, B)
  else
    let x := at_ B (2 * r - 1)
    let (B, Y, x) := evenOdd H (r - 1) 0 B (List.replicate (r - 1) (List.replicate 64 0)) x
    let x := H (xorBlock x (at_ B (2 * r - 1 - 1)))
    let B := B.set (r - 1) x
    let B := B.set (2 * r - 1) (H (xorBlock (at_ B (2 * r - 1)) x))
    (true, relocate r (r - 1) 0 B Y)

/-- `xor_` of arrays of blocks (scrypt.ipp:158-166). -/
def xorBlocks (to source : List Bytes) : List Bytes := List.zipWith xorBlock to source

/-- `index` (scrypt.ipp:168-181): the first eight bytes of the last block. -/
def index (w r : Nat) (B : List Bytes) : Nat := leNat ((at_ B (2 * r - 1)).take 8) % w

/-- The first loop of `romix` (scrypt.ipp:450-455) from `i`, for `n` iterations: success, wrblocks, rblock. -/
def fill (mix : Bool → List Bytes → Bool × List Bytes) (alloc : Nat → Bool) :
    Nat → Nat → List (List Bytes) → List Bytes → Bool × List (List Bytes) × List Bytes
  | 0, _, V, X => (true, V, X)
  | n + 1, i, V, X =>
    let V := V.set i X
    match mix (alloc i) X with
    | (false, X) => (false, V, X)
    | (true, X) => fill mix alloc n (i + 1) V X

/-- The second loop of `romix` (scrypt.ipp:463-465) from `i`, for `n` iterations. -/
def stir (mix : Bool → List Bytes → Bool × List Bytes) (idx : List Bytes → Nat) (alloc : Nat → Bool) (V : List (List Bytes)) :
    Nat → Nat → List Bytes → Bool × List Bytes
  | 0, _, X => (true, X)
  | n + 1, i, X =>
    match mix (alloc i) (xorBlocks X (V.getD (idx X) [])) with
    | (false, X) => (false, X)
    | (true, X) => stir mix idx alloc V n (i + 1) X

/-- Which allocations succeed: of `prblocks`, of `wrblocks` and in each `block_mix` for each of the `P` blocks. Used for scrypt.ipp:502-506. -/
structure Memory where
  blocks : Bool
  rom : Nat → Bool
  mix : Nat → Nat → Bool

/-- There is memory. -/
def Memory.enough : Memory := ⟨true, fun _ => true, fun _ _ => true⟩

/-- `romix` (scrypt.ipp:432-468). -/
def romix (H : Bytes → Bytes) (w r : Nat) (rom : Bool) (alloc : Nat → Bool) (B : List Bytes) : Bool × List Bytes :=
  if !rom then (false, B)
  else
    let mix := fun ok B => blockMix H r ok B
    match fill mix alloc w 0 (List.replicate w []) B with
    | (false, _, X) => (false, X)
    | (true, V, X) => stir mix (index w r) (fun i => alloc (w + i)) V w 0 X

/-- The body of `for_each` (scrypt.ipp:502-506), for the block of the given position. -/
def visit (H : Bytes → Bytes) (w r : Nat) (m : Memory) (s : Bool × List (List Bytes)) (i : Nat) : Bool × List (List Bytes) :=
  if s.1 then
    let q := romix H w r (m.rom i) (m.mix i) (s.2.getD i [])
    (q.1, s.2.set i q.2)
  else s

variable (b : Build)

/-- `scrypt_derivation::key` with one iteration (scrypt.hpp:34, scrypt.ipp:495 and 510). -/
def derive (password salt : Bytes) (size : Nat) : Bytes := Hmac.pbkdKey (HashFn.acc256 b) true 32 size password salt 1

/-- `hash(out, password, salt)` (scrypt.ipp:473-512). `order` is the order in which the blocks are processed, which is that of the
positions if not concurrent; the blocks are distinct memory, so each is processed as one step. The flag that is gathered is not returned. -/
def hash (quarter : Bool) (w r p : Nat) (m : Memory) (order : List Nat) (password salt : Bytes) (size : Nat) : Option Bytes :=
  if !m.blocks then none
  else
    let bytes := derive b password salt (p * (2 * r * 64))
    let blocks := (List.range p).map fun k => (List.range (2 * r)).map fun i => (bytes.drop (2 * r * 64 * k + 64 * i)).take 64
    let done := order.foldl (visit (salsa8 quarter) w r m) (true, blocks)
    some (derive b password (done.2.flatMap List.flatten) size)

/-- `hash(password, salt)` (scrypt.ipp:514-522). -/
def hashValue (quarter : Bool) (w r p : Nat) (m : Memory) (order : List Nat) (password salt : Bytes) (size : Nat) : Bytes :=
  (hash b quarter w r p m order password salt size).getD (List.replicate size 0)

/-- `scrypt_hash` (impl/hash/functions.ipp:205-209). -/
def scryptHash (quarter : Bool) (m : Memory) (data : Bytes) : Bytes := hashValue b quarter 1024 1 1 m [0] data data 32

end Verif.Scrypt
