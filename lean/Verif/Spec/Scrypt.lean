import Verif.Spec.Mac
import Verif.Model.Stream
/-!
# scrypt (RFC 7914) over Salsa20/8 (Bernstein, "Salsa20 specification")
-/
namespace Verif.Spec.Scrypt
open Verif Verif.Spec.Mac

/-- `quarterround`. -/
def quarterround (y0 y1 y2 y3 : BitVec 32) : BitVec 32 × BitVec 32 × BitVec 32 × BitVec 32 :=
  let z1 := y1 ^^^ (y0 + y3).rotateLeft 7
  let z2 := y2 ^^^ (z1 + y0).rotateLeft 9
  let z3 := y3 ^^^ (z2 + z1).rotateLeft 13
  let z0 := y0 ^^^ (z3 + z2).rotateLeft 18
  (z0, z1, z2, z3)

/-- `rowround` of sixteen words. -/
def rowround : List (BitVec 32) → List (BitVec 32)
  | [y0, y1, y2, y3, y4, y5, y6, y7, y8, y9, y10, y11, y12, y13, y14, y15] =>
    let (z0, z1, z2, z3) := quarterround y0 y1 y2 y3
    let (z5, z6, z7, z4) := quarterround y5 y6 y7 y4
    let (z10, z11, z8, z9) := quarterround y10 y11 y8 y9
    let (z15, z12, z13, z14) := quarterround y15 y12 y13 y14
    [z0, z1, z2, z3, z4, z5, z6, z7, z8, z9, z10, z11, z12, z13, z14, z15]
  | y => y

/-- `columnround` of sixteen words. -/
def columnround : List (BitVec 32) → List (BitVec 32)
  | [x0, x1, x2, x3, x4, x5, x6, x7, x8, x9, x10, x11, x12, x13, x14, x15] =>
    let (y0, y4, y8, y12) := quarterround x0 x4 x8 x12
    let (y5, y9, y13, y1) := quarterround x5 x9 x13 x1
    let (y10, y14, y2, y6) := quarterround x10 x14 x2 x6
    let (y15, y3, y7, y11) := quarterround x15 x3 x7 x11
    [y0, y1, y2, y3, y4, y5, y6, y7, y8, y9, y10, y11, y12, y13, y14, y15]
  | x => x

def doubleround (x : List (BitVec 32)) : List (BitVec 32) := rowround (columnround x)

/-- The Salsa20/8 core: sixteen little-endian words, four double rounds, the input added. -/
def salsa208 (block : Octets) : Octets :=
  let x := (List.range 16).map fun i => BitVec.ofNat 32 (leNat ((block.drop (4 * i)).take 4))
  let z := doubleround (doubleround (doubleround (doubleround x)))
  (List.zipWith (· + ·) z x).flatMap fun w => leBytes 4 w.toNat

/-- `Y[i] = Salsa(Y[i - 1] xor B[i])`, where `Y[-1] = X`. -/
def mixY (X : Octets) (B : Nat → Octets) : Nat → Octets
  | 0 => salsa208 (xor X (B 0))
  | i + 1 => salsa208 (xor (mixY X B i) (B (i + 1)))

/-- `scryptBlockMix` of `2 r` blocks of 64 octets: the even `Y` and then the odd ones. -/
def blockMix (r : Nat) (B : List Octets) : List Octets :=
  let Y := mixY (B.getD (2 * r - 1) []) (fun i => B.getD i [])
  (List.range r).map (fun i => Y (2 * i)) ++ (List.range r).map (fun i => Y (2 * i + 1))

/-- `f` applied `n` times. -/
def times {α : Type} (f : α → α) : Nat → α → α
  | 0, x => x
  | n + 1, x => f (times f n x)

/-- `Integerify`: the last block as a little-endian integer. -/
def integerify (r : Nat) (B : List Octets) : Nat := leNat (B.getD (2 * r - 1) [])

/-- `scryptROMix`, with `V[j]` the `j`-th iterate. -/
def roMix (r N : Nat) (B : List Octets) : List Octets :=
  let V := fun j => times (blockMix r) j B
  times (fun X => blockMix r (List.zipWith xor X (V (integerify r X % N)))) N (times (blockMix r) N B)

/-- `n` consecutive strings of `size` octets. -/
def cut (size n : Nat) (d : Octets) : List Octets := (List.range n).map fun i => (d.drop (size * i)).take size

/-- PBKDF2-HMAC-SHA256 with one iteration. -/
def derive (P S : Octets) (dkLen : Nat) : Octets := pbkdf2 (hmac Hash.sha256.digest 64) 32 P S 1 dkLen

/-- `scrypt(P, S, N, r, p, dkLen)`. -/
def scrypt (P S : Octets) (N r p dkLen : Nat) : Octets :=
  let B := cut (128 * r) p (derive P S (p * 128 * r))
  derive P (B.flatMap fun b => (roMix r N (cut 64 (2 * r) b)).flatten) dkLen

end Verif.Spec.Scrypt
