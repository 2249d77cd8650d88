/-!
# Specification of the hash functions, independent of the implementation

FIPS 180-4 (SHA-1, SHA-224, SHA-256, SHA-384, SHA-512) and the RIPEMD-160 report of Dobbertin, Bosselaers and Preneel
(RIPEMD-128, RIPEMD-160), on messages that are byte strings.
-/
namespace Verif.Spec.Hash

/-- Big-endian value of a byte string. -/
def beVal (bs : List UInt8) : Nat := bs.foldl (fun n b => 256 * n + b.toNat) 0

/-- Little-endian value of a byte string. -/
def leVal (bs : List UInt8) : Nat := beVal bs.reverse

/-- The `n` byte big-endian representation of `v`. -/
def beRep (n v : Nat) : List UInt8 := (List.range n).map fun i => UInt8.ofNat (v / 256 ^ (n - 1 - i))

/-- The `n` byte little-endian representation of `v`. -/
def leRep (n v : Nat) : List UInt8 := (List.range n).map fun i => UInt8.ofNat (v / 256 ^ i)

/-! ### Padding and iteration (FIPS 180-4 sections 5.1 and 6; RIPEMD uses the same with a little-endian length) -/

/-- The number of zero bytes after the 0x80 byte: the least that makes the padded length a multiple of the block size
(`zeros_spec` below), for a message of `len` bytes. -/
def zeros (block count len : Nat) : Nat := (2 * block - (1 + count + len % block)) % block

/-- The padded message: `1` bit, zero bits, and the length in bits. -/
def padded (block count : Nat) (rep : Nat → Nat → List UInt8) (m : List UInt8) : List UInt8 :=
  m ++ [0x80] ++ List.replicate (zeros block count m.length) 0 ++ rep count (8 * m.length)

/-- `H(i+1) = compress (H i) (block i)`, over the blocks of a message of whole blocks. -/
def iterate {σ : Type} (block : Nat) (compress : σ → List UInt8 → σ) (h0 : σ) (m : List UInt8) : σ :=
  (List.range (m.length / block)).foldl (fun h i => compress h ((m.drop (i * block)).take block)) h0

/-! ### Constants -/

/-- The largest `r < 2 ^ bits` with `r ^ k ≤ n` above `acc`, one bit at a time. -/
def rootFrom (k n acc : Nat) : Nat → Nat
  | 0 => acc
  | b + 1 => rootFrom k n (if (acc + 2 ^ b) ^ k ≤ n then acc + 2 ^ b else acc) b

/-- Floor of the `k`-th root of `n`, for roots below `2 ^ 128`. -/
def root (k n : Nat) : Nat := rootFrom k n 0 128

/-- The first `bits` bits of the fractional part of the `k`-th root of `p`. -/
def fracRoot (k bits p : Nat) : Nat := root k (p * 2 ^ (k * bits)) % 2 ^ bits

/-- Primality by trial division. -/
def isPrime (n : Nat) : Bool := 2 ≤ n && (List.range n).all fun d => d < 2 || n % d != 0

/-- The first eighty primes. -/
def primes : List Nat := (List.range 410).filter isPrime

/-! ### SHA-2 -/

/-- What distinguishes the SHA-2 functions: word size, rounds, rotation amounts, constants, and digest size. -/
structure Sha2 (w : Nat) where
  rounds : Nat
  /-- ROTR amounts of the two upper case sigmas -/
  big0 : Nat × Nat × Nat
  big1 : Nat × Nat × Nat
  /-- ROTR, ROTR, SHR amounts of the two lower case sigmas -/
  small0 : Nat × Nat × Nat
  small1 : Nat × Nat × Nat
  K : List (BitVec w)
  H : List (BitVec w)
  digestBytes : Nat

variable {w : Nat}

/-- `Ch(x, y, z)`. -/
def Ch (x y z : BitVec w) : BitVec w := (x &&& y) ^^^ (~~~x &&& z)
/-- `Maj(x, y, z)`. -/
def Maj (x y z : BitVec w) : BitVec w := (x &&& y) ^^^ (x &&& z) ^^^ (y &&& z)
/-- `Parity(x, y, z)`. -/
def Parity (x y z : BitVec w) : BitVec w := x ^^^ y ^^^ z

/-- `ROTR^a(x) ⊕ ROTR^b(x) ⊕ ROTR^c(x)`. -/
def bigSigma (t : Nat × Nat × Nat) (x : BitVec w) : BitVec w := x.rotateRight t.1 ^^^ x.rotateRight t.2.1 ^^^ x.rotateRight t.2.2
/-- `ROTR^a(x) ⊕ ROTR^b(x) ⊕ SHR^c(x)`. -/
def smallSigma (t : Nat × Nat × Nat) (x : BitVec w) : BitVec w := x.rotateRight t.1 ^^^ x.rotateRight t.2.1 ^^^ (x >>> t.2.2)

/-- Word `t` of a block, big-endian. -/
def beWord (w : Nat) (block : List UInt8) (t : Nat) : BitVec w := BitVec.ofNat w (beVal ((block.drop (t * (w / 8))).take (w / 8)))

/-- The message schedule `W_t` (FIPS 180-4 6.2.2 and 6.4.2 step 1). -/
def Sha2.W (p : Sha2 w) (M : Nat → BitVec w) (t : Nat) : BitVec w :=
  if t < 16 then M t
  else smallSigma p.small1 (p.W M (t - 2)) + p.W M (t - 7) + smallSigma p.small0 (p.W M (t - 15)) + p.W M (t - 16)
termination_by t

/-- The working variables. -/
structure Vars (w : Nat) where
  a : BitVec w
  b : BitVec w
  c : BitVec w
  d : BitVec w
  e : BitVec w
  f : BitVec w
  g : BitVec w
  h : BitVec w

/-- One step of the compression (6.2.2 and 6.4.2 step 3). -/
def Sha2.step (p : Sha2 w) (M : Nat → BitVec w) (v : Vars w) (t : Nat) : Vars w :=
  let T1 := v.h + bigSigma p.big1 v.e + Ch v.e v.f v.g + p.K.getD t 0 + p.W M t
  let T2 := bigSigma p.big0 v.a + Maj v.a v.b v.c
  ⟨T1 + T2, v.a, v.b, v.c, v.d + T1, v.e, v.f, v.g⟩

/-- The intermediate hash value after a block (6.2.2 and 6.4.2). -/
def Sha2.compress (p : Sha2 w) (h : Vars w) (block : List UInt8) : Vars w :=
  let v := (List.range p.rounds).foldl (p.step (beWord w block)) h
  ⟨h.a + v.a, h.b + v.b, h.c + v.c, h.d + v.d, h.e + v.e, h.f + v.f, h.g + v.g, h.h + v.h⟩

/-- The eight words of a list. -/
def Vars.ofList (l : List (BitVec w)) : Vars w :=
  ⟨l.getD 0 0, l.getD 1 0, l.getD 2 0, l.getD 3 0, l.getD 4 0, l.getD 5 0, l.getD 6 0, l.getD 7 0⟩

/-- The words of a hash value, in order. -/
def Vars.toList (v : Vars w) : List (BitVec w) := [v.a, v.b, v.c, v.d, v.e, v.f, v.g, v.h]

/-- The digest of a message: the leftmost bytes of the final hash value. -/
def Sha2.digest (p : Sha2 w) (m : List UInt8) : List UInt8 :=
  let v := iterate (2 * w) p.compress (Vars.ofList p.H) (padded (2 * w) (w / 4) beRep m)
  (v.toList.flatMap fun x => beRep (w / 8) x.toNat).take p.digestBytes

/-- SHA-256: constants are the fractional parts of the cube (square) roots of the first primes. -/
def sha256 : Sha2 32 where
  rounds := 64
  big0 := (2, 13, 22)
  big1 := (6, 11, 25)
  small0 := (7, 18, 3)
  small1 := (17, 19, 10)
  K := (primes.take 64).map fun p => BitVec.ofNat 32 (fracRoot 3 32 p)
  H := (primes.take 8).map fun p => BitVec.ofNat 32 (fracRoot 2 32 p)
  digestBytes := 32

/-- SHA-224: the initial value is the second 32 bits of the fractional parts of the square roots of the 9th to 16th primes. -/
def sha224 : Sha2 32 := { sha256 with
  H := ((primes.drop 8).take 8).map fun p => BitVec.ofNat 32 (fracRoot 2 64 p)
  digestBytes := 28 }

/-- SHA-512. -/
def sha512 : Sha2 64 where
  rounds := 80
  big0 := (28, 34, 39)
  big1 := (14, 18, 41)
  small0 := (1, 8, 7)
  small1 := (19, 61, 6)
  K := (primes.take 80).map fun p => BitVec.ofNat 64 (fracRoot 3 64 p)
  H := (primes.take 8).map fun p => BitVec.ofNat 64 (fracRoot 2 64 p)
  digestBytes := 64

/-- SHA-384: the initial value is the fractional parts of the square roots of the 9th to 16th primes. -/
def sha384 : Sha2 64 := { sha512 with
  H := ((primes.drop 8).take 8).map fun p => BitVec.ofNat 64 (fracRoot 2 64 p)
  digestBytes := 48 }

/-- The initial value of SHA-512/t (5.3.6): the SHA-512 digest of the name, with every initial word exclusive-ored with
0xa5a5a5a5a5a5a5a5. -/
def ivOf (name : List UInt8) : List (BitVec 64) :=
  let d := ({ sha512 with H := sha512.H.map (· ^^^ 0xa5a5a5a5a5a5a5a5) } : Sha2 64).digest name
  (List.range 8).map (beWord 64 d)

/-- SHA-512/256, name "SHA-512/256". -/
def sha512_256 : Sha2 64 := { sha512 with
  H := ivOf [0x53, 0x48, 0x41, 0x2d, 0x35, 0x31, 0x32, 0x2f, 0x32, 0x35, 0x36]
  digestBytes := 32 }

/-- SHA-512/224, name "SHA-512/224". -/
def sha512_224 : Sha2 64 := { sha512 with
  H := ivOf [0x53, 0x48, 0x41, 0x2d, 0x35, 0x31, 0x32, 0x2f, 0x32, 0x32, 0x34]
  digestBytes := 28 }

/-! ### SHA-1 -/

/-- The SHA-1 message schedule (6.1.2 step 1). -/
def sha1W (M : Nat → BitVec 32) (t : Nat) : BitVec 32 :=
  if t < 16 then M t
  else (sha1W M (t - 3) ^^^ sha1W M (t - 8) ^^^ sha1W M (t - 14) ^^^ sha1W M (t - 16)).rotateLeft 1
termination_by t

/-- `f_t` (4.1.1). -/
def sha1F (t : Nat) (x y z : BitVec 32) : BitVec 32 :=
  if t < 20 then Ch x y z else if t < 40 then Parity x y z else if t < 60 then Maj x y z else Parity x y z

/-- `K_t` (4.2.1): `2 ^ 30` times the square root of 2, 3, 5 or 10. -/
def sha1K (t : Nat) : BitVec 32 :=
  BitVec.ofNat 32 (root 2 ((if t < 20 then 2 else if t < 40 then 3 else if t < 60 then 5 else 10) * 2 ^ 60))

/-- The five working variables. -/
structure Vars5 where
  a : BitVec 32
  b : BitVec 32
  c : BitVec 32
  d : BitVec 32
  e : BitVec 32

/-- One step (6.1.2 step 3). -/
def sha1Step (M : Nat → BitVec 32) (v : Vars5) (t : Nat) : Vars5 :=
  ⟨v.a.rotateLeft 5 + sha1F t v.b v.c v.d + v.e + sha1K t + sha1W M t, v.a, v.b.rotateLeft 30, v.c, v.d⟩

/-- One block (6.1.2). -/
def sha1Compress (h : Vars5) (block : List UInt8) : Vars5 :=
  let v := (List.range 80).foldl (sha1Step (beWord 32 block)) h
  ⟨h.a + v.a, h.b + v.b, h.c + v.c, h.d + v.d, h.e + v.e⟩

/-- The initial value of SHA-1 and RIPEMD-160 (5.3.1). -/
def iv5 : Vars5 := ⟨0x67452301, 0xefcdab89, 0x98badcfe, 0x10325476, 0xc3d2e1f0⟩

/-- The words of a hash value, in order. -/
def Vars5.toList (v : Vars5) : List (BitVec 32) := [v.a, v.b, v.c, v.d, v.e]

/-- SHA-1. -/
def sha1 (m : List UInt8) : List UInt8 :=
  (iterate 64 sha1Compress iv5 (padded 64 8 beRep m)).toList.flatMap fun x => beRep 4 x.toNat

/-! ### RIPEMD-160 and RIPEMD-128 -/

/-- Word `t` of a block, little-endian. -/
def leWord (block : List UInt8) (t : Nat) : BitVec 32 := BitVec.ofNat 32 (leVal ((block.drop (t * 4)).take 4))

/-- The permutation `ρ`. -/
def rho : List Nat := [7, 4, 13, 1, 10, 6, 15, 3, 12, 0, 9, 5, 2, 14, 11, 8]

/-- Message word of step `j` in the left line: round `k` applies `ρ` `k` times. -/
def rmdLeft (j : Nat) : Nat := (List.range (j / 16)).foldl (fun x _ => rho.getD x 0) (j % 16)
/-- Message word of step `j` in the right line: `π(i) = 9 i + 5 mod 16` first. -/
def rmdRight (j : Nat) : Nat := (List.range (j / 16)).foldl (fun x _ => rho.getD x 0) ((9 * (j % 16) + 5) % 16)

/-- Rotation amounts by round and message word. -/
def rmdShift : List (List Nat) := [
  [11, 14, 15, 12, 5, 8, 7, 9, 11, 13, 14, 15, 6, 7, 9, 8],
  [12, 13, 11, 15, 6, 9, 9, 7, 12, 15, 11, 13, 7, 8, 7, 7],
  [13, 15, 14, 11, 7, 7, 6, 8, 13, 14, 13, 12, 5, 5, 6, 9],
  [14, 11, 12, 14, 8, 6, 5, 5, 15, 12, 15, 14, 9, 9, 8, 6],
  [15, 12, 13, 13, 9, 5, 8, 6, 14, 11, 12, 11, 8, 6, 5, 5]]

/-- The boolean functions `f(0..15)`, `f(16..31)`, ... -/
def rmdF (i : Nat) (x y z : BitVec 32) : BitVec 32 :=
  if i = 0 then x ^^^ y ^^^ z
  else if i = 1 then (x &&& y) ||| (~~~x &&& z)
  else if i = 2 then (x ||| ~~~y) ^^^ z
  else if i = 3 then (x &&& z) ||| (y &&& ~~~z)
  else x ^^^ (y ||| ~~~z)

/-- Added constant of round `i`, left: zero, then `2 ^ 30` times the square root of 2, 3, 5, 7. -/
def rmdKLeft (i : Nat) : BitVec 32 := if i = 0 then 0 else BitVec.ofNat 32 (root 2 ([2, 3, 5, 7].getD (i - 1) 0 * 2 ^ 60))
/-- Added constant of round `i` of `n`, right: `2 ^ 30` times the cube root of 2, 3, 5, 7, and zero in the last round. -/
def rmdKRight (n i : Nat) : BitVec 32 := if i + 1 = n then 0 else BitVec.ofNat 32 (root 3 ([2, 3, 5, 7].getD i 0 * 2 ^ 90))

/-- One step of RIPEMD-160. -/
def rmd160Step (f : BitVec 32 → BitVec 32 → BitVec 32 → BitVec 32) (x k : BitVec 32) (s : Nat) (v : Vars5) : Vars5 :=
  ⟨v.e, (v.a + f v.b v.c v.d + x + k).rotateLeft s + v.e, v.b, v.c.rotateLeft 10, v.d⟩

/-- One block of RIPEMD-160: two lines of five rounds, combined. -/
def rmd160Compress (h : Vars5) (block : List UInt8) : Vars5 :=
  let X := leWord block
  let l := (List.range 80).foldl (fun v j => rmd160Step (rmdF (j / 16)) (X (rmdLeft j)) (rmdKLeft (j / 16))
    ((rmdShift.getD (j / 16) []).getD (rmdLeft j) 0) v) h
  let r := (List.range 80).foldl (fun v j => rmd160Step (rmdF (4 - j / 16)) (X (rmdRight j)) (rmdKRight 5 (j / 16))
    ((rmdShift.getD (j / 16) []).getD (rmdRight j) 0) v) h
  ⟨h.b + l.c + r.d, h.c + l.d + r.e, h.d + l.e + r.a, h.e + l.a + r.b, h.a + l.b + r.c⟩

/-- RIPEMD-160. -/
def rmd160 (m : List UInt8) : List UInt8 :=
  (iterate 64 rmd160Compress iv5 (padded 64 8 leRep m)).toList.flatMap fun x => leRep 4 x.toNat

/-- The four working variables of RIPEMD-128. -/
structure Vars4 where
  a : BitVec 32
  b : BitVec 32
  c : BitVec 32
  d : BitVec 32

/-- One step of RIPEMD-128. -/
def rmd128Step (f : BitVec 32 → BitVec 32 → BitVec 32 → BitVec 32) (x k : BitVec 32) (s : Nat) (v : Vars4) : Vars4 :=
  ⟨v.d, (v.a + f v.b v.c v.d + x + k).rotateLeft s, v.b, v.c⟩

/-- One block of RIPEMD-128: two lines of four rounds, combined. -/
def rmd128Compress (h : Vars4) (block : List UInt8) : Vars4 :=
  let X := leWord block
  let l := (List.range 64).foldl (fun v j => rmd128Step (rmdF (j / 16)) (X (rmdLeft j)) (rmdKLeft (j / 16))
    ((rmdShift.getD (j / 16) []).getD (rmdLeft j) 0) v) h
  let r := (List.range 64).foldl (fun v j => rmd128Step (rmdF (3 - j / 16)) (X (rmdRight j)) (rmdKRight 4 (j / 16))
    ((rmdShift.getD (j / 16) []).getD (rmdRight j) 0) v) h
  ⟨h.b + l.c + r.d, h.c + l.d + r.a, h.d + l.a + r.b, h.a + l.b + r.c⟩

/-- RIPEMD-128. -/
def rmd128 (m : List UInt8) : List UInt8 :=
  let v := iterate 64 rmd128Compress ⟨0x67452301, 0xefcdab89, 0x98badcfe, 0x10325476⟩ (padded 64 8 leRep m)
  [v.a, v.b, v.c, v.d].flatMap fun x => leRep 4 x.toNat

end Verif.Spec.Hash
