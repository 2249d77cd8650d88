import Verif.Model.Stream
/-!
# AES-256 (FIPS 197)
-/
namespace Verif.Spec.Aes
open Verif

/-- Multiplication by `x` in GF(2^8) modulo `x^8 + x^4 + x^3 + x + 1` (4.2). -/
def xtime (a : UInt8) : UInt8 := if a.toNat < 128 then UInt8.ofNat (2 * a.toNat) else UInt8.ofNat (2 * a.toNat - 256) ^^^ 0x1b

/-- Multiplication in GF(2^8) (4.2): the sum of `x^i a` over the bits of the second factor. -/
def mul (a b : UInt8) : UInt8 :=
  let p := fun i => if b.toNat.testBit i then (List.range i).foldl (fun y _ => xtime y) a else 0
  p 0 ^^^ p 1 ^^^ p 2 ^^^ p 3 ^^^ p 4 ^^^ p 5 ^^^ p 6 ^^^ p 7

/-- The multiplicative inverse, zero for zero: the power of exponent 254. -/
def inverse (a : UInt8) : UInt8 :=
  let a2 := mul a a
  let a4 := mul a2 a2
  let a8 := mul a4 a4
  let a16 := mul a8 a8
  let a32 := mul a16 a16
  let a64 := mul a32 a32
  let a128 := mul a64 a64
  mul a2 (mul a4 (mul a8 (mul a16 (mul a32 (mul a64 a128)))))

/-- The S-box (5.1.1): the inverse, then `b_i + b_(i+4) + b_(i+5) + b_(i+6) + b_(i+7) + c_i`, where `c` is `0x63`. -/
def sbox (a : UInt8) : UInt8 :=
  let b := (inverse a).toNat
  let bit := fun i => b.testBit i ^^ b.testBit ((i + 4) % 8) ^^ b.testBit ((i + 5) % 8) ^^ b.testBit ((i + 6) % 8) ^^
    b.testBit ((i + 7) % 8) ^^ (0x63).testBit i
  UInt8.ofNat ((List.range 8).foldl (fun n i => if bit i then n + 2 ^ i else n) 0)

/-- A word of four bytes. -/
structure Word where
  a : UInt8
  b : UInt8
  c : UInt8
  d : UInt8

def Word.xor (x y : Word) : Word := ⟨x.a ^^^ y.a, x.b ^^^ y.b, x.c ^^^ y.c, x.d ^^^ y.d⟩
def Word.rot (x : Word) : Word := ⟨x.b, x.c, x.d, x.a⟩
def Word.sub (x : Word) : Word := ⟨sbox x.a, sbox x.b, sbox x.c, sbox x.d⟩
def Word.bytes (x : Word) : Bytes := [x.a, x.b, x.c, x.d]

/-- `Rcon[i]`: `x^(i - 1)` and zeros. -/
def rcon (i : Nat) : Word := ⟨(List.range (i - 1)).foldl (fun y _ => xtime y) 1, 0, 0, 0⟩

/-- The key expansion (5.2) for eight key words. -/
def schedule (key : Bytes) (i : Nat) : Word :=
  if h : i < 8 then ⟨key.getD (4 * i) 0, key.getD (4 * i + 1) 0, key.getD (4 * i + 2) 0, key.getD (4 * i + 3) 0⟩
  else
    let temp := schedule key (i - 1)
    let temp := if i % 8 = 0 then temp.rot.sub.xor (rcon (i / 8)) else if i % 8 = 4 then temp.sub else temp
    (schedule key (i - 8)).xor temp
termination_by i

/-- The state is the block, row `r` of column `c` being byte `r + 4 c` (3.4). -/
def subBytes (s : Bytes) : Bytes := s.map sbox
/-- Row `r` is shifted by `r` columns (5.1.2). -/
def shiftRows (s : Bytes) : Bytes := (List.range 16).map fun i => s.getD (i % 4 + 4 * ((i / 4 + i % 4) % 4)) 0
/-- Each column is multiplied by the matrix (5.1.3). -/
def mixColumns (s : Bytes) : Bytes := (List.range 16).map fun i =>
  let r := i % 4; let c := i / 4
  let at_ := fun k => s.getD ((r + k) % 4 + 4 * c) 0
  mul (at_ 0) 2 ^^^ mul (at_ 1) 3 ^^^ at_ 2 ^^^ at_ 3
/-- Round key `n` is added (5.1.4). -/
def addRoundKey (key : Bytes) (n : Nat) (s : Bytes) : Bytes :=
  List.zipWith (· ^^^ ·) s ((List.range 4).flatMap fun c => (schedule key (4 * n + c)).bytes)

/-- The cipher (5.1) with fourteen rounds. -/
def cipher (key : Bytes) (input : Bytes) : Bytes :=
  let s := addRoundKey key 0 input
  let s := (List.range 13).foldl (fun s i => addRoundKey key (i + 1) (mixColumns (shiftRows (subBytes s)))) s
  addRoundKey key 14 (shiftRows (subBytes s))

end Verif.Spec.Aes
