import Verif.Spec.Hash
/-!
# The SHA-256 instructions of processors

The meaning of the vector instructions used by the native SHA-256 code: from the Intel 64 and IA-32 Software Developer's Manual (volume 2) and
the Arm Architecture Reference Manual. A register is four 32 bit lanes, lane 0 the least significant (and the first in memory). The functions Ch,
Maj and the sigmas are those of FIPS 180-4, as both manuals say.
-/
namespace Verif.Spec.ShaIsa
open Verif.Spec.Hash

abbrev W := BitVec 32

/-- A 128 bit register. -/
@[ext] structure V4 where
  x0 : W
  x1 : W
  x2 : W
  x3 : W

/-- Lane `i` (of its two low bits). -/
def V4.lane (a : V4) (i : Nat) : W := if i % 4 = 0 then a.x0 else if i % 4 = 1 then a.x1 else if i % 4 = 2 then a.x2 else a.x3

/-- PADDD, `vaddq_u32`. -/
def V4.add (a b : V4) : V4 := ⟨a.x0 + b.x0, a.x1 + b.x1, a.x2 + b.x2, a.x3 + b.x3⟩

def s0 (x : W) : W := smallSigma (7, 18, 3) x
def s1 (x : W) : W := smallSigma (17, 19, 10) x
def S0 (x : W) : W := bigSigma (2, 13, 22) x
def S1 (x : W) : W := bigSigma (6, 11, 25) x

/-! ## Intel -/

/-- PSHUFD: lane `i` of the result is the lane selected by bits `2i` and `2i + 1` of the immediate. -/
def pshufd (a : V4) (imm : Nat) : V4 := ⟨a.lane imm, a.lane (imm / 4), a.lane (imm / 16), a.lane (imm / 64)⟩

/-- PALIGNR by a multiple of four bytes: `a` above `b`, shifted right. -/
def palignr (a b : V4) (bytes : Nat) : V4 :=
  let at_ := fun i => if i < 4 then b.lane i else if i < 8 then a.lane i else 0
  ⟨at_ (bytes / 4), at_ (bytes / 4 + 1), at_ (bytes / 4 + 2), at_ (bytes / 4 + 3)⟩

/-- PBLENDW with both bits of each lane equal: a lane is from `b` if its bits are set. -/
def pblendw (a b : V4) (imm : Nat) : V4 :=
  let pick := fun i => if imm.testBit (2 * i) then b.lane i else a.lane i
  ⟨pick 0, pick 1, pick 2, pick 3⟩

/-- SHA256MSG1. -/
def sha256msg1 (a b : V4) : V4 := ⟨a.x0 + s0 a.x1, a.x1 + s0 a.x2, a.x2 + s0 a.x3, a.x3 + s0 b.x0⟩

/-- SHA256MSG2. -/
def sha256msg2 (a b : V4) : V4 :=
  let w16 := a.x0 + s1 b.x2
  let w17 := a.x1 + s1 b.x3
  let w18 := a.x2 + s1 w16
  let w19 := a.x3 + s1 w17
  ⟨w16, w17, w18, w19⟩

/-- One round of SHA256RNDS2, given W + K. -/
def intelRound (v : Vars 32) (wk : W) : Vars 32 :=
  ⟨Ch v.e v.f v.g + S1 v.e + wk + v.h + Maj v.a v.b v.c + S0 v.a, v.a, v.b, v.c, Ch v.e v.f v.g + S1 v.e + wk + v.h + v.d, v.e, v.f, v.g⟩

/-- SHA256RNDS2: `a` is (from lane 3 down) C, D, G, H, `b` is A, B, E, F, and the result is the new A, B, E, F. -/
def sha256rnds2 (a b k : V4) : V4 :=
  let v := intelRound (intelRound ⟨b.x3, b.x2, a.x3, a.x2, b.x1, b.x0, a.x1, a.x0⟩ k.x0) k.x1
  ⟨v.f, v.e, v.b, v.a⟩

/-! ## Arm -/

/-- The four rounds of SHA256H and SHA256H2 (`SHA256hash`), on X = (A, B, C, D) and Y = (E, F, G, H), lane 0 first. -/
def armRound (v : Vars 32) (wk : W) : Vars 32 :=
  let t := v.h + S1 v.e + Ch v.e v.f v.g + wk
  ⟨t + S0 v.a + Maj v.a v.b v.c, v.a, v.b, v.c, t + v.d, v.e, v.f, v.g⟩

def armRounds (x y w : V4) : Vars 32 :=
  armRound (armRound (armRound (armRound ⟨x.x0, x.x1, x.x2, x.x3, y.x0, y.x1, y.x2, y.x3⟩ w.x0) w.x1) w.x2) w.x3

/-- SHA256H: `hash_abcd`, `hash_efgh`, `wk`. -/
def sha256h (abcd efgh wk : V4) : V4 := let v := armRounds abcd efgh wk; ⟨v.a, v.b, v.c, v.d⟩
/-- SHA256H2: `hash_efgh`, `hash_abcd`, `wk`. -/
def sha256h2 (efgh abcd wk : V4) : V4 := let v := armRounds abcd efgh wk; ⟨v.e, v.f, v.g, v.h⟩

/-- SHA256SU0. -/
def sha256su0 (w0 w4 : V4) : V4 := ⟨w0.x0 + s0 w0.x1, w0.x1 + s0 w0.x2, w0.x2 + s0 w0.x3, w0.x3 + s0 w4.x0⟩

/-- SHA256SU1. -/
def sha256su1 (tw w8 w12 : V4) : V4 :=
  let r0 := s1 w12.x2 + tw.x0 + w8.x1
  let r1 := s1 w12.x3 + tw.x1 + w8.x2
  ⟨r0, r1, s1 r0 + tw.x2 + w8.x3, s1 r1 + tw.x3 + w12.x0⟩

end Verif.Spec.ShaIsa
