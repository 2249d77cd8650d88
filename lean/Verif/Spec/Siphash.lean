import Verif.Model.Stream
/-!
# SipHash-2-4

From "SipHash: a fast short-input PRF" (Aumasson, Bernstein, 2012), section 2.
-/
namespace Verif.Spec.Sip
open Verif

structure State where
  v0 : BitVec 64
  v1 : BitVec 64
  v2 : BitVec 64
  v3 : BitVec 64

/-- SipRound (figure 2.1). -/
def round (s : State) : State :=
  let ⟨v0, v1, v2, v3⟩ := s
  let v0 := v0 + v1; let v1 := v1.rotateLeft 13; let v1 := v1 ^^^ v0; let v0 := v0.rotateLeft 32
  let v2 := v2 + v3; let v3 := v3.rotateLeft 16; let v3 := v3 ^^^ v2
  let v0 := v0 + v3; let v3 := v3.rotateLeft 21; let v3 := v3 ^^^ v0
  let v2 := v2 + v1; let v1 := v1.rotateLeft 17; let v1 := v1 ^^^ v2; let v2 := v2.rotateLeft 32
  ⟨v0, v1, v2, v3⟩

/-- Initialisation with the key. -/
def start (k0 k1 : BitVec 64) : State :=
  ⟨k0 ^^^ 0x736f6d6570736575, k1 ^^^ 0x646f72616e646f6d, k0 ^^^ 0x6c7967656e657261, k1 ^^^ 0x7465646279746573⟩

/-- Compression of a word: two rounds. -/
def compress (s : State) (m : BitVec 64) : State :=
  let s := round (round { s with v3 := s.v3 ^^^ m })
  { s with v0 := s.v0 ^^^ m }

/-- The padded message: zeros up to a multiple of eight bytes, the last byte being the length modulo 256. -/
def padded (m : Bytes) : Bytes := m ++ List.replicate (7 - m.length % 8) 0 ++ [UInt8.ofNat m.length]

/-- The first `n` words, little-endian. -/
def words (n : Nat) (d : Bytes) : List (BitVec 64) := (List.range n).map fun i => BitVec.ofNat 64 (leNat ((d.drop (8 * i)).take 8))

/-- Finalisation: four rounds. -/
def finish (s : State) : BitVec 64 :=
  let s := round (round (round (round { s with v2 := s.v2 ^^^ 0xff })))
  s.v0 ^^^ s.v1 ^^^ s.v2 ^^^ s.v3

/-- SipHash-2-4 of a message. -/
def hash (k0 k1 : BitVec 64) (m : Bytes) : BitVec 64 :=
  finish ((words (m.length / 8 + 1) (padded m)).foldl compress (start k0 k1))

end Verif.Spec.Sip
