import Verif.Spec.Siphash
/-!
# SipHash

Models src/hash/siphash.cpp and `to_siphash_key` of include/bitcoin/system/hash/siphash.hpp.
-/
namespace Verif.Sip
open Verif
open Verif.Spec.Sip (State)

/-- `sip_round` (src/hash/siphash.cpp:43-63), in the order of the statements. -/
def sipRound (s : State) : State :=
  let ⟨v0, v1, v2, v3⟩ := s
  let v0 := v0 + v1
  let v2 := v2 + v3
  let v1 := v1.rotateLeft 13
  let v3 := v3.rotateLeft 16
  let v1 := v1 ^^^ v0
  let v3 := v3 ^^^ v2
  let v0 := v0.rotateLeft 32
  let v2 := v2 + v1
  let v0 := v0 + v3
  let v1 := v1.rotateLeft 17
  let v3 := v3.rotateLeft 21
  let v1 := v1 ^^^ v2
  let v3 := v3 ^^^ v0
  let v2 := v2.rotateLeft 32
  ⟨v0, v1, v2, v3⟩

/-- `compression_round` (siphash.cpp:66-73). -/
def compressionRound (s : State) (word : BitVec 64) : State :=
  let s := { s with v3 := s.v3 ^^^ word }
  let s := sipRound (sipRound s)
  { s with v0 := s.v0 ^^^ word }

/-- The reading loop (siphash.cpp:87-88), of the given number of iterations. -/
def loop : Nat → State → Reader State
  | 0, s => pure s
  | n + 1, s => do
    let w ← readLE 8
    loop n (compressionRound s (BitVec.ofNat 64 w))

/-- `siphash(key, message)` (siphash.cpp:75-105). The loop index runs over the multiples of eight up to the size. -/
def siphash (k0 k1 : BitVec 64) (message : Bytes) : BitVec 64 :=
  let s : State := ⟨0x736f6d6570736575 ^^^ k0, 0x646f72616e646f6d ^^^ k1, 0x6c7967656e657261 ^^^ k0, 0x7465646279746573 ^^^ k1⟩
  let bytes := message.length
  let r := loop (bytes / 8) s (RS.init message)
  let last := BitVec.ofNat 64 (readLE 8 r.2).1
  let last := last ^^^ (BitVec.ofNat 64 (bytes % 256) <<< 56)
  let s := compressionRound r.1 last
  let s := { s with v2 := s.v2 ^^^ 0xff }
  let s := sipRound (sipRound (sipRound (sipRound s)))
  s.v0 ^^^ s.v1 ^^^ s.v2 ^^^ s.v3

/-- `to_siphash_key` (include/bitcoin/system/hash/siphash.hpp:41-47) of 16 bytes. -/
def toKey (hash : Bytes) : BitVec 64 × BitVec 64 := (BitVec.ofNat 64 (leNat (hash.take 8)), BitVec.ofNat 64 (leNat (hash.drop 8)))

/-- `siphash(hash, message)` (siphash.cpp:107-110). -/
def siphashHalf (hash message : Bytes) : BitVec 64 := siphash (toKey hash).1 (toKey hash).2 message

end Verif.Sip
