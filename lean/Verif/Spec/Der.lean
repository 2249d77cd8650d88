import Verif.Model.Der
/-!
# Specification: strict DER (BIP66) and the lax encodings accepted before it
-/
namespace Verif.Der.Spec
open Verif

/-- A DER integer that is not negative and has no superfluous leading zero. -/
def MinimalInteger (v : Bytes) : Prop :=
  ∃ b t, v = b :: t ∧ b < 0x80 ∧ (b = 0 → ∀ c u, t = c :: u → 0x80 ≤ c)

/-- BIP66: `0x30 [total] 0x02 [R-length] [R] 0x02 [S-length] [S]`, at most 72 bytes without the hash type. -/
def Strict (sig r s : Bytes) : Prop :=
  MinimalInteger r ∧ MinimalInteger s ∧ sig.length ≤ 72 ∧
  sig = [0x30, UInt8.ofNat (r.length + s.length + 4), 0x02, UInt8.ofNat r.length] ++ r ++ [0x02, UInt8.ofNat s.length] ++ s

/-- BER length bytes whose value is ignored: one byte below 0x80, or 0x80 + k and any k bytes. -/
def AnyLength (l : Bytes) : Prop :=
  (∃ b : UInt8, b < 0x80 ∧ l = [b]) ∨ (∃ (b : UInt8) (k : Bytes), 0x80 ≤ b ∧ k.length = b.toNat - 0x80 ∧ l = b :: k)

/-- BER length bytes for a number of bytes: one byte below 0x80, or 0x80 + k and k bytes, big endian, of which at most the last
seven are significant. -/
def Length (l : Bytes) (n : Nat) : Prop :=
  (∃ b : UInt8, b < 0x80 ∧ l = [b] ∧ n = b.toNat) ∨
  (∃ (b : UInt8) (k : Bytes), 0x80 ≤ b ∧ k.length = b.toNat - 0x80 ∧ l = b :: k ∧ beNat k = n ∧ n < 256 ^ 7)

/-- The lax form: total length ignored, long form lengths, any integers, any trailing bytes. -/
def Lax (sig r s : Bytes) : Prop :=
  ∃ total lr ls tail, AnyLength total ∧ Length lr r.length ∧ Length ls s.length ∧
    sig = [0x30] ++ total ++ [0x02] ++ lr ++ r ++ [0x02] ++ ls ++ s ++ tail

/-- The DER encoding of a number: shortest big endian bytes, with a zero byte in front if the top bit would be set. -/
def encodeInteger (n : Nat) : Bytes :=
  let b := (if n = 0 then [0] else beBytes (Nat.log2 n / 8 + 1) n)
  if 0x80 ≤ b.headD 0 then 0 :: b else b

/-- The DER encoding of a signature (what libsecp256k1's serializer documents). -/
def encode (r s : Nat) : Bytes :=
  let r := encodeInteger r
  let s := encodeInteger s
  [0x30, UInt8.ofNat (r.length + s.length + 4), 0x02, UInt8.ofNat r.length] ++ r ++ [0x02, UInt8.ofNat s.length] ++ s

end Verif.Der.Spec
