import Verif.Model.Radix
/-!
# Specification of the text encodings
-/
namespace Verif.Radix.Spec
open Verif Verif.Radix

/-- Hexadecimal characters. -/
def hexChars : Bytes := ascii "0123456789abcdefABCDEF"

/-- ASCII lower case of a character. -/
def lower (c : UInt8) : UInt8 := if 65 ≤ c ∧ c ≤ 90 then c + 32 else c

/-- The number that digits, most significant first, stand for. -/
def beVal (base : Nat) (l : List Nat) : Nat := l.foldl (fun v x => v * base + x) 0

/-- Index of a character in the base58 alphabet. -/
def digit58 (c : UInt8) : Nat := base58Chars.idxOf c

/-- What a base58 text means: as many zero bytes as leading '1' characters, then the number. -/
def Means58 (s : Bytes) (d : Bytes) : Prop :=
  leadingOnes s = leadingZeros d ∧ beVal 58 (s.map digit58) = beVal 256 (d.map UInt8.toNat)

end Verif.Radix.Spec
