import Verif.Spec.Bits
import Verif.Spec.Mac
/-!
# Electrum v2 seeds

"The seed phrase is valid for a wallet type if the HMAC-SHA512 of the normalized phrase under the key `Seed version`, written in
hexadecimal, begins with the version number of the type: 01 for a standard wallet, 100 for a segwit wallet, 101 and 102 for two
factor authentication" (docs.electrum.org, "Electrum Seed Version System").
-/
namespace Verif.Spec.Electrum
open Verif.Bit.Spec

/-- The four wallet types. -/
inductive Version where
  | standard | segwit | twoFactor | twoFactorSegwit
  deriving DecidableEq

/-- The bits of the version number: four for each hexadecimal digit. -/
def Version.bits : Version → List Bool
  | .standard => numBits 8 0x01
  | .segwit => numBits 12 0x100
  | .twoFactor => numBits 12 0x101
  | .twoFactorSegwit => numBits 12 0x102

/-- The HMAC-SHA512 of a phrase under "Seed version". -/
def code (phrase : Bytes) : Bytes :=
  Mac.hmac Hash.sha512.digest 128 ("Seed version".toList.map fun c => UInt8.ofNat c.toNat) phrase

/-- A phrase is of a version if its code begins with the version number. -/
def Marked (v : Version) (phrase : Bytes) : Prop := v.bits <+: bitsOf (code phrase)

/-- The words of `list` written by the groups of eleven bits of the entropy; fewer than eight further bits are zeros. -/
def Spells (list : List Bytes) (entropy : Bytes) (words : List Bytes) : Prop :=
  ∃ numbers : List Nat, (∀ n ∈ numbers, n < 2048) ∧ words.map some = numbers.map (fun n => list[n]?) ∧
    ∃ z < 8, bitsOf entropy = numbers.flatMap (numBits 11) ++ List.replicate z false

/-- `c` has the bits of the whole groups of eleven bits of `e`, and zeros up to the next whole byte. -/
def Trimmed (e c : Bytes) : Prop :=
  ∃ z < 8, bitsOf c = (bitsOf e).take (11 * (8 * e.length / 11)) ++ List.replicate z false

/-- The entropies tried: that given, and then each time the SHA-512 of the last, cut to its size, all trimmed. -/
inductive Candidate (e : Bytes) : Nat → Bytes → Prop where
  | first {c : Bytes} : Trimmed e c → Candidate e 0 c
  | next {k : Nat} {c c' : Bytes} : Candidate e k c → Trimmed ((Hash.sha512.digest c).take c.length) c' → Candidate e (k + 1) c'

end Verif.Spec.Electrum
