import Verif.Spec.Bits
/-!
# BIP39: entropy, checksum and words

"A checksum is generated by taking the first ENT / 32 bits of its SHA256 hash. This checksum is appended to the end of the
initial entropy. Next, these concatenated bits are split into groups of 11 bits, each encoding a number from 0-2047, serving
as an index into a wordlist."
-/
namespace Verif.Spec.Bip39
open Verif.Bit.Spec

/-- The entropy followed by its checksum bits. -/
def message (sha256 : Bytes → Bytes) (entropy : Bytes) : List Bool :=
  bitsOf entropy ++ (bitsOf (sha256 entropy)).take (8 * entropy.length / 32)

/-- `words` are the words of `list` at the numbers the groups of eleven bits of the message encode. -/
def Encodes (sha256 : Bytes → Bytes) (list : List Bytes) (entropy : Bytes) (words : List Bytes) : Prop :=
  ∃ numbers : List Nat, (∀ n ∈ numbers, n < 2048) ∧ numbers.flatMap (numBits 11) = message sha256 entropy ∧
    words.map some = numbers.map (fun n => list[n]?)

/-- The entropy sizes of BIP39: 128 to 256 bits in steps of 32. -/
def ValidSize (entropy : Bytes) : Prop := entropy.length ∈ [16, 20, 24, 28, 32]

/-- `PBKDF2(HMAC-SHA512, password = sentence, salt = "mnemonic" + passphrase, 2048 iterations)`, 512 bits; see the theorem. -/
def iterations : Nat := 2048

end Verif.Spec.Bip39
