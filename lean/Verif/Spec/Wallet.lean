import Verif.Spec.Radix
import Verif.Spec.Hash
import Verif.Spec.Secp
/-!
# Base58Check, payment addresses and the wallet import format
-/
namespace Verif.Spec.Wallet
open Verif

def sha256d (d : Bytes) : Bytes := Hash.sha256.digest (Hash.sha256.digest d)
def hash160 (d : Bytes) : Bytes := Hash.rmd160 (Hash.sha256.digest d)

/-- The text is the base58 form of the data followed by the first four bytes of its double SHA-256. -/
def Base58Check (text data : Bytes) : Prop :=
  (∀ c ∈ text, c ∈ Radix.base58Chars) ∧ Radix.Spec.Means58 text (data ++ (sha256d data).take 4)

/-- Wallet import format: version, secret, and a byte `1` if the public key is to be compressed. -/
def IsWif (text : Bytes) (version : UInt8) (secret : Bytes) (compress : Bool) : Prop :=
  secret.length = 32 ∧ Base58Check text (version :: secret ++ if compress then [1] else [])

/-- The published form of a key. -/
def serialized {P : Type} [AddCommGroup P] (C : Curve P) (p : P) (compress : Bool) : Bytes :=
  if compress then C.compressed p else C.uncompressed p

end Verif.Spec.Wallet
