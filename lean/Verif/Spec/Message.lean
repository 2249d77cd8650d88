import Verif.Spec.Wallet
/-!
# Signed messages

What is assumed of the recovery module of libsecp256k1 (which is not in the repository), and the preimage of a signed message.
-/
namespace Verif

/-- `secp256k1_ecdsa_sign_recoverable` with `..._serialize_compact` (signature and recovery identifier of a secret and a digest) and
`..._parse_compact` with `secp256k1_ecdsa_recover`: a valid secret signs any digest, and its key is recovered. -/
structure Recovery {P : Type} [AddCommGroup P] (C : Curve P) where
  sign : Bytes → Bytes → Option (Bytes × Int)
  recover : Bytes → Nat → Bytes → Option P
  sign_valid : ∀ s d, 0 < beNat s → beNat s < C.order → ∃ sig id, sign s d = some (sig, id) ∧ sig.length = 64 ∧ 0 ≤ id ∧ id ≤ 3 ∧
    recover sig id.toNat d = some (beNat s • C.generator)
  sign_invalid : ∀ s d, ¬ (0 < beNat s ∧ beNat s < C.order) → sign s d = none
  recover_ne : ∀ sig id d p, recover sig id d = some p → p ≠ 0

namespace Spec.Message

/-- Bitcoin's variable length integer, for lengths below `2 ^ 64`. -/
def compactSize (n : Nat) : Bytes :=
  if n < 0xfd then leBytes 1 n else if n < 2 ^ 16 then 0xfd :: leBytes 2 n else if n < 2 ^ 32 then 0xfe :: leBytes 4 n else 0xff :: leBytes 8 n

/-- The bytes `Bitcoin Signed Message:` and a line feed. -/
def magic : Bytes := [66, 105, 116, 99, 111, 105, 110, 32, 83, 105, 103, 110, 101, 100, 32, 77, 101, 115, 115, 97, 103, 101, 58, 10]

/-- What is hashed twice with SHA-256 to be signed. -/
def preimage (message : Bytes) : Bytes := compactSize magic.length ++ magic ++ compactSize message.length ++ message

/-- The first byte of a signature. -/
def header (id : Nat) (compress : Bool) : UInt8 := UInt8.ofNat (27 + id + if compress then 4 else 0)

end Spec.Message
end Verif
