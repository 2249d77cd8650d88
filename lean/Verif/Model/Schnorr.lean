import Verif.Spec.Taproot
import Verif.Model.Sign
import Verif.Model.HashFunctions
/-!
# Schnorr signatures and taproot hashes

Models src/crypto/secp256k1/schnorr.cpp and the hashes of src/chain/taproot.cpp. libsecp256k1 is a parameter (`Curve`, `Schnorr`).
-/
namespace Verif.Schnorr
open Verif
variable {P : Type} [AddCommGroup P] {C : Curve P} (X : Schnorr C)

/-- `schnorr::sign` (src/crypto/secp256k1/schnorr.cpp:38-49). -/
def signHash (secret hash auxiliary : Bytes) : Option Bytes := X.sign secret hash auxiliary

/-- `schnorr::verify_signature` (schnorr.cpp:52-76), both overloads; a signature has 64 bytes. -/
def verifySignature (key hash sig : Bytes) : Bool :=
  if key.length ≠ 32 then false
  else match X.lift key with
    | none => false
    | some q => X.verify q hash sig

/-- `schnorr::verify_commitment` (schnorr.cpp:79-92). -/
def verifyCommitment (internal tweak out : Bytes) (odd : Bool) : Bool :=
  match X.lift internal with
  | none => false
  | some q => X.tweakCheck q tweak out odd

/-- `taproot::leaf_hash`, `taproot::branch_hash`, `taproot::tweak_hash` (src/chain/taproot.cpp:55-97) through a hash tagged with the ASCII
name. `Sign.Crypto` with these and the functions above. -/
def crypto (tagged : Bytes → Bytes → Bytes) (K : Sign.Crypto) : Sign.Crypto :=
  { K with
    leafHash := fun v d => tagged "TapLeaf".toUTF8.data.toList (v :: d)
    branchHash := fun a b => tagged "TapBranch".toUTF8.data.toList (a ++ b)
    tweakHash := fun k r => tagged "TapTweak".toUTF8.data.toList (k ++ r)
    tapSighash := fun d => tagged "TapSighash".toUTF8.data.toList d
    verifySchnorr := verifySignature X
    verifyCommitment := verifyCommitment X }

end Verif.Schnorr
