import Verif.Spec.Ecdsa
import Verif.Model.Sighash
import Verif.Model.Connect
/-!
# ECDSA signing of transactions

Models src/crypto/secp256k1/ecdsa.cpp, the endorsement functions of src/chain/transaction.cpp and how `interpreter::connect` reads a
transaction. libsecp256k1 is a parameter (`Curve`, `Ecdsa`).
-/
namespace Verif.Sign
open Verif Verif.Sighash
variable {P : Type} [AddCommGroup P] (C : Curve P) (L : Ecdsa C)

/-- `ecdsa::normalize_signature` (src/crypto/secp256k1/ecdsa.cpp:48-58, 122-126): whether it was modified, and the signature with the
smaller of the two values. -/
def normalize (sig : Nat × Nat) : Bool × (Nat × Nat) :=
  if C.order < 2 * sig.2 then (true, (sig.1, C.order - sig.2)) else (false, sig)

/-- `ecdsa::verify_signature` (ecdsa.cpp:61-71, 161-179); `ec_public_key_parse` (serialize.hpp:34-40) refuses an empty key, which the
parser also does. -/
def verifySignature (key hash : Bytes) (sig : Nat × Nat) : Bool :=
  match C.parse key with
  | none => false
  | some q => L.verify q hash (normalize C sig).2

/-- `ecdsa::canonicalize_signature` (ecdsa.cpp:129-140): 64 bytes, big endian. -/
def canonicalize (sig : Nat × Nat) : Bytes :=
  let n := (normalize C sig).2
  beBytes 32 n.1 ++ beBytes 32 n.2

/-- `ecdsa::encode_signature` (ecdsa.cpp:77-92): `secp256k1_ecdsa_signature_serialize_der` fails only if the encoding is longer than
`max_der_signature_size`, 72 bytes (secp256k1.hpp:60-68). -/
def encodeSignature (sig : Nat × Nat) : Option Bytes :=
  let d := L.der sig
  if d.length > 72 then none else some d

/-- What is read of an active fork configuration by `signature_hash` (transaction.cpp:493-529). -/
structure Forks where
  bip143 : Bool
  bip342 : Bool

/-- `transaction::create_endorsement` (src/chain/transaction.cpp:446-470). The subscript is given by its operations from its offset on
(versions 0 and unversioned). -/
def createEndorsement (H T : Bytes → Bytes) (t : Tx) (ps : List Prevout) (secret : Bytes) (sub : List Op) (index : Nat) (value : UInt64)
    (sighashFlags : UInt8) (version : Version) (f : Forks) (c : Cache) : Option Bytes :=
  if index ≥ t.inputs.length then none
  else
    match (signatureHash H T t ps ⟨index, sub, 0, value, none, version, sighashFlags, f.bip143, f.bip342⟩ c).1 with
    | none => none
    | some hash =>
      match L.sign secret hash with
      | none => none
      | some sig =>
        match encodeSignature C L sig with
        | none => none
        | some der => some (der ++ [sighashFlags])

/-- `transaction::check_signature` (transaction.cpp:425-442). The signature is an array, so that it is not empty. -/
def checkSignature (H T : Bytes → Bytes) (t : Tx) (ps : List Prevout) (sig : Nat × Nat) (key : Bytes) (sub : List Op) (index : Nat)
    (value : UInt64) (sighashFlags : UInt8) (version : Version) (f : Forks) (c : Cache) : Bool :=
  if index ≥ t.inputs.length ∨ key = [] then false
  else
    match (signatureHash H T t ps ⟨index, sub, 0, value, none, version, sighashFlags, f.bip143, f.bip342⟩ c).1 with
    | none => false
    | some hash => verifySignature C L key hash sig

/-- Functions of the interpreter that are not those of this file. Used for program_verify.ipp:108-135, 218-230. -/
structure Crypto where
  rmd160 : Bytes → Bytes
  sha1 : Bytes → Bytes
  sha256 : Bytes → Bytes
  hash160 : Bytes → Bytes
  hash256 : Bytes → Bytes
  leafHash : UInt8 → Bytes → Bytes
  branchHash : Bytes → Bytes → Bytes
  tweakHash : Bytes → Bytes → Bytes
  /-- the hash tagged "TapSighash" -/
  tapSighash : Bytes → Bytes
  verifySchnorr : Bytes → Bytes → Bytes → Bool
  verifyCommitment : Bytes → Bytes → Bytes → Bool → Bool

/-- A decoded signature, in the 64 bytes of `ec_signature` (whose format is private to the library: here big endian). -/
def packSignature : Der.R (Nat × Nat) → Option Bytes
  | .ok sig => some (beBytes 32 sig.1 ++ beBytes 32 sig.2)
  | _ => none

/-- What `interpreter::connect` reads of input `i` of a transaction that spends `prev` (include/bitcoin/system/impl/machine/
interpreter_connect.ipp, program_verify.ipp:108-135, 218-230): `program::signature_hash` passes the value of the previous output, the
version of the program and the forks. Only the emptiness of the operations is read for version 1 (subscript_v1), and a script that
reaches a signature operation is not empty. -/
def txSpend (K : Crypto) (flags : Machine.Flags) (t : Tx) (ps : List Prevout) (i : Nat) (inp : Input) (prev : Output) (c : Cache) : Spend where
  flags := flags
  ops := inp.script.ops
  prevout := prev.script.ops
  witness := inp.witness.stack
  sequence := inp.sequence.toNat
  locktime := t.locktime.toNat
  version := t.version.toNat
  rmd160 := K.rmd160
  sha1 := K.sha1
  sha256 := K.sha256
  hash160 := K.hash160
  hash256 := K.hash256
  leafHash := K.leafHash
  branchHash := K.branchHash
  tweakHash := K.tweakHash
  decodeSig := fun d strict => packSignature (Der.decodeSignature d strict)
  sighash := fun v0 sub f => (signatureHash K.sha256 K.tapSighash t ps
    ⟨i, sub, 0, prev.value, none, if v0 then .segwit else .unversioned, f, flags.bip143, flags.bip342⟩ c).1
  sighashTap := fun leaf sep f => (signatureHash K.sha256 K.tapSighash t ps
    ⟨i, [{ code := 172 }], sep, prev.value, leaf, .taproot, f, flags.bip143, flags.bip342⟩ c).1
  verifyEcdsa := fun key hash sig => verifySignature C L key hash (beNat (sig.take 32), beNat (sig.drop 32))
  verifySchnorr := K.verifySchnorr
  verifyCommitment := K.verifyCommitment

end Verif.Sign
