import Verif.Spec.Message
import Verif.Model.Wallet
/-!
# Signed messages

Models src/wallet/message.cpp and src/crypto/secp256k1/recover.cpp. The recovery module of libsecp256k1 is a parameter (`Recovery`).
-/
namespace Verif.Message
open Verif Verif.Ec Verif.Wallet
open Verif.Sha (Build)
variable {P : Type} [AddCommGroup P] [DecidableEq P] (C : Curve P) (R : Recovery C) (b : Build)

/-- The `prefix` of `hash_message` (src/wallet/message.cpp:39). -/
def messagePrefix : Bytes := Radix.ascii "Bitcoin Signed Message:\n"

/-- `hash_message` (src/wallet/message.cpp:36-49). The sink flushes on `flush` and again when it is destroyed; the second digest does
not fit the stream of 32 bytes and is not written (impl/stream/iostream/ostream.ipp:81-97). The writes inside of `write_string` and
`write_variable` are taken as one each. -/
def hashMessage (message : Bytes) : Bytes :=
  (HashFn.runWriter (HashFn.sha256x2Writer b true) (Hash.init (HashFn.acc256 b))
    [.write (writeString messagePrefix), .write (writeVariable message.length), .write message, .flush]).take 32

/-- `recovery_id_to_magic` (message.cpp:79-89). -/
def recoveryIdToMagic (id : UInt8) (compress : Bool) : Option UInt8 :=
  if 3 < id then none else some (id + if compress then 31 else 27)

/-- `magic_to_recovery_id` (message.cpp:91-110). -/
def magicToRecoveryId (magic : UInt8) : Option (UInt8 × Bool) :=
  if magic < 27 ∨ 31 + 3 < magic then none
  else
    let id := magic - 27
    let compress := decide (4 ≤ id)
    some (if compress then id - 4 else id, compress)

/-- `sign_recoverable` (src/crypto/secp256k1/recover.cpp:56-77): the identifier is read also if signing failed, when it is zero. -/
def signRecoverable (secret hash : Bytes) : Option (Bytes × UInt8) :=
  match R.sign secret hash with
  | none => none
  | some (s, id) => if id < 0 ∨ 3 < id then none else some (s, UInt8.ofNat id.toNat)

/-- `recover_public` (recover.cpp:37-50, 79-91). -/
def recoverPublic (compress : Bool) (signature : Bytes) (id : UInt8) (hash : Bytes) : Option Bytes :=
  (R.recover signature id.toNat hash).map fun p => if compress then C.compressed p else C.uncompressed p

/-- `recover` (message.cpp:51-77). -/
def recover (compress : Bool) (signature : Bytes) (id : UInt8) (hash : Bytes) : Option Bytes :=
  (recoverPublic C R compress signature id hash).map (HashFn.bitcoinShortHash b true)

/-- `sign_message` of a secret (message.cpp:126-139). -/
def signMessage (message secret : Bytes) (compress : Bool) : Option Bytes :=
  match signRecoverable C R secret (hashMessage b message) with
  | none => none
  | some (s, id) =>
    match recoveryIdToMagic id compress with
    | none => none
    | some magic => some (magic :: s)

/-- `sign_message` of a private key (message.cpp:112-116). -/
def signKey (message : Bytes) (k : PrivateKey) : Option Bytes := signMessage C R b message k.secret k.compress

/-- `sign_message` of a WIF text (message.cpp:118-124). -/
def signWif (message wif : Bytes) : Option Bytes :=
  let k := PrivateKey.fromString b wif 0
  if k.valid then signMessage C R b message k.secret k.compress else none

/-- `verify_message` (message.cpp:141-156), of a signature of 65 bytes. -/
def verifyMessage (message : Bytes) (a : Address) (signature : Bytes) : Bool :=
  match magicToRecoveryId (signature.headD 0) with
  | none => false
  | some (id, compress) =>
    match recover C R b compress signature.tail id (hashMessage b message) with
    | none => false
    | some h => h == a.hash

end Verif.Message
