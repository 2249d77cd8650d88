import Verif.Model.HdKeys
import Verif.Model.Connect
/-!
# Payment addresses, wallet import format and public keys as text
-/
namespace Verif.Wallet
open Verif Verif.Ec
open Verif.Sha (Build)
variable {P : Type} [AddCommGroup P] [DecidableEq P] (C : Curve P) (b : Build)

/-! ## Checksums -/

/-- `insert_checksum` with a four byte checksum (include/bitcoin/system/impl/hash/checksum.ipp:30-58). -/
def insertChecksum (payload : Bytes) : Bytes := Hd.insertChecksum b payload

/-- `verify_checksum` of an array (checksum.ipp:60-82). -/
def verifyArray (value : Bytes) : Bool :=
  (HashFn.bitcoinHash b true (value.take (value.length - 4))).take 4 == value.drop (value.length - 4)

/-- `verify_checksum` of a chunk (src/hash/checksum.cpp:54-67): the two words are compared as little-endian numbers. -/
def verifyChunk (data : Bytes) : Bool :=
  if data.length < 4 then false
  else leNat (data.drop (data.length - 4)) == leNat ((HashFn.bitcoinHash b true (data.take (data.length - 4))).take 4)

/-! ## Payment addresses -/

/-- `payment_address` (include/bitcoin/system/wallet/addresses/payment_address.hpp:37-118): its `checked<1, 20>` value of 25 bytes. -/
structure Address where
  value : Bytes
  deriving DecidableEq

/-- Default constructor (src/wallet/addresses/payment_address.cpp:34-37), over that of `checked` (impl/wallet/addresses/checked.ipp:35-40). -/
def Address.none : Address := ⟨List.replicate 25 0⟩
/-- `payment_address(hash, prefix)` (payment_address.cpp:71-75; checked.ipp:42-48, 64-74). -/
def Address.ofHash (hash : Bytes) (prefix_ : UInt8) : Address := ⟨insertChecksum b ([prefix_] ++ hash)⟩
/-- `operator bool` (payment_address.cpp:130-133; checked.ipp:79-84). -/
def Address.valid (a : Address) : Bool := verifyArray b a.value
/-- `prefix` (payment_address.cpp:146-149). -/
def Address.prefixByte (a : Address) : UInt8 := a.value.headD 0
/-- `hash` (payment_address.cpp:151-154). -/
def Address.hash (a : Address) : Bytes := (a.value.drop 1).take 20
/-- `encoded` (payment_address.cpp:138-141). -/
def Address.encoded (a : Address) : Bytes := Radix.encode58 a.value

/-- `from_string` (payment_address.cpp:80-95). -/
def Address.fromString (text : Bytes) : Address :=
  match Radix.decode58 text with
  | Option.none => .none
  | some d => if d.length = 25 then (if verifyArray b d then ⟨d⟩ else .none) else .none

/-- `output_script` (payment_address.cpp:156-168) with the pattern builders (impl/chain/script_patterns.ipp:409-440). -/
def toPayScriptHash (hash : Bytes) : List Op :=
  [{ code := 169 }, { code := Machine.opcodeFromSize hash.length, data := hash }, { code := 135 }]
/-- As above, script_patterns.ipp:409-440. -/
def Address.outputScript (a : Address) (p2kh p2sh : UInt8) : List Op :=
  if a.prefixByte = p2kh then toPayKeyHash a.hash
  else if a.prefixByte = p2sh then toPayScriptHash a.hash
  else []

/-- `extract_output` (payment_address.cpp:281-311) with `output_pattern` (src/chain/script_extract.cpp:69-96), of which only the first
two patterns matter here. Element access is guarded by the pattern. -/
def extractOutput (ops : List Op) (p2kh p2sh : UInt8) : Address :=
  if payKeyHashPattern ops then (match ops with | _ :: _ :: o :: _ => Address.ofHash b (o.data.take 20) p2kh | _ => .none)
  else if payScriptHashPattern ops then (match ops with | _ :: o :: _ => Address.ofHash b (o.data.take 20) p2sh | _ => .none)
  else .none

/-! ## Public keys -/

/-- `ec_public` (include/bitcoin/system/wallet/keys/ec_public.hpp): the compressed point and the form it is published in. Used for ec_public.cpp:36-44. -/
structure PublicKey where
  point : Bytes
  compress : Bool
  deriving DecidableEq

/-- Default (src/wallet/keys/ec_public.cpp:36-44). -/
def PublicKey.none : PublicKey := ⟨List.replicate 33 0, true⟩
/-- `ec_point::is_valid` (src/wallet/keys/ec_point.cpp:35-39). -/
def PublicKey.valid (k : PublicKey) : Bool := k.point.headD 0 != 0

/-- `from_data` (ec_public.cpp:100-120). -/
def PublicKey.fromData (decoded : Bytes) : PublicKey :=
  if !isPublicKey decoded then .none
  else if isCompressedKey decoded then ⟨decoded, true⟩
  else match Ec.compress C decoded with
    | some p => ⟨p, false⟩
    | Option.none => .none
/-- `from_string` (ec_public.cpp:91-98). -/
def PublicKey.fromString (text : Bytes) : PublicKey :=
  match Radix.decode16 text with
  | some d => PublicKey.fromData C d
  | Option.none => .none
/-- `to_data` (ec_public.cpp:160-190). -/
def PublicKey.toData (k : PublicKey) : Option Bytes :=
  if !k.valid then Option.none
  else if k.compress then some k.point
  else Ec.decompress C k.point
/-- `encoded` (ec_public.cpp:138-147); `none` where an uninitialised buffer is encoded. -/
def PublicKey.encoded (k : PublicKey) : Option Bytes :=
  if k.compress then some (Radix.encode16 k.point)
  else if k.valid then (Ec.decompress C k.point).map Radix.encode16
  else Option.none

/-- `payment_address::from_public` (payment_address.cpp:105-116). -/
def Address.fromPublic (k : PublicKey) (prefix_ : UInt8) : Address :=
  if !k.valid then .none
  else match k.toData C with
    | some d => Address.ofHash b (HashFn.bitcoinShortHash b true d) prefix_
    | Option.none => .none
/-- `payment_address::from_script` (payment_address.cpp:118-125) of a valid script. -/
def Address.fromScript (script : Bytes) (prefix_ : UInt8) : Address :=
  Address.ofHash b (HashFn.bitcoinShortHash b true script) prefix_

/-! ## Private keys -/

/-- `ec_private` (include/bitcoin/system/wallet/keys/ec_private.hpp:41-137). -/
structure PrivateKey where
  secret : Bytes
  versions : UInt16
  compress : Bool
  deriving DecidableEq

/-- `to_address_version`, `to_wif_version` and `to_versions` (ec_private.hpp:61-74). -/
def addressVersion (v : UInt16) : UInt8 := v.toUInt8
/-- As above, ec_private.hpp:61-74. -/
def wifVersion (v : UInt16) : UInt8 := (v >>> 8).toUInt8
/-- As above, ec_private.hpp:61-74. -/
def toVersions (address wif : UInt8) : UInt16 := (wif.toUInt16 <<< 8) ||| address.toUInt16

/-- Default (src/wallet/keys/ec_private.cpp:44-52); `mainnet_p2kh` is zero. -/
def PrivateKey.none : PrivateKey := ⟨List.replicate 32 0, 0, true⟩
/-- `ec_private(scalar, address)` (ec_private.cpp:49-52): the address version only. -/
def PrivateKey.ofScalar (secret : Bytes) (address : UInt8) : PrivateKey := ⟨secret, address.toUInt16, true⟩
/-- `ec_scalar::operator bool` (src/wallet/keys/ec_scalar.cpp:188-192). -/
def PrivateKey.valid (k : PrivateKey) : Bool := k.secret != List.replicate 32 0

/-- `is_wif` (ec_private.cpp:83-94). -/
def isWif (d : Bytes) : Bool :=
  if d.length ≠ 38 ∧ d.length ≠ 37 then false
  else if !verifyChunk b d then false
  else decide (d.length = 37) || (d.getD 33 0 == 1)

/-- `from_compressed` and `from_uncompressed` (ec_private.cpp:120-140). -/
def PrivateKey.fromWif (d : Bytes) (address : UInt8) (compress : Bool) : PrivateKey :=
  if !isWif b d then .none
  else ⟨(d.drop 1).take 32, toVersions address (d.headD 0), compress⟩

/-- `from_string` (ec_private.cpp:99-118). -/
def PrivateKey.fromString (text : Bytes) (address : UInt8) : PrivateKey :=
  match Radix.decode58 text with
  | Option.none => .none
  | some d =>
    if !isWif b d then .none
    else if d.length = 38 then PrivateKey.fromWif b d address true
    else PrivateKey.fromWif b d address false

/-- `encoded` (ec_private.cpp:158-177). -/
def PrivateKey.encoded (k : PrivateKey) : Bytes :=
  if k.compress then Radix.encode58 (insertChecksum b ([wifVersion k.versions] ++ k.secret ++ [1]))
  else Radix.encode58 (insertChecksum b ([wifVersion k.versions] ++ k.secret))

/-- `from_entropy` (ec_private.cpp:142-153). -/
def PrivateKey.fromEntropy (entropy : Bytes) (version : UInt8) : PrivateKey :=
  let key := Hd.Private.fromEntropy C b entropy 0x0488ade40488b21e
  if !key.pub.valid then .none else ⟨key.secret, version.toUInt16, true⟩

/-- `to_public` (ec_private.cpp:205-217). -/
def PrivateKey.toPublic (k : PrivateKey) : PublicKey :=
  if !k.valid then .none
  else match secretToPublic C k.secret with
    | some p => ⟨p, k.compress⟩
    | Option.none => .none

/-- `payment_address::from_private` (payment_address.cpp:97-103). -/
def Address.fromPrivate (k : PrivateKey) : Address :=
  if !k.valid then .none else Address.fromPublic C b (k.toPublic C) (addressVersion k.versions)

/-! ## Mini keys -/

/-- `check_minikey` and `minikey_to_secret` (src/wallet/keys/mini_keys.cpp:28-45). -/
def minikeyToSecret (key : Bytes) : Option Bytes :=
  if (key.length = 22 ∨ key.length = 30) ∧ (HashFn.sha256Hash b true (key ++ [63])).headD 0 = 0 then
    some (HashFn.sha256Hash b true key)
  else Option.none

end Verif.Wallet
