import Verif.Model.Wallet
import Verif.Model.Scrypt
import Verif.Model.Aes
/-!
# Encrypted keys (BIP38)

Sources: src/wallet/keys/encrypted_keys.cpp, src/wallet/keys/parse_encrypted_keys/, ek_private.cpp, ek_public.cpp, ek_token.cpp.
Fixed size arrays are byte lists, of the size of the array where a theorem needs it. Functions with out arguments and a success flag
give `some` of the values, or `none`, but for `createTokenLot`. The normal form of the passphrase (`to_canonical_composition`, an ICU
call) is the parameter `normal`.
-/
namespace Verif.Bip38
open Verif Verif.Ec Verif.Wallet
open Verif.Sha (Build)
variable {P : Type} [AddCommGroup P] [DecidableEq P] (C : Curve P) (b : Build) (normal : Bytes → Bytes)

/-- What a call of scrypt depends on besides its arguments: the form of the rounds, the memory it gets, and the order in which its
parallel blocks run. Used for encrypted_keys.cpp:123-128. -/
structure Run where
  quarter : Bool
  memory : Scrypt.Memory
  order : List Nat

/-- `xor_data` and `xor_offset` (include/bitcoin/system/impl/data/data_array.ipp:153-172). -/
def xorOffset (size offset1 offset2 : Nat) (x y : Bytes) : Bytes :=
  (List.range size).map fun i => x.getD (i + offset1) 0 ^^^ y.getD (i + offset2) 0

/-- `slice<Start, End>` of an array. Used for encrypted_keys.cpp:55-60. -/
def slice (x : Bytes) (start stop : Nat) : Bytes := (x.drop start).take (stop - start)

/-- `address_hash` (src/wallet/keys/encrypted_keys.cpp:50-53). -/
def addressHash (a : Address) : Bytes := HashFn.bitcoinHash b true a.encoded
/-- `address_salt` of an address (encrypted_keys.cpp:55-60). -/
def saltOf (a : Address) : Option Bytes := if a.valid b then some (slice (addressHash b a) 0 4) else none
/-- `address_salt` of a point (encrypted_keys.cpp:62-67). -/
def saltOfPoint (point : Bytes) (version : UInt8) (compressed : Bool) : Option Bytes :=
  saltOf b (Address.fromPublic C b ⟨point, compressed⟩ version)
/-- `address_salt` of a secret (encrypted_keys.cpp:69-74). -/
def saltOfSecret (secret : Bytes) (version : UInt8) (compressed : Bool) : Option Bytes :=
  saltOf b (Address.fromPrivate C b ⟨secret, version.toUInt16, compressed⟩)
/-- `address_validate` of an address (encrypted_keys.cpp:76-81). -/
def validate (salt : Bytes) (a : Address) : Bool := a.valid b && ((addressHash b a).take salt.length == salt)
/-- `address_validate` of a point (encrypted_keys.cpp:83-88). -/
def validatePoint (salt point : Bytes) (version : UInt8) (compressed : Bool) : Bool :=
  validate b salt (Address.fromPublic C b ⟨point, compressed⟩ version)
/-- `address_validate` of a secret (encrypted_keys.cpp:90-95). -/
def validateSecret (salt secret : Bytes) (version : UInt8) (compressed : Bool) : Bool :=
  validate b salt (Address.fromPrivate C b ⟨secret, version.toUInt16, compressed⟩)

/-- `point_hash` (encrypted_keys.cpp:100-103). -/
def pointHash (point : Bytes) : Bytes := slice point 1 33
/-- `point_sign` (encrypted_keys.cpp:105-118). -/
def pointSign (byte : UInt8) (hash : Bytes) : UInt8 := byte ^^^ (hash.getLastD 0 &&& 1)

/-- `scrypt_token` (encrypted_keys.cpp:123-128). -/
def scryptToken (x : Run) (data salt : Bytes) : Bytes := Scrypt.hashValue b x.quarter 16384 8 8 x.memory x.order data salt 32
/-- `scrypt_pair` (encrypted_keys.cpp:130-135). -/
def scryptPair (x : Run) (data salt : Bytes) : Bytes := Scrypt.hashValue b x.quarter 1024 1 1 x.memory x.order data salt 64
/-- `scrypt_private` (encrypted_keys.cpp:137-142). -/
def scryptPrivate (x : Run) (data salt : Bytes) : Bytes := Scrypt.hashValue b x.quarter 16384 8 8 x.memory x.order data salt 64

/-- `set_flags` (encrypted_keys.cpp:147-172). -/
def setFlags (compressed lot multiplied : Bool) : UInt8 :=
  let byte : UInt8 := 0
  let byte := if compressed then byte ||| 0x20 else byte
  let byte := if lot then byte ||| 0x04 else byte
  if !multiplied then byte ||| 0xc0 else byte

/-- `prefix_factory` of a private key (parse_encrypted_private.cpp:38-45). -/
def privatePrefix (address : UInt8) (multiplied : Bool) : Bytes := [0x01, (if multiplied then 0x43 else 0x42) + address]
/-- `prefix_factory` of a public key (parse_encrypted_public.cpp:40-45). -/
def publicPrefix (address : UInt8) : Bytes := [0x64, 0x3b, 0xf6, 0xa8, 0x9a + address]
/-- `prefix_factory` of a token (parse_encrypted_token.cpp:38-43). -/
def tokenPrefix (lot : Bool) : Bytes := [0x2c, 0xe9, 0xb3, 0xe1, 0xff, 0x39, 0xe2, if lot then 0x51 else 0x53]

/-- `create_private_key` (encrypted_keys.cpp:177-201). -/
def createPrivate (flags : UInt8) (salt entropy derived1 derived2 seed : Bytes) (version : UInt8) : Bytes :=
  let encrypt1 := Aes.encrypt (xorOffset 16 0 0 seed derived1) derived2
  let combined := slice encrypt1 8 16 ++ slice seed 16 24
  let encrypt2 := Aes.encrypt (xorOffset 16 0 16 combined derived1) derived2
  let quarter1 := slice encrypt1 0 8
  insertChecksum b (privatePrefix version true ++ [flags] ++ salt ++ entropy ++ quarter1 ++ encrypt2)

/-- `create_public_key` (encrypted_keys.cpp:203-234). -/
def createPublic (flags : UInt8) (salt entropy derived1 derived2 secret : Bytes) (version : UInt8) : Option Bytes :=
  match secretToPublic C secret with
  | none => none
  | some point =>
    let hash := pointHash point
    let encrypted1 := Aes.encrypt (xorOffset 16 0 0 hash derived1) derived2
    let encrypted2 := Aes.encrypt (xorOffset 16 16 16 hash derived1) derived2
    let sign := pointSign (point.headD 0) derived2
    some (insertChecksum b (publicPrefix version ++ [flags] ++ salt ++ entropy ++ [sign] ++ encrypted1 ++ encrypted2))

/-- `parse_encrypted_token` (parse_encrypted_token.cpp:45-84). -/
structure Token where
  value : Bytes
/-- As above, parse_encrypted_token.cpp:45-84. -/
def Token.context (t : Token) : UInt8 := t.value.getD 7 0
/-- As above, parse_encrypted_token.cpp:45-84. -/
def Token.entropy (t : Token) : Bytes := slice t.value 8 16
/-- As above, parse_encrypted_token.cpp:45-84. -/
def Token.sign (t : Token) : Bytes := slice t.value 16 17
/-- As above, parse_encrypted_token.cpp:45-84. -/
def Token.data (t : Token) : Bytes := slice t.value 17 49
/-- As above, parse_encrypted_token.cpp:45-84. -/
def Token.lot (t : Token) : Bool := t.context == 0x51
/-- As above, parse_encrypted_token.cpp:45-84. -/
def Token.valid (t : Token) : Bool :=
  (slice t.value 0 7 == [0x2c, 0xe9, 0xb3, 0xe1, 0xff, 0x39, 0xe2]) && (t.context == 0x53 || t.lot) && verifyArray b t.value

/-- `create_key_pair` (encrypted_keys.cpp:236-278): encrypted private and public keys, and the point. -/
def createKeyPair (x : Run) (token seed : Bytes) (version : UInt8) (compressed : Bool) : Option (Bytes × Bytes × Bytes) :=
  let parse : Token := ⟨token⟩
  if !parse.valid b then none
  else
    let point := parse.sign ++ parse.data
    let factor := HashFn.bitcoinHash b true seed
    match mulPoint C point factor with
    | none => none
    | some copy =>
      match saltOfPoint C b copy version compressed with
      | none => none
      | some salt =>
        let derived := scryptPair b x point (salt ++ parse.entropy)
        let flags := setFlags compressed parse.lot true
        match createPublic C b flags salt parse.entropy (derived.take 32) (derived.drop 32) factor version with
        | none => none
        | some pub => some (createPrivate b flags salt parse.entropy (derived.take 32) (derived.drop 32) seed version, pub, copy)

/-- `create_token` (encrypted_keys.cpp:290-316); `lot` is the test of the size of the salt. -/
def createTokenWith (x : Run) (passphrase salt entropy pre : Bytes) : Option Bytes :=
  let lot := decide (salt.length = 4)
  let factor := scryptToken b x (normal passphrase) salt
  let factor := if lot then HashFn.bitcoinHash2 b true factor entropy else factor
  match secretToPublic C factor with
  | none => none
  | some point => some (insertChecksum b (pre ++ entropy ++ point))

/-- `create_token` without lot and sequence (encrypted_keys.cpp:318-327). -/
def createToken (x : Run) (passphrase entropy : Bytes) : Option Bytes :=
  createTokenWith C b normal x passphrase entropy entropy (tokenPrefix false)

/-- `create_token` with lot and sequence (encrypted_keys.cpp:329-342): the result and the out argument, which is `out` before the call. -/
def createTokenLot (x : Run) (out passphrase salt : Bytes) (lot sequence : UInt32) : Bool × Bytes :=
  if lot > 1048575 ∨ sequence > 4095 then (false, out)
  else
    let lotSequence := (lot <<< 12) ||| sequence
    let entropy := salt ++ beBytes 4 lotSequence.toNat
    (true, (createTokenWith C b normal x passphrase salt entropy (tokenPrefix true)).getD out)

/-- `encrypt` (encrypted_keys.cpp:347-374). -/
def encrypt (x : Run) (secret passphrase : Bytes) (version : UInt8) (compressed : Bool) : Option Bytes :=
  match saltOfSecret C b secret version compressed with
  | none => none
  | some salt =>
    let derived := scryptPrivate b x (normal passphrase) salt
    let encrypted1 := Aes.encrypt (xorOffset 16 0 0 secret (derived.take 32)) (derived.drop 32)
    let encrypted2 := Aes.encrypt (xorOffset 16 16 16 secret (derived.take 32)) (derived.drop 32)
    some (insertChecksum b (privatePrefix version false ++ [setFlags compressed false false] ++ salt ++ encrypted1 ++ encrypted2))

/-- `parse_encrypted_key` (parse_encrypted_key.ipp:30-79), over the offset of the flags in the value. -/
def flags (at_ : Nat) (v : Bytes) : UInt8 := v.getD at_ 0
/-- As above, parse_encrypted_key.ipp:30-79. -/
def salt (at_ : Nat) (v : Bytes) : Bytes := slice v (at_ + 1) (at_ + 5)
/-- As above, parse_encrypted_key.ipp:30-79. -/
def entropy (at_ : Nat) (v : Bytes) : Bytes := slice v (at_ + 5) (at_ + 13)
/-- As above, parse_encrypted_key.ipp:30-79. -/
def compressed (at_ : Nat) (v : Bytes) : Bool := flags at_ v &&& 0x20 != 0
/-- As above, parse_encrypted_key.ipp:30-79. -/
def lot (at_ : Nat) (v : Bytes) : Bool := flags at_ v &&& 0x04 != 0
/-- As above, parse_encrypted_key.ipp:30-79. -/
def ownerSalt (at_ : Nat) (v : Bytes) : Bytes := if lot at_ v then slice (entropy at_ v) 0 4 else entropy at_ v

/-- `parse_encrypted_private` (parse_encrypted_private.cpp:47-85). -/
structure Private where
  value : Bytes
/-- As above, parse_encrypted_private.cpp:47-85. -/
def Private.data1 (p : Private) : Bytes := slice p.value 15 23
/-- As above, parse_encrypted_private.cpp:47-85. -/
def Private.data2 (p : Private) : Bytes := slice p.value 23 39
/-- As above, parse_encrypted_private.cpp:47-85. -/
def Private.multiplied (p : Private) : Bool := flags 2 p.value &&& 0xc0 == 0
/-- As above, parse_encrypted_private.cpp:47-85. -/
def Private.version (p : Private) : UInt8 := p.value.getD 1 0 - (if p.multiplied then 0x43 else 0x42)
/-- As above, parse_encrypted_private.cpp:47-85. -/
def Private.valid (p : Private) : Bool := (slice p.value 0 1 == [0x01]) && verifyArray b p.value

/-- `parse_encrypted_public` (parse_encrypted_public.cpp:47-78). -/
structure Public where
  value : Bytes
/-- As above, parse_encrypted_public.cpp:47-78. -/
def Public.sign (p : Public) : UInt8 := p.value.getD 18 0
/-- As above, parse_encrypted_public.cpp:47-78. -/
def Public.data (p : Public) : Bytes := slice p.value 19 51
/-- As above, parse_encrypted_public.cpp:47-78. -/
def Public.version (p : Public) : UInt8 := p.value.getD 4 0 - 0x9a
/-- As above, parse_encrypted_public.cpp:47-78. -/
def Public.valid (p : Public) : Bool := (slice p.value 0 4 == [0x64, 0x3b, 0xf6, 0xa8]) && verifyArray b p.value

/-- `decrypt_multiplied` (encrypted_keys.cpp:379-416). -/
def decryptMultiplied (x y : Run) (p : Private) (passphrase : Bytes) : Option Bytes :=
  let v := p.value
  let secret := scryptToken b x (normal passphrase) (ownerSalt 2 v)
  let secret := if lot 2 v then HashFn.bitcoinHash2 b true secret (entropy 2 v) else secret
  match secretToPublic C secret with
  | none => none
  | some point =>
    let derived := scryptPair b y point (salt 2 v ++ entropy 2 v)
    let encrypt1 := p.data1
    let encrypt2 := Aes.decrypt p.data2 (derived.drop 32)
    let decrypt2 := xorOffset 16 0 16 encrypt2 (derived.take 32)
    let extended := Aes.decrypt (encrypt1 ++ decrypt2.take 8) (derived.drop 32)
    let decrypt1 := xorOffset 16 0 0 extended (derived.take 32)
    let factor := HashFn.bitcoinHash2 b true decrypt1 (decrypt2.drop 8)
    match mulSecret C secret factor with
    | none => none
    | some secret => if !validateSecret C b (salt 2 v) secret p.version (compressed 2 v) then none else some secret

/-- `decrypt_secret` (encrypted_keys.cpp:418-440). -/
def decryptSecret (x : Run) (p : Private) (passphrase : Bytes) : Option Bytes :=
  let v := p.value
  let derived := scryptPrivate b x (normal passphrase) (salt 2 v)
  let encrypt1 := Aes.decrypt (entropy 2 v ++ p.data1) (derived.drop 32)
  let encrypt2 := Aes.decrypt p.data2 (derived.drop 32)
  let secret := xorOffset 32 0 0 (encrypt1 ++ encrypt2) (derived.take 32)
  if !validateSecret C b (salt 2 v) secret p.version (compressed 2 v) then none else some secret

/-- `decrypt` of a private key (encrypted_keys.cpp:442-460): secret, version and compression. -/
def decrypt (x y : Run) (key passphrase : Bytes) : Option (Bytes × UInt8 × Bool) :=
  let p : Private := ⟨key⟩
  if !p.valid b then none
  else (if p.multiplied then decryptMultiplied C b normal x y p passphrase else decryptSecret C b normal x p passphrase).map fun s =>
    (s, p.version, compressed 2 key)

/-- `decrypt` of a public key (encrypted_keys.cpp:465-506). -/
def decryptPublic (x y : Run) (key passphrase : Bytes) : Option (Bytes × UInt8 × Bool) :=
  let p : Public := ⟨key⟩
  if !p.valid b then none
  else
    let factor := scryptToken b x (normal passphrase) (ownerSalt 5 key)
    let factor := if lot 5 key then HashFn.bitcoinHash2 b true factor (entropy 5 key) else factor
    match secretToPublic C factor with
    | none => none
    | some point =>
      let derived := scryptPair b y point (salt 5 key ++ entropy 5 key)
      let decrypt1 := xorOffset 16 0 0 (Aes.decrypt (p.data.take 16) (derived.drop 32)) (derived.take 32)
      let decrypt2 := xorOffset 16 0 16 (Aes.decrypt (p.data.drop 16) (derived.drop 32)) (derived.take 32)
      match mulPoint C ([pointSign p.sign (derived.drop 32)] ++ decrypt1 ++ decrypt2) factor with
      | none => none
      | some product =>
        if !validatePoint C b (salt 5 key) product p.version (compressed 5 key) then none
        else some (product, p.version, compressed 5 key)

/-- `from_string` of `ek_private`, `ek_public` and `ek_token` (ek_private.cpp:48-55), by the size of the array: 43, 55 and 53. -/
def fromString (size : Nat) (text : Bytes) : Option Bytes :=
  match Radix.decode58 text with
  | none => none
  | some d => if d.length = size then (if verifyArray b d then some d else none) else none

/-- `encoded` (ek_private.cpp:73-76). -/
def encoded (value : Bytes) : Bytes := Radix.encode58 value

end Verif.Bip38
