import Verif.Spec.Wallet
import Verif.Spec.Scrypt
import Verif.Spec.Aes
/-!
# BIP38

The payloads, each followed by a checksum and written in base58. `version` is that of the payment address, zero in BIP38; the library adds
it to the last byte of the prefix. `P` is the passphrase in normal form, `text` the address as text.
-/
namespace Verif.Spec.Bip38
open Verif Verif.Spec.Wallet

def xor (x y : Bytes) : Bytes := List.zipWith (· ^^^ ·) x y
def aes (key data : Bytes) : Bytes := Aes.cipher key data
def scrypt := Scrypt.scrypt

/-- `addresshash`: the first four bytes of the double hash of the address. -/
def addresshash (text : Bytes) : Bytes := (sha256d text).take 4

/-- The flag byte. -/
def flagbyte (compressed lot multiplied : Bool) : UInt8 :=
  (if multiplied then 0 else 0xc0) + (if compressed then 0x20 else 0) + (if lot then 0x04 else 0)

/-- A key encrypted without multiplication. -/
def privateKey (P secret text : Bytes) (version : UInt8) (compressed : Bool) : Bytes :=
  let hash := addresshash text
  let derived := scrypt P hash 16384 8 8 64
  let half1 := derived.take 32
  let half2 := derived.drop 32
  [0x01, 0x42 + version, flagbyte compressed false false] ++ hash ++
    aes half2 (xor (secret.take 16) (half1.take 16)) ++ aes half2 (xor (secret.drop 16) (half1.drop 16))

/-- Where the owner's salt comes with a lot and a sequence number, or without. -/
inductive Owner where
  | plain (salt : Bytes)
  | lot (salt : Bytes) (lot sequence : Nat)

def Owner.entropy : Owner → Bytes
  | .plain s => s
  | .lot s l q => s ++ beBytes 4 (4096 * l + q)
def Owner.isLot : Owner → Bool
  | .plain _ => false
  | .lot .. => true
/-- `passfactor`. -/
def Owner.factor (P : Bytes) : Owner → Bytes
  | .plain s => scrypt P s 16384 8 8 32
  | .lot s l q => sha256d (scrypt P s 16384 8 8 32 ++ (Owner.lot s l q).entropy)
/-- The sizes: eight bytes, or four with a lot of twenty bits and a sequence of twelve. -/
def Owner.OK : Owner → Prop
  | .plain s => s.length = 8
  | .lot s l q => s.length = 4 ∧ l < 2 ^ 20 ∧ q < 2 ^ 12

/-- The intermediate code of `passpoint`. -/
def token (o : Owner) (passpoint : Bytes) : Bytes :=
  [0x2c, 0xe9, 0xb3, 0xe1, 0xff, 0x39, 0xe2, if o.isLot then 0x51 else 0x53] ++ o.entropy ++ passpoint

/-- A key encrypted with multiplication, from the intermediate code and `seedb`; `text` is the generated address. -/
def multipliedKey (o : Owner) (passpoint seed text : Bytes) (version : UInt8) (compressed : Bool) : Bytes :=
  let hash := addresshash text
  let derived := scrypt passpoint (hash ++ o.entropy) 1024 1 1 64
  let half1 := derived.take 32
  let half2 := derived.drop 32
  let part1 := aes half2 (xor (seed.take 16) (half1.take 16))
  let part2 := aes half2 (xor (part1.drop 8 ++ seed.drop 16) (half1.drop 16))
  [0x01, 0x43 + version, flagbyte compressed o.isLot true] ++ hash ++ o.entropy ++ part1.take 8 ++ part2

/-- The confirmation code; `pointb` is the compressed point of `factorb`. -/
def confirmation (o : Owner) (passpoint pointb text : Bytes) (version : UInt8) (compressed : Bool) : Bytes :=
  let hash := addresshash text
  let derived := scrypt passpoint (hash ++ o.entropy) 1024 1 1 64
  let half1 := derived.take 32
  let half2 := derived.drop 32
  [0x64, 0x3b, 0xf6, 0xa8, 0x9a + version, flagbyte compressed o.isLot true] ++ hash ++ o.entropy ++
    [pointb.headD 0 ^^^ (half2.getLastD 0 &&& 1)] ++
    aes half2 (xor ((pointb.drop 1).take 16) (half1.take 16)) ++ aes half2 (xor (pointb.drop 17) (half1.drop 16))

end Verif.Spec.Bip38
