import Verif.Model.Secp
import Verif.Model.HashFunctions
import Verif.Model.Radix
/-!
# Hierarchical deterministic keys (BIP32)
-/
namespace Verif.Hd
open Verif Verif.Ec
open Verif.Sha (Build)
variable {P : Type} [AddCommGroup P] [DecidableEq P] (C : Curve P) (b : Build)

/-- `hd_lineage` (include/bitcoin/system/wallet/keys/hd_public.hpp:44-53). -/
structure Lineage where
  prefixes : UInt64
  depth : UInt8
  parent : UInt32
  child : UInt32
  deriving DecidableEq

/-- `hd_public` (include/bitcoin/system/wallet/keys/hd_public.hpp:58-141). -/
structure Public where
  valid : Bool
  point : Bytes
  chain : Bytes
  lineage : Lineage
  deriving DecidableEq

/-- `hd_private` (include/bitcoin/system/wallet/keys/hd_private.hpp:36-130): an `hd_public` and the secret. -/
structure Private where
  pub : Public
  secret : Bytes
  deriving DecidableEq

/-- `hd_public::to_prefix` (hd_public.hpp:66-69). -/
def publicPrefix (prefixes : UInt64) : UInt32 := prefixes.toUInt32
/-- `hd_private::to_prefix` (hd_private.hpp:45-48). -/
def privatePrefix (prefixes : UInt64) : UInt32 := (prefixes >>> 32).toUInt32
/-- `hd_private::to_prefixes` (hd_private.hpp:50-55). -/
def toPrefixes (priv pub : UInt32) : UInt64 := (priv.toUInt64 <<< 32) ||| pub.toUInt64

/-- Default constructor of `hd_public` (src/wallet/keys/hd_public.cpp:48-52). -/
def Public.none : Public := ⟨false, List.replicate 33 0, List.replicate 32 0, ⟨0, 0, 0, 0⟩⟩
/-- Default constructor of `hd_private` (src/wallet/keys/hd_private.cpp:39-42). -/
def Private.none : Private := ⟨.none, List.replicate 32 0⟩

/-- `hd_public::from_secret` (hd_public.cpp:87-93). -/
def Public.fromSecret (secret chain : Bytes) (lineage : Lineage) : Public :=
  match secretToPublic C secret with
  | some point => ⟨true, point, chain, lineage⟩
  | Option.none => .none

/-- The private constructor of `hd_private` (hd_private.cpp:93-99). -/
def Private.make (secret chain : Bytes) (lineage : Lineage) : Private :=
  ⟨Public.fromSecret C secret chain lineage, secret⟩

/-- `hd_private::from_private` (hd_private.cpp:104-120) through the public constructor (86-91), which keeps the secret. -/
def Private.fromPrivate (secret chain : Bytes) (prefixes : UInt64) : Private :=
  if verifySecret C secret then Private.make C secret chain ⟨prefixes, 0, 0, 0⟩
  else ⟨.none, secret⟩

/-- `hmac<sha512>::code(data, key)`. -/
def hmac512 (data key : Bytes) : Bytes := Hmac.code (HashFn.acc512 b) true data key

/-- "Bitcoin seed". Used for hd_private.cpp:122-130. -/
def seedKey : Bytes := [66, 105, 116, 99, 111, 105, 110, 32, 115, 101, 101, 100]

/-- `hd_private::from_entropy` (hd_private.cpp:122-130). -/
def Private.fromEntropy (entropy : Bytes) (prefixes : UInt64) : Private :=
  let i := hmac512 b entropy seedKey
  Private.fromPrivate C (i.take 32) (i.drop 32) prefixes

/-- `to_hd_key` of `hd_public` (hd_public.cpp:191-202) before the checksum. -/
def Public.payload (x : Public) : Bytes :=
  beBytes 4 (publicPrefix x.lineage.prefixes).toNat ++ [x.lineage.depth] ++ beBytes 4 x.lineage.parent.toNat ++
    beBytes 4 x.lineage.child.toNat ++ x.chain ++ x.point
/-- `to_hd_key` of `hd_private` (hd_private.cpp:218-232) before the checksum. -/
def Private.payload (x : Private) : Bytes :=
  beBytes 4 (privatePrefix x.pub.lineage.prefixes).toNat ++ [x.pub.lineage.depth] ++ beBytes 4 x.pub.lineage.parent.toNat ++
    beBytes 4 x.pub.lineage.child.toNat ++ x.pub.chain ++ [0] ++ x.secret

/-- `insert_checksum` (include/bitcoin/system/impl/hash/checksum.ipp:30-58) with a checksum of four bytes, over a payload. -/
def insertChecksum (payload : Bytes) : Bytes := payload ++ (HashFn.bitcoinHash b true payload).take 4

/-- As above, checksum.ipp:30-58. -/
def Public.toKey (x : Public) : Bytes := insertChecksum b x.payload
/-- As above, checksum.ipp:30-58. -/
def Private.toKey (x : Private) : Bytes := insertChecksum b x.payload
/-- `encoded` (hd_public.cpp:162-165). -/
def Public.encoded (x : Public) : Bytes := Radix.encode58 (x.toKey b)
/-- `encoded` (hd_private.cpp:199-202). -/
def Private.encoded (x : Private) : Bytes := Radix.encode58 (x.toKey b)

/-- A big-endian word at an offset of the key. Used for hd_public.cpp:95-98, 109-134. -/
def word (key : Bytes) (at_ : Nat) : UInt32 := UInt32.ofNat (beNat ((key.drop at_).take 4))

/-- `hd_public::from_key(key, prefix)` (hd_public.cpp:95-98, 109-134); the key has 82 bytes, of which 78 are read. -/
def Public.fromKey (key : Bytes) (prefix_ : UInt32) : Public :=
  if word key 0 ≠ prefix_ then .none
  else ⟨true, (key.drop 45).take 33, (key.drop 13).take 32, ⟨prefix_.toUInt64, (key.drop 4).headD 0, word key 5, word key 9⟩⟩

/-- `hd_private::from_key(key, prefixes)` (hd_private.cpp:139-168). -/
def Private.fromKey (key : Bytes) (prefixes : UInt64) : Private :=
  if word key 0 ≠ privatePrefix prefixes then .none
  else if (key.drop 45).headD 0 ≠ 0 then .none
  else Private.make C ((key.drop 46).take 32) ((key.drop 13).take 32) ⟨prefixes, (key.drop 4).headD 0, word key 5, word key 9⟩

/-- `hd_private::from_key(key, public_prefix)` (hd_private.cpp:132-137). -/
def Private.fromKeyPublic (key : Bytes) (publicPrefix : UInt32) : Private :=
  Private.fromKey C key (toPrefixes (word key 0) publicPrefix)

/-- `decode_base58` to an array of 82 bytes (include/bitcoin/system/impl/radix/base_58.ipp:32-50). -/
def decodeKey (text : Bytes) : Option Bytes :=
  match Radix.decode58 text with
  | some d => if d.length = 82 then some d else Option.none
  | Option.none => Option.none

/-- `hd_public::from_string` (hd_public.cpp:100-107, 136-144). -/
def Public.fromString (text : Bytes) (prefix_ : Option UInt32) : Public :=
  match decodeKey text with
  | some key => Public.fromKey key (prefix_.getD (word key 0))
  | Option.none => .none
/-- `hd_private::from_string(encoded, prefixes)` (hd_private.cpp:180-186). -/
def Private.fromString (text : Bytes) (prefixes : UInt64) : Private :=
  match decodeKey text with
  | some key => Private.fromKey C key prefixes
  | Option.none => .none
/-- `hd_private::from_string(encoded, public_prefix)` (hd_private.cpp:170-178). -/
def Private.fromStringPublic (text : Bytes) (publicPrefix : UInt32) : Private :=
  match decodeKey text with
  | some key => Private.fromKeyPublic C key publicPrefix
  | Option.none => .none

/-- `fingerprint` (hd_public.cpp:234-237). -/
def fingerprint (point : Bytes) : UInt32 := UInt32.ofNat (beNat ((HashFn.bitcoinShortHash b true point).take 4))

/-- `hd_private::to_public` (hd_private.cpp:234-241). -/
def Private.toPublic (x : Private) : Public :=
  if x.pub.valid then Public.fromKey (x.pub.toKey b) (publicPrefix x.pub.lineage.prefixes) else .none

/-- `hd_private::derive_private` (hd_private.cpp:243-270). -/
def Private.derive (x : Private) (index : UInt32) : Private :=
  let data := if 2 ^ 31 ≤ index.toNat then [0] ++ x.secret ++ beBytes 4 index.toNat else x.pub.point ++ beBytes 4 index.toNat
  let i := hmac512 b data x.pub.chain
  match addSecret C x.secret (i.take 32) with
  | Option.none => .none
  | some child =>
    if x.pub.lineage.depth = 255 then .none
    else Private.make C child (i.drop 32) ⟨x.pub.lineage.prefixes, x.pub.lineage.depth + 1, fingerprint b x.pub.point, index⟩

/-- `hd_private::derive_public` (hd_private.cpp:272-275). -/
def Private.derivePublic (x : Private) (index : UInt32) : Public := (x.derive C b index).toPublic b

/-- `hd_public::derive_public` (hd_public.cpp:204-229). -/
def Public.derive (x : Public) (index : UInt32) : Public :=
  if 2 ^ 31 ≤ index.toNat then .none
  else
    let i := hmac512 b (x.point ++ beBytes 4 index.toNat) x.chain
    match addPoint C x.point (i.take 32) with
    | Option.none => .none
    | some child =>
      if x.lineage.depth = 255 then .none
      else ⟨true, child, i.drop 32, ⟨x.lineage.prefixes, x.lineage.depth + 1, fingerprint b x.point, index⟩⟩

end Verif.Hd
