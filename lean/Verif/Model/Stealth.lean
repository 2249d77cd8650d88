import Verif.Model.Wallet
import Verif.Model.Binary
import Verif.Model.Patterns
/-!
# Stealth payments and addresses

Sources: src/wallet/keys/stealth.cpp, src/wallet/addresses/stealth_address.cpp, stealth_sender.cpp, stealth_receiver.cpp.
Functions with an out argument and a success flag give `some` of the value, or `none`.
-/
namespace Verif.Stealth
open Verif Verif.Ec Verif.Wallet Verif.Binary Verif.Pattern
open Verif.Sha (Build)
variable {P : Type} [AddCommGroup P] [DecidableEq P] (C : Curve P) (b : Build)

/-- The data of a stealth script: `is_stealth_script` (stealth.cpp:34-38) with the access to `ops().at(1)`, which the pattern guards. -/
def stealthData (ops : List Op) : Option Bytes :=
  if payNullData ops then
    match ops with
    | _ :: o :: _ => if 32 ≤ o.data.length then some o.data else none
    | _ => none
  else none

/-- `to_stealth_prefix` (stealth.cpp:40-51). -/
def stealthPrefix (ops : List Op) : Option Nat :=
  (stealthData ops).map fun _ => leNat ((HashFn.bitcoinHash b true (opsData ops)).take 4)

/-- The secret of a nonce: `hmac<sha256>::code(nonced_seed, "Stealth seed")` (stealth.cpp:57, 65-66). -/
def nonceSecret (seed : Bytes) (nonce : Nat) : Bytes :=
  Hmac.code (HashFn.acc256 b) true (UInt8.ofNat nonce :: seed) (Radix.ascii "Stealth seed")

/-- The loop of `create_ephemeral_key` (stealth.cpp:63-69) over the secrets by nonce; the number is that of the trials left, of 255. -/
def ephemeralLoop (secret : Nat → Bytes) : Nat → Option Bytes
  | 0 => none
  | n + 1 =>
    match secretToPublic C (secret (255 - (n + 1))) with
    | some point => if isEvenKey point then some (secret (255 - (n + 1))) else ephemeralLoop secret n
    | none => ephemeralLoop secret n

/-- `create_ephemeral_key` (stealth.cpp:53-73). -/
def createEphemeral (seed : Bytes) : Option Bytes := ephemeralLoop C (nonceSecret b seed) 255

/-- The nonce loop of `create_stealth_script` (stealth.cpp:118-133), over a trial for each nonce, with fuel for one round trip
(`mine_none`: it ends at the start, not for want of fuel). -/
def mineLoop (trial : UInt32 → Option (List Op)) (start : UInt32) : Nat → UInt32 → Option (List Op)
  | 0, _ => none
  | f + 1, nonce =>
    if nonce = start then none
    else match trial nonce with
      | some s => some s
      | none => mineLoop trial start f (nonce + 1)

/-- The script of a nonce (stealth.cpp:120-127), given the key and pad. -/
def nonceScript (head : Bytes) (nonce : UInt32) : List Op := toPayNullData (head ++ leBytes 4 nonce.toNat)

/-- The trial of a nonce (stealth.cpp:120-132). -/
def trial (filter : Binary) (head : Bytes) (nonce : UInt32) : Option (List Op) :=
  let s := nonceScript head nonce
  match stealthPrefix b s with
  | some out => if same filter (ofData filter.bits (leBytes 4 out)) then some s else none
  | none => none

/-- The pad of the script and the start nonce (stealth.cpp:88-96, 110-116). -/
def padOf (seed : Bytes) : Bytes := (HashFn.sha512Hash b true seed).take (((HashFn.sha512Hash b true seed).getLastD 0).toNat % 44)
/-- As above, stealth.cpp:88-96, 110-116. -/
def startOf (seed : Bytes) : UInt32 := UInt32.ofNat (leNat (((HashFn.sha512Hash b true seed).drop 44).take 4))

/-- `create_stealth_script` (stealth.cpp:84-138). -/
def createScript (secret : Bytes) (filter : Binary) (seed : Bytes) : Option (List Op) :=
  match secretToPublic C secret with
  | none => none
  | some point =>
    if !isEvenKey point then none
    else
      let head := (point.drop 1).take 32 ++ padOf b seed
      mineLoop (trial b filter head) (startOf b seed) (2 ^ 32) (startOf b seed + 1)

/-- `create_stealth_data` (stealth.cpp:75-82). -/
def createData (filter : Binary) (seed : Bytes) : Option (Bytes × List Op) :=
  (createEphemeral C b seed).bind fun s => (createScript C b s filter seed).map fun ops => (s, ops)

/-- `extract_ephemeral_key` (stealth.cpp:140-155). -/
def extractKey (ops : List Op) : Option Bytes := (stealthData ops).map fun d => 2 :: d.take 32
/-- `extract_ephemeral_key`, unsigned (stealth.cpp:157-166). -/
def extractHash (ops : List Op) : Option Bytes := (stealthData ops).map fun d => d.take 32

/-- `shared_secret` (stealth.cpp:168-177). -/
def sharedSecret (secret point : Bytes) : Option Bytes := (mulPoint C point secret).map (HashFn.sha256Hash b true)
/-- `uncover_stealth` of a point (stealth.cpp:179-193). -/
def uncoverPublic (point secret spend : Bytes) : Option Bytes := (sharedSecret C b secret point).bind fun s => addPoint C spend s
/-- `uncover_stealth` of a secret (stealth.cpp:195-209). -/
def uncoverPrivate (point secret spend : Bytes) : Option Bytes := (sharedSecret C b secret point).bind fun s => addSecret C spend s

/-! ## Addresses -/

/-- `stealth_address` (stealth_address.hpp:103-109). -/
structure Address where
  valid : Bool
  version : UInt8
  scan : Bytes
  spends : List Bytes
  signatures : UInt8
  filter : Binary
deriving DecidableEq

/-- Default (stealth_address.cpp:58-62). -/
def Address.none : Address := ⟨false, 0, List.replicate 33 0, [], 0, ⟨0, []⟩⟩

/-- `from_stealth` of the parts (stealth_address.cpp:175-202). -/
def Address.ofParts (filter : Binary) (scan : Bytes) (spends : List Bytes) (signatures version : UInt8) : Address :=
  let spenders := if spends = [] then [scan] else spends
  if 255 < spenders.length then .none
  else if 32 < filter.bits then .none
  else
    let coerced := if signatures = 0 ∨ spenders.length < signatures.toNat then UInt8.ofNat spenders.length else signatures
    ⟨true, version, scan, spenders, coerced, filter⟩

/-- Bytes from a position; `none` is a read outside of the data. Used for stealth_address.cpp:101-173. -/
def slice (d : Bytes) (i n : Nat) : Option Bytes := if i + n ≤ d.length then some ((d.drop i).take n) else Option.none

/-- `from_stealth` of data (stealth_address.cpp:101-173). The outer `none` is a read outside of the data. -/
def Address.fromChunk (d : Bytes) : Option Address :=
  if d.length < 42 ∨ verifyChunk b d = false then some .none
  else do
    let version ← d[0]?
    let options ← d[1]?
    if 1 < options then some .none
    else do
      let scan ← slice d 2 33
      let count ← d[35]?
      if d.length < 42 + count.toNat * 33 then some .none
      else do
        let keys ← (List.range count.toNat).mapM fun k => slice d (36 + 33 * k) 33
        let signatures ← d[36 + 33 * count.toNat]?
        let bits ← d[37 + 33 * count.toNat]?
        if 32 < bits.toNat then some .none
        else if d.length ≠ 42 + count.toNat * 33 + byteCount bits.toNat then some .none
        else do
          let raw ← slice d (38 + 33 * count.toNat) (byteCount bits.toNat)
          some (Address.ofParts (ofData bits.toNat raw) scan (if options = 1 then scan :: keys else keys) signatures version)

/-- `from_string` (stealth_address.cpp:93-99). -/
def Address.fromString (text : Bytes) : Option Address :=
  match Radix.decode58 text with
  | some d => Address.fromChunk b d
  | Option.none => some .none

/-- `reuse_key` (stealth_address.cpp:295-300). -/
def Address.reuse (a : Address) : Bool := a.spends.contains a.scan
/-- `to_chunk` before the checksum (stealth_address.cpp:256-286), with `options` (302-306). -/
def Address.payload (a : Address) : Bytes :=
  [a.version, if a.reuse then 1 else 0] ++ a.scan ++ [UInt8.ofNat a.spends.length - (if a.reuse then 1 else 0)] ++
    (a.spends.filter (· != a.scan)).flatten ++ [a.signatures, UInt8.ofNat a.filter.bits] ++ a.filter.bytes
/-- `to_chunk` (stealth_address.cpp:256-289) with `append_checksum` (src/hash/checksum.cpp:47-52). -/
def Address.toChunk (a : Address) : Bytes := insertChecksum b a.payload
/-- `encoded` (stealth_address.cpp:220-223). -/
def Address.encoded (a : Address) : Bytes := Radix.encode58 (a.toChunk b)

/-! ## Sender and receiver -/

/-- `stealth_sender` of an ephemeral secret (stealth_sender.cpp:40-46, 53-74): script and payment address, `none` if not valid. -/
def sender (ephemeral : Bytes) (address : Address) (seed : Bytes) (filter : Binary) (version : UInt8) : Option (List Op × Wallet.Address) :=
  match secretToPublic C ephemeral with
  | Option.none => Option.none
  | some _ =>
    match address.spends with
    | [spend] =>
      match uncoverPublic C b address.scan ephemeral spend with
      | Option.none => Option.none
      | some key =>
        match createScript C b ephemeral filter seed with
        | Option.none => Option.none
        | some s => some (s, Wallet.Address.fromPublic C b ⟨key, true⟩ version)
    | _ => Option.none

/-- `stealth_sender` of a seed (stealth_sender.cpp:31-38). -/
def seedSender (address : Address) (seed : Bytes) (filter : Binary) (version : UInt8) : Option (List Op × Wallet.Address) :=
  (createEphemeral C b seed).bind fun e => sender C b e address seed filter version

/-- `stealth_receiver` (stealth_receiver.cpp:31-44). -/
structure Receiver where
  version : UInt8
  scan : Bytes
  spend : Bytes
  spendPublic : Bytes
  address : Address

/-- The constructor (stealth_receiver.cpp:31-44) and `operator bool` (46-49): `none` if the address is not valid. The version of
the address is its default (stealth_address.hpp:53-56). -/
def receiver (scan spend : Bytes) (filter : Binary) (version : UInt8) : Option Receiver :=
  match secretToPublic C scan, secretToPublic C spend with
  | some s, some p =>
    let a := Address.ofParts filter s [p] 0 0x2a
    if a.valid then some ⟨version, scan, spend, p, a⟩ else Option.none
  | _, _ => Option.none

/-- `derive_address` (stealth_receiver.cpp:57-67). -/
def Receiver.deriveAddress (r : Receiver) (ephemeral : Bytes) : Option Wallet.Address :=
  (uncoverPublic C b ephemeral r.scan r.spendPublic).map fun k => Wallet.Address.fromPublic C b ⟨k, true⟩ r.version
/-- `derive_private` (stealth_receiver.cpp:69-74). -/
def Receiver.derivePrivate (r : Receiver) (ephemeral : Bytes) : Option Bytes := uncoverPrivate C b ephemeral r.scan r.spend

end Verif.Stealth
