import Verif.Model.Pack
/-!
# Model of the bech32 checksum and of witness addresses

Sources: src/hash/checksum.cpp, src/wallet/addresses/witness_address.cpp. Text is a byte string (`std::string`), 5-bit groups are naturals
below 32. `char` is signed (x86).
-/
namespace Verif.Bech32
open Verif Verif.Pack

/-- `ascii_to_lower` of a character (src/unicode/ascii.cpp:54-64). -/
def lowerChar (c : UInt8) : UInt8 := if 65 ≤ c ∧ c ≤ 90 then c + 32 else c

/-- `ascii_to_lower` (src/unicode/ascii.cpp:54-64). -/
def toLower (s : Bytes) : Bytes := s.map lowerChar

/-- `character >> 5` stored as a 5-bit number (checksum.cpp:83): an arithmetic shift of a signed character, truncated. -/
def highPart (c : UInt8) : Nat := (c.toNat >>> 5 + if c < 128 then 0 else 24) % 32

/-- `bech32_expand_prefix` (checksum.cpp:74-89). -/
def expandPrefix (prefix_ : Bytes) : List Nat :=
  (toLower prefix_).map highPart ++ [0] ++ (toLower prefix_).map fun c => c.toNat % 32

/-- `bech32_expand_checksum` (checksum.cpp:91-101): assignment to a 5-bit number truncates. -/
def expandChecksum (c : Nat) : List Nat :=
  [(c >>> 25) % 32, (c >>> 20) % 32, (c >>> 15) % 32, (c >>> 10) % 32, (c >>> 5) % 32, (c >>> 0) % 32]

/-- The five conditional terms (checksum.cpp:112-116). -/
def feedback (k : Nat) : Nat :=
  (if k &&& 0x01 ≠ 0 then 0x3b6a57b2 else 0) ^^^ (if k &&& 0x02 ≠ 0 then 0x26508e6d else 0) ^^^ (if k &&& 0x04 ≠ 0 then 0x1ea119fa else 0) ^^^
  (if k &&& 0x08 ≠ 0 then 0x3d4233dd else 0) ^^^ (if k &&& 0x10 ≠ 0 then 0x2a1462b3 else 0)

/-- One round of `bech32_checksum` (checksum.cpp:109-116), 32-bit arithmetic. -/
def round (checksum value : Nat) : Nat := (((checksum &&& 0x01ffffff) <<< 5) % 2 ^ 32 ^^^ value) ^^^ feedback (checksum >>> 25)

/-- `bech32_checksum` (checksum.cpp:103-120). -/
def checksum (data : List Nat) : Nat := data.foldl round 1

/-- `bech32_constant` (checksum.cpp:122-127). -/
def constant (version : Nat) : Nat := if version = 0 then 0x00000001 else 0x2bc830a3

/-- `bech32_append_checksum` (checksum.cpp:136-145). -/
def appendChecksum (data : List Nat) (prefix_ : Bytes) (version : Nat) : List Nat :=
  data ++ expandChecksum (checksum (expandPrefix prefix_ ++ data ++ List.replicate 6 0) ^^^ constant version)

/-- `bech32_verify_checksum` (checksum.cpp:147-153). -/
def verifyChecksum (checked : List Nat) (prefix_ : Bytes) (version : Nat) : Bool :=
  checksum (expandPrefix prefix_ ++ checked) == constant version

/-- `bech32_build_checked` (checksum.cpp:155-168). -/
def buildChecked (version : Nat) (program prefix_ : Bytes) : List Nat :=
  if 32 ≤ version then [] else appendChecksum (version :: unpack32 program) prefix_ version

/-- `bech32_verify_checked` (checksum.cpp:170-184): the version and program if it verifies. -/
def verifyChecked (prefix_ : Bytes) (checked : List Nat) : Option (Nat × Bytes) :=
  if checked.length < 1 + 6 then none
  else if verifyChecksum checked prefix_ (checked.headD 0) then
    some (checked.headD 0, pack32 ((checked.drop 1).take (checked.length - 7)))
  else none

/-! ## Witness addresses -/

/-- `witness_address::parse_result` (witness_address.hpp:41-67). -/
inductive Parse where
  | prefixNotAscii | prefixNotLowerCase | prefixTooShort | prefixTooLong | prefixInvalidCharacter | prefixUnknown
  | addressNotAscii | addressMixedCase | addressTooLong | prefixMissing | payloadTooShort | payloadTooLong | payloadNotBase32
  | checksumInvalid | versionInvalid | programInvalid
deriving DecidableEq

/-- `witness_address::program_type` (witness_address.hpp:69-76). -/
inductive Program where
  | v0p2kh | v0p2sh | v1taproot | unknown | invalid
deriving DecidableEq

/-- As above, witness_address.hpp:69-76. -/
def mainnet : Bytes := Radix.ascii "bc"
/-- As above, witness_address.hpp:69-76. -/
def testnet : Bytes := Radix.ascii "tb"

/-- `is_ascii` (src/unicode/ascii.cpp:31-34, ascii.ipp:32-35). -/
def isAscii (s : Bytes) : Bool := s.all fun c => c < 128

/-- `witness_address::parse_prefix` (witness_address.cpp:140-180): `none` is valid. -/
def parsePrefix (prefix_ : Bytes) (strict : Bool) : Option Parse :=
  if !isAscii prefix_ then some .prefixNotAscii
  else if toLower prefix_ ≠ prefix_ then some .prefixNotLowerCase
  else if prefix_.length < 1 then some .prefixTooShort
  else if prefix_.length > 90 - 2 - 4 - 6 then some .prefixTooLong
  else if prefix_.any (fun c => c < 33 || c > 126) then some .prefixInvalidCharacter
  else if strict ∧ prefix_ ≠ mainnet ∧ prefix_ ≠ testnet then some .prefixUnknown
  else none

/-- `witness_address::parse_program` (witness_address.cpp:125-138, 182-217). -/
def parseProgram (version : Nat) (program : Bytes) (strict : Bool) : Program :=
  if ¬ version ≤ 16 ∨ ¬ (2 ≤ program.length ∧ program.length ≤ 40) then .invalid
  else if version = 0 then
    if program.length = 20 then .v0p2kh else if program.length = 32 then .v0p2sh else .invalid
  else if version = 1 then
    if program.length = 32 then .v1taproot else .invalid
  else if strict then .invalid else .unknown

/-- Position after the last separator: `rfind` (witness_address.cpp:235-241), the text before and after it. -/
def splitLast (sep : UInt8) (s : Bytes) : Option (Bytes × Bytes) :=
  if sep ∈ s then
    some ((s.reverse.dropWhile (· ≠ sep)).reverse.dropLast, (s.reverse.takeWhile (· ≠ sep)).reverse)
  else none

/-- A witness address: prefix, version and program. Used for witness_address.cpp:219-276. -/
structure Address where
  prefix_ : Bytes
  version : Nat
  program : Bytes
deriving DecidableEq

/-- `witness_address::parse_address` (witness_address.cpp:219-276). The decoder is given ASCII text only, so never reads out of bounds
(`C33_base32_accepts`). -/
def parseAddress (address : Bytes) (strict : Bool) : Except Parse Address :=
  if !isAscii address then .error .addressNotAscii
  else if mixedCase address then .error .addressMixedCase
  else if address.length > 90 then .error .addressTooLong
  else match splitLast 49 (toLower address) with
  | none => .error .prefixMissing
  | some (prefix_, payload) =>
    match parsePrefix prefix_ strict with
    | some e => .error e
    | none =>
      if payload.length < 1 + 4 + 6 then .error .payloadTooShort
      else if payload.length > 1 + 64 + 6 then .error .payloadTooLong
      else match decodeGroups payload with
      | .undefined => .error .payloadNotBase32
      | .fail => .error .payloadNotBase32
      | .ok checked =>
        match verifyChecked prefix_ checked with
        | none => .error .checksumInvalid
        | some (version, program) =>
          if ¬ version ≤ 16 then .error .versionInvalid
          else if parseProgram version program strict = .invalid then .error .programInvalid
          else .ok ⟨prefix_, version, program⟩

/-- `witness_address::from_parameters` (witness_address.cpp:297-315): `none` is the invalid address. -/
def fromParameters (program : Bytes) (version : Nat) (prefix_ : Bytes) : Option Address :=
  if parsePrefix prefix_ false ≠ none then none
  else if parseProgram version program false = .invalid then none
  else some ⟨prefix_, version, program⟩

/-- `witness_address::encoded` of a valid address (witness_address.cpp:387-394). -/
def encoded (a : Address) : Bytes := a.prefix_ ++ [49] ++ encodeGroups (buildChecked a.version a.program a.prefix_)

end Verif.Bech32
