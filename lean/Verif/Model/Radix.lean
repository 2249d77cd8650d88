import Verif.Model.Stream
/-!
# Model of base16, base58, base64 and base85 text encodings

Sources: include/bitcoin/system/impl/radix/base_16.ipp, src/radix/base_58.cpp, src/radix/base_64.cpp, src/radix/base_85.cpp.
Strings are lists of bytes (`std::string`); `none` is a false return.
-/
namespace Verif.Radix
open Verif

/-- The bytes of an ASCII literal. Used for base_58.cpp:31-32. -/
def ascii (s : String) : Bytes := s.toList.map fun c => UInt8.ofNat c.toNat

/-! ## base16 -/

/-- `is_between` (base_16.ipp:40-43). -/
def isBetween (value low high : UInt8) : Bool := low ≤ value && value ≤ high

/-- `to_base16_character` (base_16.ipp:45-48): 'a' - 10 = 87, '0' = 48. -/
def toHexChar (digit : UInt8) : UInt8 := (if isBetween digit 0 9 then 48 else 87) + digit

/-- `to_base16_hi_character`, `to_base16_lo_character` (base_16.ipp:50-58). -/
def toHexHi (octet : UInt8) : UInt8 := toHexChar (octet >>> 4)
/-- As above, base_16.ipp:50-58. -/
def toHexLo (octet : UInt8) : UInt8 := toHexChar (octet &&& 0x0f)

/-- The digit lambda of `from_base16_characters` (base_16.ipp:62-71). -/
def fromHexDigit (c : UInt8) : UInt8 :=
  if isBetween c 65 70 then c - 65 + 10 else if isBetween c 97 102 then c - 97 + 10 else c - 48

/-- `from_base16_characters` (base_16.ipp:60-75). -/
def fromHex (high low : UInt8) : UInt8 := fromHexDigit high <<< 4 ||| fromHexDigit low

/-- `is_base16` (base_16.ipp:80-94). -/
def isBase16 (c : UInt8) : Bool := isBetween c 48 57 || isBetween c 97 102 || isBetween c 65 70

/-- `encode_base16` (base_16.ipp:106-119). -/
def encode16 (d : Bytes) : Bytes := d.flatMap fun o => [toHexHi o, toHexLo o]

/-- `encode_hash` (base_16.ipp:121-135). -/
def encodeHash (d : Bytes) : Bytes := d.reverse.flatMap fun o => [toHexHi o, toHexLo o]

/-- The loop of `decode_base16` (base_16.ipp:152-157). -/
def pairs : Bytes → Bytes
  | hi :: lo :: l => fromHex hi lo :: pairs l
  | _ => []

/-- `decode_base16` to a chunk (base_16.ipp:140-160). -/
def decode16 (s : Bytes) : Option Bytes :=
  if s.length % 2 ≠ 0 then none else if !s.all isBase16 then none else some (pairs s)

/-- `is_product` (include/bitcoin/system/impl/math/multiplication.ipp:36-42). -/
def isProduct (product left right : Nat) : Bool :=
  if left == 0 || right == 0 then product == 0 else product % left == 0 && product / left == right

/-- `decode_base16` to an array of `n` bytes (base_16.ipp:162-182). -/
def decode16Array (n : Nat) (s : Bytes) : Option Bytes :=
  if !isProduct s.length 2 n then none else if !s.all isBase16 then none else some (pairs s)

/-- The loop of `decode_hash` (base_16.ipp:196-201), over the reversed string. -/
def pairsRev : Bytes → Bytes
  | lo :: hi :: l => fromHex hi lo :: pairsRev l
  | _ => []

/-- `decode_hash` to an array of `n` bytes (base_16.ipp:184-204). -/
def decodeHash (n : Nat) (s : Bytes) : Option Bytes :=
  if s.length ≠ n * 2 then none else if !s.all isBase16 then none else some (pairsRev s.reverse)

/-! ## base58 -/

/-- `base58_chars` (base_58.cpp:31-32). -/
def base58Chars : Bytes := ascii "123456789ABCDEFGHJKLMNPQRSTUVWXYZabcdefghijkmnopqrstuvwxyz"

/-- `pack_value` (base_58.cpp:77-88) and `unpack_char` (146-156): the same loop with base and multiplier swapped, over the reversed
vector; a final carry is dropped. Elements are below 256, as naturals. -/
def mulAdd (mult base : Nat) : List Nat → Nat → List Nat
  | [], _ => []
  | x :: l, carry => (carry + mult * x) % base :: mulAdd mult base l ((carry + mult * x) / base)

/-- `pack_value` (base_58.cpp:77-88). -/
def packValue (indexes : List Nat) (carry : Nat) : List Nat := (mulAdd 256 58 indexes.reverse carry).reverse

/-- `unpack_char` (base_58.cpp:146-156). -/
def unpackChar (data : List Nat) (carry : Nat) : List Nat := (mulAdd 58 256 data.reverse carry).reverse

/-- `count_leading_zeros` (base_58.cpp:62-75). -/
def leadingZeros (d : Bytes) : Nat := (d.takeWhile (· == 0)).length

/-- `find_first_nonzero` (base_58.cpp:51-60): the vector from there on. -/
def fromNonzero (l : List Nat) : List Nat := l.dropWhile (· == 0)

/-- `encode_base58` (base_58.cpp:90-125). -/
def encode58 (d : Bytes) : Bytes :=
  let z := leadingZeros d
  let indexes := (d.drop z).foldl (fun ix b => packValue ix b.toNat) (List.replicate ((d.length - z) * 138 / 100 + 1) 0)
  List.replicate z 49 ++ (fromNonzero indexes).map fun i => base58Chars.getD i 0

/-- `count_leading_zeros` of a string (base_58.cpp:127-144): leading '1'. -/
def leadingOnes (s : Bytes) : Nat := (s.takeWhile (· == 49)).length

/-- `std::string::find` of a character. Used for base_58.cpp:171-178. -/
def findChar (table : Bytes) (c : UInt8) : Option Nat := table.findIdx? (· == c)

/-- The character loop of `decode_base58` (base_58.cpp:171-178). -/
def unpackLoop : Bytes → List Nat → Option (List Nat)
  | [], data => some data
  | c :: s, data =>
    match findChar base58Chars c with
    | none => none
    | some carry => unpackLoop s (unpackChar data carry)

/-- `decode_base58` (base_58.cpp:158-190). -/
def decode58 (s : Bytes) : Option Bytes :=
  let z := leadingOnes s
  (unpackLoop (s.drop z) (List.replicate (s.length * 733 / 1000 + 1) 0)).map fun data =>
    List.replicate z 0 ++ (fromNonzero data).map UInt8.ofNat

/-- `is_base58` of a string (base_58.cpp:34-49): binary search in the sorted alphabet is membership. -/
def isBase58 (s : Bytes) : Bool := s.all fun c => base58Chars.contains c

/-! ## base64 -/

/-- `table` (base_64.cpp:39-40). -/
def base64Chars : Bytes := ascii "ABCDEFGHIJKLMNOPQRSTUVWXYZabcdefghijklmnopqrstuvwxyz0123456789+/"

/-- `encode_base64` (base_64.cpp:42-87). -/
def encode64 : Bytes → Bytes
  | a :: b :: c :: l =>
    let value := a.toNat * 2 ^ 16 + b.toNat * 2 ^ 8 + c.toNat
    [base64Chars.getD (value / 2 ^ 18 % 64) 0, base64Chars.getD (value / 2 ^ 12 % 64) 0, base64Chars.getD (value / 2 ^ 6 % 64) 0,
      base64Chars.getD (value % 64) 0] ++ encode64 l
  | [a, b] =>
    let value := a.toNat * 2 ^ 16 + b.toNat * 2 ^ 8
    [base64Chars.getD (value / 2 ^ 18 % 64) 0, base64Chars.getD (value / 2 ^ 12 % 64) 0, base64Chars.getD (value / 2 ^ 6 % 64) 0, 61]
  | [a] =>
    let value := a.toNat * 2 ^ 16
    [base64Chars.getD (value / 2 ^ 18 % 64) 0, base64Chars.getD (value / 2 ^ 12 % 64) 0, 61, 61]
  | [] => []

/-- The digit of a character (base_64.cpp:118-127). -/
def digit64 (c : UInt8) : Option Nat :=
  if 0x41 ≤ c ∧ c ≤ 0x5a then some (c.toNat - 0x41)
  else if 0x61 ≤ c ∧ c ≤ 0x7a then some (c.toNat - 0x47)
  else if 0x30 ≤ c ∧ c ≤ 0x39 then some (c.toNat + 0x04)
  else if c = 0x2b then some 0x3e
  else if c = 0x2f then some 0x3f
  else none

/-- The loops of `decode_base64` (base_64.cpp:112-151): characters left, position in the group, value (32 bits; or is addition
as the shift clears the bits), decoded bytes. -/
def loop64 : Bytes → Nat → Nat → Bytes → Option Bytes
  | [], _, _, decoded => some decoded
  | c :: s, position, value, decoded =>
    let value := value * 64 % 2 ^ 32
    match digit64 c with
    | some digit =>
      let value := value + digit
      if position = 3 then
        loop64 s 0 value (decoded ++ [UInt8.ofNat (value / 2 ^ 16), UInt8.ofNat (value / 2 ^ 8), UInt8.ofNat value])
      else loop64 s (position + 1) value decoded
    | none =>
      if c = 61 then
        if s.length = 0 then some (decoded ++ [UInt8.ofNat (value / 2 ^ 16), UInt8.ofNat (value / 2 ^ 8)])
        else if s.length = 1 then some (decoded ++ [UInt8.ofNat (value / 2 ^ 10)])
        else none
      else none

/-- `decode_base64` (base_64.cpp:89-156). -/
def decode64 (s : Bytes) : Option Bytes := if s.length % 4 ≠ 0 then none else loop64 s 0 0 []

/-! ## base85 -/

/-- `encoder` (base_85.cpp:62-74). -/
def base85Chars : Bytes := ascii "0123456789abcdefghijklmnopqrstuvwxyzABCDEFGHIJKLMNOPQRSTUVWXYZ.-:+=^!/*?&<>()[]{}@%$#"

/-- `decoder` (base_85.cpp:76-91). -/
def base85Table : List Nat := [
    0x00, 0x44, 0x00, 0x54, 0x53, 0x52, 0x48, 0x00,
    0x4B, 0x4C, 0x46, 0x41, 0x00, 0x3F, 0x3E, 0x45,
    0x00, 0x01, 0x02, 0x03, 0x04, 0x05, 0x06, 0x07,
    0x08, 0x09, 0x40, 0x00, 0x49, 0x42, 0x4A, 0x47,
    0x51, 0x24, 0x25, 0x26, 0x27, 0x28, 0x29, 0x2A,
    0x2B, 0x2C, 0x2D, 0x2E, 0x2F, 0x30, 0x31, 0x32,
    0x33, 0x34, 0x35, 0x36, 0x37, 0x38, 0x39, 0x3A,
    0x3B, 0x3C, 0x3D, 0x4D, 0x00, 0x4E, 0x43, 0x00,
    0x00, 0x0A, 0x0B, 0x0C, 0x0D, 0x0E, 0x0F, 0x10,
    0x11, 0x12, 0x13, 0x14, 0x15, 0x16, 0x17, 0x18,
    0x19, 0x1A, 0x1B, 0x1C, 0x1D, 0x1E, 0x1F, 0x20,
    0x21, 0x22, 0x23, 0x4F, 0x00, 0x50, 0x00, 0x00]

/-- The character loop of `encode_base85` (base_85.cpp:109-121), accumulator and index mod four. -/
def loopTo85 : Bytes → Nat → Nat → Bytes
  | [], _, _ => []
  | b :: l, accumulator, index =>
    let accumulator := accumulator * 256 + b.toNat
    if (index + 1) % 4 = 0 then
      ([52200625, 614125, 7225, 85, 1].map fun x => base85Chars.getD (accumulator / x % 85) 0) ++ loopTo85 l 0 (index + 1)
    else loopTo85 l accumulator (index + 1)

/-- `encode_base85` (base_85.cpp:96-126). -/
def encode85 (d : Bytes) : Option Bytes := if d.length % 4 ≠ 0 then none else some (loopTo85 d 0 0)

/-- The character loop of `decode_base85` (base_85.cpp:141-161); `signed char` less 32. -/
def loopFrom85 : Bytes → Nat → Nat → Option Bytes
  | [], _, _ => some []
  | c :: s, accumulator, index =>
    if c ≥ 128 ∨ c < 32 then none
    else
      let accumulator := accumulator * 85 + base85Table.getD (c.toNat - 32) 0
      if (index + 1) % 5 = 0 then
        (loopFrom85 s 0 (index + 1)).map fun l => ([16777216, 65536, 256, 1].map fun x => UInt8.ofNat (accumulator / x % 256)) ++ l
      else loopFrom85 s accumulator (index + 1)

/-- `decode_base85` (base_85.cpp:128-166). -/
def decode85 (s : Bytes) : Option Bytes := if s.length % 5 ≠ 0 then none else loopFrom85 s 0 0

end Verif.Radix
