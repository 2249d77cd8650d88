import Verif.Model.Radix
/-!
# Model of base10 amounts

Source: src/radix/base_10.cpp. Text is a byte string. Stream formatting and parsing of an unsigned integer in the classic locale is modelled by
`formatDec` and `parseDec`.
-/
namespace Verif.Base10
open Verif

/-- `is_digit` (base_10.cpp:51-54). -/
def isDigit (c : UInt8) : Bool := 48 ≤ c && c ≤ 57

/-- Value of a string of digits. Used for deserialize.ipp:96-118. -/
def digitsVal (s : Bytes) : Nat := s.foldl (fun v c => v * 10 + (c.toNat - 48)) 0

/-- `istream >> uint64_t` of a nonempty string of digits only (include/bitcoin/system/impl/serial/deserialize.ipp:96-118): fails above 2^64 - 1. -/
def parseDec (s : Bytes) : Option Nat := if digitsVal s < 2 ^ 64 then some (digitsVal s) else none

/-- `ostream << uint64_t`: decimal digits. -/
def formatDec (n : Nat) : Bytes := if n < 10 then [UInt8.ofNat (48 + n)] else formatDec (n / 10) ++ [UInt8.ofNat (48 + n % 10)]

/-- `decode_base10` (base_10.cpp:62-101). The text is split where the first point was; `places` are the digits after it. -/
def decode (amount : Bytes) (decimalPlaces : Nat) (strict : Bool) : Option Nat :=
  let whole := amount.takeWhile (· ≠ 46)
  let places := (amount.dropWhile (· ≠ 46)).drop 1
  if (whole ++ places).all isDigit then
    let value := whole ++ places ++ List.replicate (decimalPlaces - places.length) 48
    let truncated := if decimalPlaces < places.length then !(places.drop decimalPlaces).all (· == 48) else false
    let value := if decimalPlaces < places.length then value.take (whole.length + decimalPlaces) else value
    if strict && truncated then none
    else
      match (if value ≠ [] then parseDec value else some 0) with
      | none => none
      | some number => if truncated && number == 2 ^ 64 - 1 then none else some (number + if truncated then 1 else 0)
  else none

/-- `trim_right` of a single character token (src/data/string.cpp:174-213). -/
def trimRight (c : UInt8) (s : Bytes) : Bytes := (s.reverse.dropWhile (· == c)).reverse

/-- `encode_base10` (base_10.cpp:103-114). -/
def encode (amount decimalPlaces : Nat) : Bytes :=
  let digits := formatDec amount
  let text := List.replicate (decimalPlaces + 1 - digits.length) 48 ++ digits
  let text := text.take (text.length - decimalPlaces) ++ [46] ++ text.drop (text.length - decimalPlaces)
  trimRight 46 (trimRight 48 text)

end Verif.Base10
