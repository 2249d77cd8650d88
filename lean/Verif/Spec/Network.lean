import Verif.Model.Network
/-!
# What the text of network addresses means
-/
namespace Verif.Network.Spec
open Verif
open Verif.Radix (ascii)

/-- Nothing for zero, otherwise a mark and the decimal number without leading zeros, which is below the limit. -/
def NumText (mark : UInt8) (limit : Nat) (t : Bytes) (n : Nat) : Prop :=
  (t = [] ∧ n = 0) ∨ (0 < n ∧ n < limit ∧ t = mark :: Base10.formatDec n)

/-- A bracketed text of lower case hexadecimal digits and colons. -/
def Bracketed (t : Bytes) : Prop := ∃ b : Bytes, b ≠ [] ∧ (∀ c ∈ b, c ∈ ascii "0123456789abcdef:") ∧ t = ascii "[" ++ b ++ ascii "]"

/-- A name: no character is a colon, question mark, slash or backslash. -/
def Name (t : Bytes) : Prop := t ≠ [] ∧ ∀ c ∈ t, c ∉ ascii ":?/\\"

/-- Digits and points. -/
def Dotted (t : Bytes) : Prop := t ≠ [] ∧ ∀ c ∈ t, c ∈ ascii "0123456789."

/-- What is assumed of the text functions of addresses: a text is of the right kind, has no whitespace and is read as the address. -/
structure Lawful (A : Asio) : Prop where
  dotted : ∀ n, Dotted (A.text4 n)
  make4 : ∀ n, A.make (A.text4 n) = some (.v4 n)
  colon : ∀ n, 58 ∈ A.text6 n
  make6 : ∀ n, A.make (A.text6 n) = some (.v6 n)

/-- The text of the address has only lower case hexadecimal digits and colons. Addresses with an embedded IPv4 address can be written with points. -/
def Plain (A : Asio) (n : BitVec 128) : Prop := ∀ c ∈ A.text6 n, c ∈ ascii "0123456789abcdef:"

/-- An address is named by a text of digits and points, or by one of hexadecimal digits and colons in brackets. -/
def Names (A : Asio) (h : Bytes) (ip : Address) : Prop :=
  (Dotted h ∧ A.make h = some ip) ∨ ∃ b : Bytes, b ≠ [] ∧ (∀ c ∈ b, c ∈ ascii "0123456789abcdef:") ∧ h = ascii "[" ++ b ++ ascii "]" ∧ A.make b = some ip

end Verif.Network.Spec
