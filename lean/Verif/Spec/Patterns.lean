import Verif.Model.Stream
import Verif.Spec.Number
/-!
# Specification: standard script forms, by bytes

Which byte strings are the standard output and input scripts. Written over script bytes only.
-/
namespace Verif.Spec.Form
open Verif

/-- `e` is an encoding of one push of the bytes `d`. -/
inductive Pushes : Bytes → Bytes → Prop
  | direct (d : Bytes) (h : d.length ≤ 75) : Pushes (UInt8.ofNat d.length :: d) d
  | one (d : Bytes) (h : d.length < 256) : Pushes (0x4c :: UInt8.ofNat d.length :: d) d
  | two (d : Bytes) (h : d.length < 65536) : Pushes (0x4d :: (writeLE 2 d.length ++ d)) d
  | four (d : Bytes) (h : d.length ≤ 4000000) : Pushes (0x4e :: (writeLE 4 d.length ++ d)) d

/-- `e` is one whole operation: a push, or a single opcode above the pushes. -/
def Whole (e : Bytes) : Prop := (∃ d, Pushes e d) ∨ ∃ c : UInt8, 79 ≤ c ∧ e = [c]

/-- SEC1: a compressed or uncompressed point by size and first byte. -/
def PublicKey (k : Bytes) : Prop :=
  (k.length = 33 ∧ (k.head? = some 2 ∨ k.head? = some 3)) ∨ (k.length = 65 ∧ k.head? = some 4)

/-- By size, a DER signature with its hash type. -/
def Endorsement (s : Bytes) : Prop := 9 ≤ s.length ∧ s.length ≤ 73

/-- `e` states the number `m` from 1 to 20: OP_1 to OP_16, or a push of at most four bytes. -/
def States (e : Bytes) (m : Nat) : Prop :=
  1 ≤ m ∧ m ≤ 20 ∧ ((m ≤ 16 ∧ e = [UInt8.ofNat (80 + m)]) ∨ ∃ d, Pushes e d ∧ d.length ≤ 4 ∧ Spec.scriptNum d = m)

/-- DUP HASH160 <20 bytes> EQUALVERIFY CHECKSIG -/
def PayKeyHash (b : Bytes) : Prop := ∃ h e, h.length = 20 ∧ Pushes e h ∧ b = [0x76, 0xa9] ++ e ++ [0x88, 0xac]
/-- HASH160 <20 bytes> EQUAL -/
def PayScriptHash (b : Bytes) : Prop := ∃ h : Bytes, h.length = 20 ∧ b = [0xa9, 0x14] ++ h ++ [0x87]
/-- <public key> CHECKSIG -/
def PayPublicKey (b : Bytes) : Prop := ∃ k e, PublicKey k ∧ Pushes e k ∧ b = e ++ [0xac]
/-- RETURN and one shortest push of at most 80 bytes (a single byte that has an opcode of its own is not pushed the shortest way). -/
def PayNullData (b : Bytes) : Prop :=
  ∃ d : Bytes, d.length ≤ 80 ∧ (∀ v, d = [v] → v ≠ 0x81 ∧ 16 < v) ∧
    b = 0x6a :: ((if d.length ≤ 75 then [UInt8.ofNat d.length] else [0x4c, UInt8.ofNat d.length]) ++ d)
/-- m, then n whole operations, then n and CHECKMULTISIG, with 1 ≤ m ≤ n ≤ 20. -/
def PayMultisig (b : Bytes) : Prop :=
  ∃ (m n : Nat) (em en : Bytes) (mid : List Bytes), States em m ∧ States en n ∧ m ≤ n ∧ mid.length = n ∧ (∀ e ∈ mid, Whole e) ∧
    b = em ++ mid.flatten ++ en ++ [0xae]
/-- OP_0 <20 bytes>, OP_0 <32 bytes>, OP_1 <32 bytes> -/
def PayWitnessKeyHash (b : Bytes) : Prop := ∃ h : Bytes, h.length = 20 ∧ b = [0x00, 0x14] ++ h
def PayWitnessScriptHash (b : Bytes) : Prop := ∃ h : Bytes, h.length = 32 ∧ b = [0x00, 0x20] ++ h
def PayTaproot (b : Bytes) : Prop := ∃ h : Bytes, h.length = 32 ∧ b = [0x51, 0x20] ++ h

/-- <signature> <public key> -/
def SignKeyHash (b : Bytes) : Prop := ∃ s k e f, Endorsement s ∧ PublicKey k ∧ Pushes e s ∧ Pushes f k ∧ b = e ++ f
/-- <signature> -/
def SignPublicKey (b : Bytes) : Prop := ∃ s, Endorsement s ∧ Pushes b s
/-- OP_0 <signature>... -/
def SignMultisig (b : Bytes) : Prop :=
  ∃ l : List (Bytes × Bytes), l ≠ [] ∧ (∀ x ∈ l, Pushes x.1 x.2 ∧ Endorsement x.2) ∧ b = 0x00 :: (l.map Prod.fst).flatten
/-- Pushes only (data, or the number opcodes), the last of which pushes bytes. -/
def SignScriptHash (b : Bytes) : Prop :=
  ∃ (l : List Bytes) (e d : Bytes), (∀ x ∈ l, (∃ y, Pushes x y) ∨ ∃ c : UInt8, (c = 79 ∨ 81 ≤ c ∧ c ≤ 96) ∧ x = [c]) ∧ Pushes e d ∧ d ≠ [] ∧
    b = l.flatten ++ e

end Verif.Spec.Form
