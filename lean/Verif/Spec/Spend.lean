import Verif.Spec.Connect
import Mathlib.Data.List.Forall2
/-!
# Specification: what it takes to spend the standard outputs

Script bytes are written out. `s.prevout` is the script of the previous output and `s.ops` the input script, both parsed.
-/
namespace Verif.Spec

/-- `sig` (DER and a hash type byte) is a valid signature of `key` on the hash the transaction has for the script code. -/
def Signed (s : Spend) (v0 : Bool) (code : List Op) (key sig : Bytes) : Prop :=
  sig ≠ [] ∧ ∃ rs hash, s.decodeSig sig.dropLast s.flags.bip66 = some rs ∧
    s.sighash v0 code (sig.getLastD 0) = some hash ∧ s.verifyEcdsa key hash rs = true

/-- Each signature belongs to one of the keys, in the order of the keys. -/
def Matched (s : Spend) (v0 : Bool) (code : List Op) (keys sigs : List Bytes) : Prop :=
  ∃ chosen : List Bytes, chosen.Sublist keys ∧ List.Forall₂ (fun sig key => Signed s v0 code key sig) sigs chosen

/-- DUP HASH160 h EQUALVERIFY CHECKSIG -/
def p2pkh (h : Bytes) : Bytes := [0x76, 0xa9, 0x14] ++ h ++ [0x88, 0xac]
/-- key CHECKSIG -/
def p2pk (key : Bytes) : Bytes := Script.pushBytes key ++ [0xac]
/-- HASH160 h EQUAL -/
def p2sh (h : Bytes) : Bytes := [0xa9, 0x14] ++ h ++ [0x87]
/-- 0 h -/
def p2wpkh (h : Bytes) : Bytes := [0x00, 0x14] ++ h
/-- 0 h -/
def p2wsh (h : Bytes) : Bytes := [0x00, 0x20] ++ h
/-- m key .. key n CHECKMULTISIG -/
def multisig (m : Nat) (keys : List Bytes) : Bytes :=
  [UInt8.ofNat (80 + m)] ++ keys.flatMap Script.pushBytes ++ [UInt8.ofNat (80 + keys.length), 0xae]

/-- The script a legacy signature covers: without the pushes of the signatures. -/
def covered (script : Bytes) (sigs : List Bytes) : List Op :=
  (parseOps script).filter fun o => ∀ d ∈ sigs, o.toData ≠ Script.pushBytes d

end Verif.Spec
