import Verif.Model.Stream
/-!
# Model of signature parsing: `is_valid_bip66_signature_encoding`, `ecdsa_signature_parse_der_lax`, `decode_signature`

Sources: src/crypto/der_parser.cpp, src/crypto/secp256k1/ecdsa.cpp. Every array access is checked: an access outside of the
buffer (undefined behaviour in the code) is the outcome `ub`, distinct from refusal.
-/
namespace Verif.Der

/-- Outcome of C++ code that reads a buffer: undefined behaviour, `return false`, or a value. Used for der_parser.cpp:36-88. -/
inductive R (α : Type) where
  | ub
  | no
  | ok (a : α)
deriving DecidableEq

/-- Sequencing: undefined behaviour and early returns end the computation. -/
def R.bind {α β : Type} : R α → (α → R β) → R β
  | .ub, _ => .ub
  | .no, _ => .no
  | .ok a, f => f a

instance : Monad R where
  pure := .ok
  bind := R.bind

/-- `sig[i]`. Used for der_parser.cpp:36-88. -/
def at_ (sig : Bytes) (i : Nat) : R UInt8 :=
  match sig[i]? with
  | some b => .ok b
  | none => .ub

/-- `if (condition) return false`. Used for der_parser.cpp:36-88. -/
def refuseIf (c : Bool) : R Unit := if c then .no else .ok ()

/-- The short-circuit operator `a && b` where evaluating `b` reads the buffer. Used for der_parser.cpp:36-88. -/
def andThen (a : Bool) (b : R Bool) : R Bool := if a then b else .ok false

/-- `is_valid_bip66_signature_encoding` (src/crypto/der_parser.cpp:36-88). -/
def bip66 (sig : Bytes) : R Unit := do
  refuseIf (decide (sig.length < 8))
  refuseIf (decide (sig.length > 72))
  let b0 ← at_ sig 0
  refuseIf (b0 != 0x30)
  let b1 ← at_ sig 1
  refuseIf (b1.toNat != sig.length - 2)
  let lenR := (← at_ sig 3).toNat
  refuseIf (decide (5 + lenR ≥ sig.length))
  let lenS := (← at_ sig (5 + lenR)).toNat
  refuseIf (lenR + lenS + 6 != sig.length)
  let b2 ← at_ sig 2
  refuseIf (b2 != 0x02)
  refuseIf (lenR == 0)
  let b4 ← at_ sig 4
  refuseIf (b4 &&& 0x80 != 0)
  let z ← andThen (decide (lenR > 1)) (do
    let b4 ← at_ sig 4
    andThen (b4 == 0) (do
      let b5 ← at_ sig 5
      return b5 &&& 0x80 == 0))
  refuseIf z
  let t ← at_ sig (4 + lenR)
  refuseIf (t != 0x02)
  refuseIf (lenS == 0)
  let b6 ← at_ sig (6 + lenR)
  refuseIf (b6 &&& 0x80 != 0)
  let z ← andThen (decide (lenS > 1)) (do
    let b6 ← at_ sig (6 + lenR)
    andThen (b6 == 0) (do
      let b7 ← at_ sig (7 + lenR)
      return b7 &&& 0x80 == 0))
  refuseIf z

/-! The lax parser keeps a cursor `pos`; here the unread bytes `input[pos..]` are passed on, so `pos == inputlen` is emptiness
and `inputlen - pos` is the length. -/

/-- Sequence tag and length bytes (der_parser.cpp:108-127): the length is skipped, not interpreted. -/
def laxSequence (d : Bytes) : R Bytes :=
  match d with
  | [] => .no
  | t :: d =>
    if t != 0x30 then .no
    else match d with
      | [] => .no
      | l :: d =>
        if l &&& 0x80 != 0 then
          if l.toNat - 0x80 > d.length then .no else .ok (d.drop (l.toNat - 0x80))
        else .ok d

/-- `while (lenbyte > 0 && input[pos] == 0) { pos++; lenbyte--; }` (der_parser.cpp:147-151). -/
def skipZeros : Nat → Bytes → R (Nat × Bytes)
  | 0, d => .ok (0, d)
  | _ + 1, [] => .ub
  | n + 1, b :: d => if b == 0 then skipZeros n d else .ok (n + 1, b :: d)

/-- `while (lenbyte > 0) { rlen = (rlen << 8) + input[pos]; pos++; lenbyte--; }` (der_parser.cpp:157-162), in `size_t`. -/
def readLength : Nat → Nat → Bytes → R (Nat × Bytes)
  | 0, len, d => .ok (len, d)
  | _ + 1, _, [] => .ub
  | n + 1, len, b :: d => readLength n ((len * 256 + b.toNat) % 2 ^ 64) d

/-- An integer element: tag, length and range check (der_parser.cpp:129-174, 176-220). Returns its bytes and the unread. -/
def laxInteger (d : Bytes) : R (Bytes × Bytes) :=
  match d with
  | [] => .no
  | t :: d =>
    if t != 0x02 then .no
    else match d with
      | [] => .no
      | l :: d => do
        let (len, d) ← (if l &&& 0x80 != 0 then
            if l.toNat - 0x80 > d.length then .no
            else do
              let (n, d) ← skipZeros (l.toNat - 0x80) d
              refuseIf (decide (n ≥ 8))
              readLength n 0 d
          else .ok (l.toNat, d))
        refuseIf (decide (len > d.length))
        return (d.take len, d.drop len)

/-- Big endian value. Used for der_parser.cpp:224-252. -/
def value (b : Bytes) : Nat := beNat b

/-- The order of secp256k1: `secp256k1_ecdsa_signature_parse_compact` refuses numbers that are not below it (library, by its
documentation). -/
def order : Nat := 0xFFFFFFFFFFFFFFFFFFFFFFFFFFFFFFFEBAAEDCE6AF48A03BBFD25E8CD0364141

/-- Big endian value without leading zeros, `none` if longer than 32 bytes (der_parser.cpp:224-252). -/
def scalar (b : Bytes) : Option Nat :=
  let b := b.dropWhile (· == 0)
  if b.length > 32 then none else some (value b)

/-- `ecdsa_signature_parse_der_lax` (src/crypto/der_parser.cpp:95-266): the signature is its two numbers; both zero on
overflow. -/
def parseLax (d : Bytes) : R (Nat × Nat) := do
  let d ← laxSequence d
  let (r, d) ← laxInteger d
  let (s, _) ← laxInteger d
  match scalar r, scalar s with
  | some r, some s => return (if r < order ∧ s < order then (r, s) else (0, 0))
  | _, _ => return (0, 0)

/-- `ecdsa::decode_signature` (src/crypto/secp256k1/ecdsa.cpp:95-118). -/
def decodeSignature (d : Bytes) (strict : Bool) : R (Nat × Nat) := do
  refuseIf (d.length == 0)
  if strict then bip66 d
  parseLax d

end Verif.Der
