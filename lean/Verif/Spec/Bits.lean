import Verif.Model.Bits
/-!
# Specification: byte strings as bit strings, most significant bit first
-/
namespace Verif.Bit.Spec
open Verif

/-- The low `n` bits of a number, most significant first. -/
def numBits : Nat → Nat → List Bool
  | 0, _ => []
  | n + 1, v => v.testBit n :: numBits n v

/-- The bits of a byte string. -/
def bitsOf (d : Bytes) : List Bool := d.flatMap fun b => numBits 8 b.toNat

/-- A write: one bit, the low bits of a number, or bytes. -/
inductive Write where
  | bit (b : Bool)
  | bits (value count : Nat)
  | bytes (d : Bytes)

/-- The bits a write means (a count above 64 is 64). -/
def Write.meaning : Write → List Bool
  | .bit b => [b]
  | .bits v n => numBits (min 64 n) v
  | .bytes d => bitsOf d

/-- The mirrored read of a write, and the value it should return. -/
inductive Value where
  | bit (b : Bool)
  | num (n : Nat)
  | bytes (d : Bytes)
deriving DecidableEq

/-- What the mirrored read returns: for a number its low bits. -/
def Write.value : Write → Value
  | .bit b => .bit b
  | .bits v n => .num (v % 2 ^ min 64 n)
  | .bytes d => .bytes d

/-- Perform a write. -/
def Write.run (w : Writer) : Write → Writer
  | .bit b => w.writeBit b
  | .bits v n => w.writeBits v n
  | .bytes d => w.writeBytes d

/-- Perform the mirrored read. -/
def Write.read (r : Reader) : Write → Value × Reader
  | .bit _ => (.bit r.readBit.1, r.readBit.2)
  | .bits _ n => (.num (r.readBits n).1, (r.readBits n).2)
  | .bytes d => (.bytes (r.readBytes d.length).1, (r.readBytes d.length).2)

/-- A sequence of mirrored reads. -/
def readAll : Reader → List Write → List Value × Reader
  | r, [] => ([], r)
  | r, w :: ws => ((w.read r).1 :: (readAll (w.read r).2 ws).1, (readAll (w.read r).2 ws).2)

/-- All writes, flushed. -/
def written (ws : List Write) : Bytes := (ws.foldl Write.run Writer.init).flush.out

end Verif.Bit.Spec
