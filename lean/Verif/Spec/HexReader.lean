import Verif.Model.HexReader
/-!
# Reader programs

A `Prog` is any sequence of operations a caller makes on a reader, in which each operation may depend on all results so far: read, peek,
skip, rewind, ask the position, exhaustion and validity, set and clear the limit, invalidate.  Sizes are below 2^62.
`overBytes` and `overHex` run one against a byte reader and a hex reader.
-/
namespace Verif.HexReader
open Verif

/-- A size below 2^62 (so that the pair count fits the stream's signed offset). -/
abbrev Size := { n : Nat // n < 2 ^ 62 }

inductive Prog (α : Type) where
  | done (result : α)
  | read (n : Size) (next : Bytes → Prog α)
  | peek (next : UInt8 → Prog α)
  | skip (n : Size) (next : Prog α)
  | rewind (n : Size) (next : Prog α)
  | position (next : Nat → Prog α)
  | exhausted (next : Bool → Prog α)
  | valid (next : Bool → Prog α)
  | limit (n : Size) (next : Prog α)
  | unlimit (next : Prog α)
  | invalidate (next : Prog α)

namespace Prog

/-- Run against a byte reader. -/
def overBytes : Prog α → Reader α
  | done a => fun s => (a, s)
  | read n k => fun s => overBytes (k (doRead n.1 s).1) (doRead n.1 s).2
  | peek k => fun s => overBytes (k (peekByte s).1) (peekByte s).2
  | skip n k => fun s => overBytes k (doSkip n.1 s).2
  | rewind n k => fun s => overBytes k (doRewind n.1 s).2
  | position k => fun s => overBytes (k (getPosition s).1) (getPosition s).2
  | exhausted k => fun s => overBytes (k (isExhausted s).1) (isExhausted s).2
  | valid k => fun s => overBytes (k (isGood s).1) (isGood s).2
  | limit n k => fun s => overBytes k (setLimit n.1 s).2
  | unlimit k => fun s => overBytes k (clearLimit s).2
  | invalidate k => fun s => overBytes k (Verif.invalidate s).2

/-- Run against a hex reader. -/
def overHex : Prog α → Reader α
  | done a => fun s => (a, s)
  | read n k => fun s => overHex (k (HexReader.read n.1 s).1) (HexReader.read n.1 s).2
  | peek k => fun s => overHex (k (HexReader.peek s).1) (HexReader.peek s).2
  | skip n k => fun s => overHex k (HexReader.skip n.1 s).2
  | rewind n k => fun s => overHex k (HexReader.rewind n.1 s).2
  | position k => fun s => overHex (k (HexReader.position s).1) (HexReader.position s).2
  | exhausted k => fun s => overHex (k (isExhausted s).1) (isExhausted s).2
  | valid k => fun s => overHex (k (isGood s).1) (isGood s).2
  | limit n k => fun s => overHex k (HexReader.limit n.1 s).2
  | unlimit k => fun s => overHex k (clearLimit s).2
  | invalidate k => fun s => overHex k (Verif.invalidate s).2

end Prog
end Verif.HexReader
