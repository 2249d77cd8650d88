import Verif.Model.Writer
/-!
# What a writer or flipper over a fixed buffer may do

`Act` is any operation on a flipper; `Plan` an adaptive sequence of them.  `accepted` is the longest run of whole writes that fits a room.
-/
namespace Verif.Writer
open Verif

/-- The leading writes that fit in `room` bytes, up to the first that does not. -/
def accepted : Nat → List Bytes → List Bytes
  | _, [] => []
  | room, d :: l => if d.length ≤ room then d :: accepted (room - d.length) l else []

/-- Any adaptive sequence of operations on a flipper. -/
inductive Plan where
  | done
  | write (d : Bytes) (next : Plan)
  | read (n : Nat) (next : Bytes → Plan)
  | peek (next : UInt8 → Plan)
  | skip (n : Nat) (next : Plan)
  | rewind (n : Nat) (next : Plan)
  | seek (a : Nat) (next : Plan)
  | position (next : Nat → Plan)
  | valid (next : Bool → Plan)
  | limit (n : Nat) (next : Plan)
  | invalidate (next : Plan)

def Plan.run : Plan → S → S
  | done, s => s
  | write d k, s => k.run (Writer.write d s)
  | read n k, s => (k (Writer.read n s).1).run (Writer.read n s).2
  | peek k, s => (k (Writer.peek s).1).run (Writer.peek s).2
  | skip n k, s => k.run (Writer.skip n s)
  | rewind n k, s => k.run (Writer.rewind n s)
  | seek a k, s => k.run (Writer.seek a s)
  | position k, s => (k (Writer.position s)).run s
  | valid k, s => (k s.good).run s
  | limit n k, s => k.run { s with rem := n }
  | invalidate k, s => k.run { s with good := false }

end Verif.Writer
