import Verif.Model.Base10

/-! # Property trees written as text

`src/serial/props.cpp`, `include/bitcoin/system/serial/props.hpp`. A stream is the text written and whether it is good: nothing is written
after a failure. The format is one of three. Text is bytes. -/

namespace Verif.Serial

/-- A property (props.hpp:97-107 and the derived classes). The elements of an array have the name given to the array (props.cpp:395-413). -/
inductive Tree where
  | null
  | true_
  | false_
  | string (text : Bytes)
  | number (n : Int)
  | invalid
  | array (name : Bytes) (children : List Tree)
  | object (children : List (Bytes × Tree))

/-- `format` (props.hpp:59-64). -/
inductive Format where
  | json
  | info
  | xml
deriving DecidableEq

/-- `ostream << int64_t`. -/
def serialize (n : Int) : Bytes := if n < 0 then 45 :: Base10.formatDec n.natAbs else Base10.formatDec n.natAbs

/-- `from_number` (props.cpp:64-74). -/
def fromNumber (n : Int) : Tree := if n ≤ -(2 ^ 53 + 1) ∨ n ≥ 2 ^ 53 - 1 then .invalid else .number n

/-- The text written and whether the stream is good. Used for props.cpp:89-134. -/
abbrev Out := Bytes × Bool

/-- `stream << text`. Used for props.cpp:89-134. -/
def emit (text : Bytes) (o : Out) : Out := if o.2 then (o.1 ++ text, true) else o

/-- `stream_result(stream, false)`: sets the fail bit. Used for props.cpp:137-388. -/
def fail (o : Out) : Out := (o.1, false)

/-- `end` (props.cpp:92, 141): a line feed and four spaces for each level. -/
def ending (flat : Bool) (depth : Nat) : Bytes := if flat then [] else 10 :: List.replicate (depth * 4) 32

/-- `start` (props.cpp:93, 142). -/
def starting (flat : Bool) (depth : Nat) : Bytes := if flat then [] else if depth = 0 then [] else ending flat depth

/-- `is_simple` (props.cpp:96-99). -/
def Tree.simple : Tree → Bool
  | .array _ _ => false
  | .object _ => false
  | _ => true

/-- `write` with a name (props.cpp:89-134); `w` writes the value at a depth. -/
def named (f : Format) (flat : Bool) (depth : Nat) (name : Bytes) (simple : Bool) (w : Nat → Out → Out) (o : Out) : Out :=
  match f with
  | .json => w (if simple then 0 else depth) (emit (starting flat depth ++ [34] ++ name ++ [34, 58]) o)
  | .info => w (if simple then 0 else depth) (emit (starting flat depth ++ name ++ [32]) o)
  | .xml =>
    if simple then emit ([60, 47] ++ name ++ [62]) (w 0 (emit (starting flat depth ++ [60] ++ name ++ [62]) o))
    else emit (ending flat depth ++ [60, 47] ++ name ++ [62]) (w (depth + 1) (emit (starting flat depth ++ [60] ++ name ++ [62]) o))

/-- The text of a string (props.cpp:204-231); `space` is whether it has whitespace. -/
def stringText (f : Format) (space : Bytes → Bool) (text : Bytes) : Bytes :=
  match f with
  | .json => [34] ++ text ++ [34]
  | .info => if space text then [34] ++ text ++ [34] else text
  | .xml => text

/-- The separator of elements (props.cpp:270, 291-292) and of members (props.cpp:332, 351-352). -/
def elementSeparator (f : Format) (flat : Bool) : Bytes :=
  match f with | .json => [44] | .info => if flat then [32] else [] | .xml => []
/-- As above, props.cpp:332, 351-352. -/
def memberSeparator (f : Format) (flat : Bool) : Bytes :=
  match f with | .json => [44] | .info => if flat then [44] else [] | .xml => []

/-- The brackets of arrays (props.cpp:261-277, 281-300) and of objects (props.cpp:322-340, 342-361). -/
def brackets (f : Format) (array : Bool) : Bytes × Bytes :=
  match f with | .json => if array then ([91], [93]) else ([123], [125]) | .info => ([123], [125]) | .xml => ([], [])

/-- The depth of the children (props.cpp:269, 290, 304-306, 331, 350, 366-368). -/
def childDepth (f : Format) (depth : Nat) : Nat := match f with | .xml => depth | _ => depth + 1

/-- What is written before and after the children: XML has neither. Used for props.cpp:137-388. -/
def opening (f : Format) (flat : Bool) (depth : Nat) (array : Bool) : Bytes :=
  match f with | .xml => [] | _ => starting flat depth ++ (brackets f array).1
/-- As above, props.cpp:269, 290, 304-306, 331, 350, 366-368. -/
def closing (f : Format) (flat : Bool) (depth : Nat) (array : Bool) : Bytes :=
  match f with | .xml => [] | _ => ending flat depth ++ (brackets f array).2

mutual
/-- `write` (props.cpp:137-388). -/
def write (f : Format) (space : Bytes → Bool) (flat : Bool) : Tree → Nat → Out → Out
  | .null, depth, o => emit (starting flat depth ++ if f = .xml then [] else [110, 117, 108, 108]) o
  | .true_, depth, o => emit (starting flat depth ++ [116, 114, 117, 101]) o
  | .false_, depth, o => emit (starting flat depth ++ [102, 97, 108, 115, 101]) o
  | .string text, depth, o => emit (starting flat depth ++ stringText f space text) o
  | .number n, depth, o => emit (starting flat depth ++ serialize n) o
  | .invalid, _, o => fail o
  | .array name children, depth, o =>
    emit (closing f flat depth true) (elements f space flat name children (childDepth f depth) (emit (opening f flat depth true) o))
  | .object children, depth, o =>
    emit (closing f flat depth false) (members f space flat children (childDepth f depth) (emit (opening f flat depth false) o))

/-- The children of an array: only XML writes their name (props.cpp:137-388). -/
def elements (f : Format) (space : Bytes → Bool) (flat : Bool) (name : Bytes) : List Tree → Nat → Out → Out
  | [], _, o => o
  | c :: cs, depth, o =>
    let o := if f = .xml then named f flat depth name c.simple (write f space flat c) o else write f space flat c depth o
    elements f space flat name cs depth (if cs.isEmpty then o else emit (elementSeparator f flat) o)

/-- The children of an object (props.cpp:137-388). -/
def members (f : Format) (space : Bytes → Bool) (flat : Bool) : List (Bytes × Tree) → Nat → Out → Out
  | [], _, o => o
  | (name, c) :: cs, depth, o =>
    let o := named f flat depth name c.simple (write f space flat c) o
    members f space flat cs depth (if cs.isEmpty then o else emit (memberSeparator f flat) o)
end

/-- `props::write` (props.cpp:76-80) to a new stream: the text, or nothing if the stream failed. -/
def text (f : Format) (space : Bytes → Bool) (flat : Bool) (t : Tree) : Option Bytes :=
  let o := write f space flat t 0 ([], true)
  if o.2 then some o.1 else none

end Verif.Serial
