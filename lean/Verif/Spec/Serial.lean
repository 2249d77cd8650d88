import Verif.Model.Serial

/-! # Specification: readers of JSON (RFC 8259) and of XML elements

The reader of JSON takes no escapes in strings and only integers: it is a restriction of the grammar, all it reads is JSON with the value given. -/

namespace Verif.Serial.Spec
open Verif

inductive Value where
  | null
  | bool (b : Bool)
  | string (s : Bytes)
  | number (n : Int)
  | array (l : List Value)
  | object (l : List (Bytes × Value))

/-- Insignificant whitespace. -/
def isSpace (c : UInt8) : Bool := c == 32 || c == 9 || c == 10 || c == 13
def skip (s : Bytes) : Bytes := s.dropWhile isSpace

def isDigit (c : UInt8) : Bool := 48 ≤ c && c ≤ 57

/-- The rest of a string, after its quote. -/
def quoted : Bytes → Option (Bytes × Bytes)
  | [] => none
  | c :: r => if c = 34 then some ([], r) else if c = 92 ∨ c < 32 then none else (quoted r).map fun x => (c :: x.1, x.2)

/-- A name that must be there. -/
def literal (name : Bytes) (v : Value) (s : Bytes) : Option (Value × Bytes) := if name.isPrefixOf s then some (v, s.drop name.length) else none

/-- The digits of a number: at least one, and no needless zero. -/
def digits (s : Bytes) : Option (Nat × Bytes) :=
  let d := s.takeWhile isDigit
  if d = [] ∨ (d.head? = some 48 ∧ d.length ≠ 1) then none
  else some (d.foldl (fun v c => v * 10 + (c.toNat - 48)) 0, s.dropWhile isDigit)

def number : Bytes → Option (Value × Bytes)
  | 45 :: r => (digits r).map fun x => (.number (-(x.1 : Int)), x.2)
  | s => (digits s).map fun x => (.number x.1, x.2)

mutual
def value : Nat → Bytes → Option (Value × Bytes)
  | 0, _ => none
  | f + 1, s =>
    match skip s with
    | [] => none
    | c :: r =>
      if c = 110 then literal [117, 108, 108] .null r
      else if c = 116 then literal [114, 117, 101] (.bool true) r
      else if c = 102 then literal [97, 108, 115, 101] (.bool false) r
      else if c = 34 then (quoted r).map fun x => (.string x.1, x.2)
      else if c = 91 then
        if (skip r).head? = some 93 then some (.array [], (skip r).tail) else (elements f r).map fun x => (.array x.1, x.2)
      else if c = 123 then
        if (skip r).head? = some 125 then some (.object [], (skip r).tail) else (members f r).map fun x => (.object x.1, x.2)
      else number (c :: r)
/-- Values between commas, up to the bracket. -/
def elements : Nat → Bytes → Option (List Value × Bytes)
  | 0, _ => none
  | f + 1, s => (value f s).bind fun x =>
    if (skip x.2).head? = some 44 then (elements f (skip x.2).tail).map fun y => (x.1 :: y.1, y.2)
    else if (skip x.2).head? = some 93 then some ([x.1], (skip x.2).tail)
    else none
/-- Named values between commas, up to the bracket. -/
def members : Nat → Bytes → Option (List (Bytes × Value) × Bytes)
  | 0, _ => none
  | f + 1, s =>
    if (skip s).head? = some 34 then (quoted (skip s).tail).bind fun n =>
      if (skip n.2).head? = some 58 then (value f (skip n.2).tail).bind fun x =>
        if (skip x.2).head? = some 44 then (members f (skip x.2).tail).map fun y => ((n.1, x.1) :: y.1, y.2)
        else if (skip x.2).head? = some 125 then some ([(n.1, x.1)], (skip x.2).tail)
        else none
      else none
    else none
end

/-- The value a JSON text stands for: nothing but whitespace may follow it. A value never nests deeper than its text is long. -/
def json (s : Bytes) : Option Value := (value (s.length + 1) s).bind fun x => if skip x.2 = [] then some x.1 else none

/-- Text that needs no escape in JSON. -/
def Plain (s : Bytes) : Prop := ∀ c ∈ s, c ≠ 34 ∧ c ≠ 92 ∧ ¬ c < 32

mutual
/-- The value a tree stands for, none if there is an invalid number in it. -/
def meaning : Tree → Option Value
  | .null => some .null
  | .true_ => some (.bool true)
  | .false_ => some (.bool false)
  | .string s => some (.string s)
  | .number n => some (.number n)
  | .invalid => none
  | .array _ children => (meanings children).map .array
  | .object children => (fields children).map .object
def meanings : List Tree → Option (List Value)
  | [] => some []
  | c :: cs => (meaning c).bind fun v => (meanings cs).map fun vs => v :: vs
def fields : List (Bytes × Tree) → Option (List (Bytes × Value))
  | [] => some []
  | (name, c) :: cs => (meaning c).bind fun v => (fields cs).map fun vs => (name, v) :: vs
end

mutual
/-- All strings and member names need no escape. -/
def AllPlain : Tree → Prop
  | .string s => Plain s
  | .array _ children => ElementsPlain children
  | .object children => MembersPlain children
  | _ => True
def ElementsPlain : List Tree → Prop
  | [] => True
  | c :: cs => AllPlain c ∧ ElementsPlain cs
def MembersPlain : List (Bytes × Tree) → Prop
  | [] => True
  | (name, c) :: cs => Plain name ∧ AllPlain c ∧ MembersPlain cs
end

/-! ## XML

The reader takes elements without attributes, comments, references or processing instructions: a restriction of the grammar (XML 1.0, 3.1).
An element that contains nothing but whitespace is taken for one without children; whitespace between elements is passed over. -/

inductive Xml where
  | leaf (name text : Bytes)
  | node (name : Bytes) (children : List Xml)

/-- An end tag that must be there. -/
def endTag (name s : Bytes) : Option Bytes :=
  if ([60, 47] ++ name ++ [62]).isPrefixOf s then some (s.drop ([60, 47] ++ name ++ [62]).length) else none

/-- Elements up to an end tag or the end. -/
def xml : Nat → Bytes → Option (List Xml × Bytes)
  | 0, _ => none
  | f + 1, s =>
    match skip s with
    | [] => some ([], [])
    | c :: r =>
      if c ≠ 60 then none
      else if r.head? = some 47 then some ([], c :: r)
      else
        let name := r.takeWhile (· != 62)
        let body := (r.dropWhile (· != 62)).tail
        let text := body.takeWhile (· != 60)
        if text.all isSpace then
          (xml f body).bind fun x => (endTag name x.2).bind fun rest => (xml f rest).map fun y => (.node name x.1 :: y.1, y.2)
        else (endTag name (body.drop text.length)).bind fun rest => (xml f rest).map fun y => (.leaf name text :: y.1, y.2)

/-- The elements a text consists of. -/
def document (s : Bytes) : Option (List Xml) := (xml (s.length + 1) s).bind fun x => if x.2 = [] then some x.1 else none

/-- The names that XML takes in ASCII: a letter or underscore, then letters, digits, underscores, hyphens and full stops. -/
def isLetter (c : UInt8) : Bool := (65 ≤ c && c ≤ 90) || (97 ≤ c && c ≤ 122) || c == 95
def XmlName (s : Bytes) : Prop := ∃ c r, s = c :: r ∧ isLetter c = true ∧ ∀ x ∈ r, (isLetter x || isDigit x || x == 45 || x == 46) = true
/-- Text without markup or references. -/
def XmlText (s : Bytes) : Prop := ∀ c ∈ s, c ≠ 60 ∧ c ≠ 62 ∧ c ≠ 38

/-- What a value is as text. -/
def plainText : Tree → Bytes
  | .true_ => [116, 114, 117, 101]
  | .false_ => [102, 97, 108, 115, 101]
  | .string s => s
  | .number n => serialize n
  | _ => []

mutual
/-- The element of a given name that a tree stands for. -/
def element (name : Bytes) : Tree → Xml
  | .array n children => .node name (sameNamed n children)
  | .object children => .node name (ownNamed children)
  | t => if (plainText t).all isSpace then .node name [] else .leaf name (plainText t)
def sameNamed (name : Bytes) : List Tree → List Xml
  | [] => []
  | c :: cs => element name c :: sameNamed name cs
def ownNamed : List (Bytes × Tree) → List Xml
  | [] => []
  | (name, c) :: cs => element name c :: ownNamed cs
end

mutual
/-- All names are names in XML, no text has markup, and there is no invalid number. -/
def AllXml : Tree → Prop
  | .string s => XmlText s
  | .invalid => False
  | .array name children => (children ≠ [] → XmlName name) ∧ ElementsXml children
  | .object children => MembersXml children
  | _ => True
def ElementsXml : List Tree → Prop
  | [] => True
  | c :: cs => AllXml c ∧ ElementsXml cs
def MembersXml : List (Bytes × Tree) → Prop
  | [] => True
  | (name, c) :: cs => XmlName name ∧ AllXml c ∧ MembersXml cs
end

end Verif.Serial.Spec
