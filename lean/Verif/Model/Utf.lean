import Verif.Model.Stream

/-! # Text conversion and the text stream buffer

`src/unicode/conversion.cpp`, `src/unicode/utf8_everywhere/environment.cpp` and `unicode_streambuf.cpp`.
The conversions themselves are `boost::locale::conv::utf_to_utf` with the method `stop` (conversion.cpp:36), which is
not in the sandbox: `decode8`, `encode8One`, `decode16` and `encode16One` state what it does (lead and trail bytes, no
surrogate, no point above 0x10ffff, no overlong form; an error anywhere is an error). A failed conversion is `none`
here, which the library turns into an empty text (conversion.cpp:38-41): `orEmpty`. -/

namespace Verif.Utf

/-- A point with an encoding: at most 0x10ffff and no surrogate. -/
def isScalar (p : Nat) : Bool := decide (p < 0xd800) || (decide (0xe000 ≤ p) && decide (p < 0x110000))

/-- The bytes of one point. Used for conversion.cpp:74-77. -/
def encode8One (p : Nat) : Bytes :=
  if p < 0x80 then [UInt8.ofNat p]
  else if p < 0x800 then [UInt8.ofNat (0xc0 + p / 64), UInt8.ofNat (0x80 + p % 64)]
  else if p < 0x10000 then [UInt8.ofNat (0xe0 + p / 4096), UInt8.ofNat (0x80 + p / 64 % 64), UInt8.ofNat (0x80 + p % 64)]
  else [UInt8.ofNat (0xf0 + p / 262144), UInt8.ofNat (0x80 + p / 4096 % 64), UInt8.ofNat (0x80 + p / 64 % 64), UInt8.ofNat (0x80 + p % 64)]

/-- `to_utf8(u32string)` (conversion.cpp:74-77): the points must be scalar values. -/
def encode8 (points : List Nat) : Option Bytes := if points.all isScalar then some (points.flatMap encode8One) else none

/-- `is_utf8_trailing_byte` (environment.cpp:45-49). -/
def trailing (b : UInt8) : Bool := (0xc0 &&& b) == 0x80

/-- `is_utf8_leading_byte` (environment.cpp:52-75). -/
def leading (b : UInt8) : Nat → Bool
  | 1 => (0x80 &&& b) == 0x00
  | 2 => (0xe0 &&& b) == 0xc0
  | 3 => (0xf0 &&& b) == 0xe0
  | 4 => (0xf8 &&& b) == 0xf0
  | _ => false

/-- One character of a text in bytes, with what follows it. -/
def decode8One : Bytes → Option (Nat × Bytes)
  | [] => none
  | a :: r1 =>
    if leading a 1 then some (a.toNat, r1)
    else match r1 with
      | [] => none
      | b :: r2 =>
        if !trailing b then none
        else if leading a 2 then
          let p := (a.toNat % 32) * 64 + b.toNat % 64
          if decide (0x80 ≤ p) && isScalar p then some (p, r2) else none
        else match r2 with
          | [] => none
          | c :: r3 =>
            if !trailing c then none
            else if leading a 3 then
              let p := ((a.toNat % 16) * 64 + b.toNat % 64) * 64 + c.toNat % 64
              if decide (0x800 ≤ p) && isScalar p then some (p, r3) else none
            else match r3 with
              | [] => none
              | d :: r4 =>
                if !trailing d then none
                else if leading a 4 then
                  let p := (((a.toNat % 8) * 64 + b.toNat % 64) * 64 + c.toNat % 64) * 64 + d.toNat % 64
                  if decide (0x10000 ≤ p) && isScalar p then some (p, r4) else none
                else none

/-- As above, environment.cpp:52-75. -/
def decode8Loop : Nat → Bytes → Option (List Nat)
  | _, [] => some []
  | 0, _ :: _ => none
  | fuel + 1, b :: bs => (decode8One (b :: bs)).bind fun r => (decode8Loop fuel r.2).map (r.1 :: ·)

/-- `to_utf32(string)` (conversion.cpp:89-92). -/
def decode8 (text : Bytes) : Option (List Nat) := decode8Loop text.length text

/-- The units of one point, 16 bits each. -/
def encode16One (p : Nat) : List Nat :=
  if p < 0x10000 then [p] else [0xd800 + (p - 0x10000) / 1024, 0xdc00 + (p - 0x10000) % 1024]

/-- The points of a text in 16 bit units. -/
def decode16 : List Nat → Option (List Nat)
  | [] => some []
  | [u] => if isScalar u && decide (u < 0x10000) then some [u] else none
  | u :: v :: r =>
    if isScalar u && decide (u < 0x10000) then (decode16 (v :: r)).map (u :: ·)
    else if decide (0xd800 ≤ u) && decide (u < 0xdc00) && decide (0xdc00 ≤ v) && decide (v < 0xe000) then
      (decode16 r).map ((0x10000 + (u - 0xd800) * 1024 + (v - 0xdc00)) :: ·)
    else none

/-- The wide characters of a platform: 16 bit units (`wchar_t` of Windows) or points (`wchar_t` of others). -/
inductive Wide | utf16 | utf32
  deriving DecidableEq

/-- The wide characters of one point. Used for conversion.cpp:79-82. -/
def wideOne : Wide → Nat → List Nat
  | .utf16, p => encode16One p
  | .utf32, p => [p]

/-- The points of a wide text. Used for conversion.cpp:69-72. -/
def fromWide : Wide → List Nat → Option (List Nat)
  | .utf16, units => decode16 units
  | .utf32, points => if points.all isScalar then some points else none

/-- A failed conversion is an empty text (conversion.cpp:38-41). -/
def orEmpty (r : Option (List α)) : List α := r.getD []

/-- `to_utf16(string)`, a wide string (conversion.cpp:79-82). -/
def toWide (w : Wide) (text : Bytes) : List Nat := orEmpty ((decode8 text).map fun points => points.flatMap (wideOne w))

/-- `to_utf8(wstring)` (conversion.cpp:69-72). -/
def fromWideText (w : Wide) (text : List Nat) : Bytes := orEmpty ((fromWide w text).bind encode8)

/-- The loop of `utf8_remainder_size` (environment.cpp:83-94), `k` more lengths to try. -/
def remainderLoop (text : Bytes) : Nat → Nat → Nat
  | 0, _ => 0
  | k + 1, length =>
    let byte := text.getD (text.length - length) 0
    if trailing byte then remainderLoop text k (length + 1)
    else if !leading byte length then length else 0

/-- `utf8_remainder_size` (environment.cpp:78-98). -/
def remainderSize (text : Bytes) : Nat := if text = [] then 0 else remainderLoop text (min 4 text.length) 1

/-- `to_utf16` on buffers (environment.cpp:121-141): the remainder and the wide characters. -/
def toUtf16 (w : Wide) (toChars : Nat) (text : Bytes) : Nat × List Nat :=
  if text = [] ∨ toChars < text.length then (0, [])
  else
    let wide := toWide w (text.take (text.length - remainderSize text))
    (remainderSize text, if wide.length ≤ toChars then wide else [])

/-- `to_utf8` on buffers (environment.cpp:102-117). -/
def toUtf8 (w : Wide) (toBytes : Nat) (text : List Nat) : Bytes :=
  if text = [] ∨ toBytes < text.length * 4 then []
  else
    let narrow := fromWideText w text
    if narrow.length ≤ toBytes then narrow else []

/-- The output side of the buffer: the bytes between `pbase` and `pptr`, and what the wide buffer was given. Used for unicode_streambuf.cpp:95-99. -/
structure Out where
  pending : Bytes
  written : List Nat
  deriving DecidableEq

/-- The byte `overflow` stores (unicode_streambuf.cpp:95-99) is inside the allocation of `4 * n` bytes. -/
def hasRoom (n : Nat) (s : Out) : Option UInt8 → Bool
  | some _ => decide (s.pending.length < 4 * n)
  | none => true

/-- `overflow` (unicode_streambuf.cpp:90-154) of a buffer made for `n` wide characters, with the byte that did not fit
or none. The wide buffer takes all it is given. `none`: the byte is stored outside the allocation of `4 * n` bytes. -/
def overflow (w : Wide) (n : Nat) (s : Out) (c : Option UInt8) : Option Out :=
  if !hasRoom n s c then none
  else
    let buffer := s.pending ++ c.toList
    if buffer = [] then some s
    else
      let r := toUtf16 w (4 * n) buffer
      some { pending := buffer.drop (buffer.length - r.1), written := s.written ++ r.2 }

/-- What a user of the stream does: writes a byte (`sputc`), or flushes (`sync`, unicode_streambuf.cpp:157-171). -/
inductive Op | put (b : UInt8) | flush
  deriving DecidableEq

/-- One operation. A byte is stored between `pptr` and `epptr`, one before the end of the allocation
(unicode_streambuf.cpp:46), and otherwise goes to `overflow`. -/
def step (w : Wide) (n : Nat) (s : Out) : Op → Option Out
  | .put b => if s.pending.length < 4 * n - 1 then some { s with pending := s.pending ++ [b] } else overflow w n s (some b)
  | .flush => overflow w n s none

/-- As above, unicode_streambuf.cpp:46. -/
def run (w : Wide) (n : Nat) : Out → List Op → Option Out
  | s, [] => some s
  | s, op :: ops => (step w n s op).bind fun t => run w n t ops

/-- The constructor (unicode_streambuf.cpp:31-47) refuses the size zero. -/
def initial : Out := ⟨[], []⟩

/-- A reader of all the input: `underflow` (unicode_streambuf.cpp:60-86) again and again, until it reports the end of
the file. `reads` are the sizes the wide buffer returns, each at most the `n` asked for; a read of none ends the input. -/
def readAll (w : Wide) (n : Nat) : List Nat → List Nat → Bytes
  | [], _ => []
  | k :: ks, source =>
    let wide := source.take (min k n)
    if wide = [] then []
    else
      let bytes := toUtf8 w (4 * n) wide
      if bytes = [] then [] else bytes ++ readAll w n ks (source.drop (min k n))

end Verif.Utf
