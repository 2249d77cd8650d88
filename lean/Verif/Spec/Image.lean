import Verif.Model.Stream

/-! # Specification: a reader of black and white images, from the TIFF 6.0 specification

Only what a baseline bilevel image needs: big endian files, one strip, no compression. -/

namespace Verif.Image.Spec
open Verif

def u16 (f : Bytes) (i : Nat) : Nat := (f.getD i 0).toNat * 256 + (f.getD (i + 1) 0).toNat
def u32 (f : Bytes) (i : Nat) : Nat := u16 f i * 65536 + u16 f (i + 2)

/-- Position of the entry with a tag among the `n` entries from position `i`, 12 bytes each. -/
def findEntry (f : Bytes) (tag : Nat) : Nat → Nat → Option Nat
  | 0, _ => none
  | n + 1, i => if u16 f i = tag then some i else findEntry f tag n (i + 12)

/-- The value of an entry: SHORT (type 3) is left-justified in the value field, LONG (type 4) fills it. -/
def entryValue (f : Bytes) (i : Nat) : Option Nat :=
  if u32 f (i + 4) ≠ 1 then none
  else if u16 f (i + 2) = 3 then some (u16 f (i + 8))
  else if u16 f (i + 2) = 4 then some (u32 f (i + 8))
  else none

/-- Position of the first directory, if the file begins as it must. -/
def directory (f : Bytes) : Option Nat := if u16 f 0 = 0x4d4d ∧ u16 f 2 = 42 then some (u32 f 4) else none

/-- The value of a tag. -/
def field (f : Bytes) (tag : Nat) : Option Nat :=
  (directory f).bind fun d => (findEntry f tag (u16 f d) (d + 2)).bind (entryValue f)

/-- The entries are in ascending order of tags, as they must be. -/
def sorted (f : Bytes) (d : Nat) : Bool := (List.range (u16 f d - 1)).all fun k => decide (u16 f (d + 2 + 12 * k) < u16 f (d + 2 + 12 * (k + 1)))

/-- A bilevel image: its width and length, and whether the pixel in a column and row is black. -/
structure Picture where
  width : Nat
  length : Nat
  black : Nat → Nat → Bool

/-- Bit `x` of a row of bytes that begins at a position, most significant first. -/
def bitAt (f : Bytes) (start x : Nat) : Bool := (f.getD (start + x / 8) 0).toNat.testBit (7 - x % 8)

/-- The picture in a file: one strip, not compressed, white is zero. -/
def picture (f : Bytes) : Option Picture :=
  match field f 0x100, field f 0x101, field f 0x103, field f 0x106, field f 0x111, field f 0x116, field f 0x117 with
  | some width, some length, some 1, some 0, some strip, some rows, some count =>
    if rows = length ∧ count = length * ((width + 7) / 8) ∧ f.length = strip + count then
      some { width := width, length := length, black := fun x y => bitAt f (strip + y * ((width + 7) / 8)) x }
    else none
  | _, _, _, _, _, _, _ => none

/-- A square drawn of `width` by `width` modules, each of `scale` by `scale` pixels, within a white margin: a pixel is black
just when it is in a module whose byte is odd. -/
def drawn (modules : Bytes) (width scale margin x y : Nat) : Bool :=
  decide (margin ≤ x ∧ x < margin + scale * width ∧ margin ≤ y ∧ y < margin + scale * width) &&
  ((modules.getD ((y - margin) / scale * width + (x - margin) / scale) 0).toNat % 2 == 1)

end Verif.Image.Spec
