import Verif.Model.Radix
/-!
# Model of `hex_reader` and `hex_writer`

Sources: include/bitcoin/system/impl/stream/streamers/hex_reader.ipp,
         include/bitcoin/system/impl/stream/streamers/hex_writer.ipp.

A `hex_reader` is a `byte_reader` (Model/Stream.lean) over the characters of a base16 text, whose read, peek, skip, rewind, limit and
position operations are overridden to count pairs of characters as bytes.  State, `invalidate`, `operator bool`, `is_exhausted` and
`set_limit()` are those of `byte_reader`.
-/
namespace Verif.HexReader
open Verif Verif.Radix

/-- `is_multiply_overflow(size, octet_width)` for `size_t` (include/bitcoin/system/impl/math/overflow.ipp): the product exceeds the type. Used for hex_reader.ipp:53-83. -/
def scaleOverflow (n : Nat) : Bool := decide (maxSize < 2 * n)

/-- `byte_reader::do_read_bytes` of two characters (byte_reader.ipp:713-732) into the buffer `chars`, which the stream leaves as it was
past its end or when not good (istream.ipp:150-170). -/
def readPair (chars : UInt8 × UInt8) (s : RS) : (UInt8 × UInt8) × RS :=
  if s.rem < 2 then (chars, { s with good := false })
  else if s.good then
    match s.rest with
    | a :: b :: _ => ((a, b), { s with rem := s.rem - 2, pos := s.pos + 2 })
    | [a] => ((a, chars.2), { s with rem := s.rem - 2, pos := s.data.length, good := false })
    | [] => (chars, { s with rem := s.rem - 2, pos := s.data.length, good := false })
  else (chars, { s with rem := s.rem - 2 })

/-- The loop of `hex_reader::do_read_bytes` (hex_reader.ipp:70-82): `chars` persists from one octet to the next, and octets not reached
keep their (zero) value. -/
def pairLoop : Nat → UInt8 × UInt8 → RS → Bytes × RS
  | 0, _, s => ([], s)
  | n + 1, chars, s =>
    let r := readPair chars s
    if !isBase16 r.1.1 || !isBase16 r.1.2 then (List.replicate (n + 1) 0, { r.2 with good := false })
    else
      let t := pairLoop n r.1 r.2
      (fromHex r.1.1 r.1.2 :: t.1, t.2)

/-- `hex_reader::do_read_bytes` into a zeroed buffer (hex_reader.ipp:53-83). -/
def read (n : Nat) : Reader Bytes := fun s =>
  if scaleOverflow n || decide (s.rem < 2 * n) then (List.replicate n 0, { s with good := false })
  else pairLoop n (0, 0) s

/-- `hex_reader::do_rewind_bytes` (hex_reader.ipp:107-117). -/
def rewind (n : Nat) : Reader Unit := fun s =>
  if scaleOverflow n then ((), { s with good := false }) else doRewind (2 * n) s

/-- `hex_reader::do_peek_byte` (hex_reader.ipp:85-92). -/
def peek : Reader UInt8 := fun s =>
  let r := read 1 s
  (r.1.headD 0, (rewind 1 r.2).2)

/-- `hex_reader::do_skip_bytes` (hex_reader.ipp:94-105). -/
def skip (n : Nat) : Reader Unit := fun s =>
  if scaleOverflow n || decide (s.rem < 2 * n) then ((), { s with good := false }) else doSkip (2 * n) s

/-- `hex_reader::get_read_position` (hex_reader.ipp:119-124). -/
def position : Reader Nat := fun s => (s.pos / 2, s)

/-- `hex_reader::set_limit(size)` (hex_reader.ipp:126-136). -/
def limit (n : Nat) : Reader Unit := fun s =>
  if scaleOverflow n then ((), { s with good := false }) else setLimit (2 * n) s

/-- `byte_reader::set_position` (byte_reader.ipp:607-624) with the overridden operations of `hex_reader`. -/
def seek (a : Nat) : Reader Unit := fun s =>
  let s := { s with good := true }
  let p := (position s).1
  if a = p then ((), s)
  else if p < a then skip (a - p) s
  else rewind (p - a) s

/-- `hex_writer::do_write_bytes` (hex_writer.ipp:51-67): the characters written to the sink, two by two. -/
def write : Bytes → Bytes
  | [] => []
  | octet :: data => toHexHi octet :: toHexLo octet :: write data

end Verif.HexReader
