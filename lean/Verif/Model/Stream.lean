/-!
# Model of `byte_reader` over `system::istream` and of `byte_writer`

Sources: include/bitcoin/system/impl/stream/streamers/byte_reader.ipp,
         include/bitcoin/system/impl/stream/streamers/byte_writer.ipp,
         include/bitcoin/system/impl/stream/iostream/istream.ipp,
         include/bitcoin/system/funclets.hpp.

`size_t` is 64 bits wide.  Sizes are `Nat`; wherever the code saturates the model saturates.
-/
namespace Verif

abbrev Bytes := List UInt8

/-- `max_size_t` on a 64 bit target. -/
def maxSize : Nat := 2 ^ 64 - 1

/-- `ceilinged_add<size_t>` (include/bitcoin/system/impl/math/overflow.ipp): saturating addition. Used for byte_reader.ipp:745-757. -/
def cadd (a b : Nat) : Nat := min (a + b) maxSize

/-- `ceilinged_multiply<size_t>`: saturating multiplication. Used for transaction.cpp:581-587. -/
def cmul (a b : Nat) : Nat := min (a * b) maxSize

/-- State of a `byte_reader<istream<>>`.
`data`/`pos` model `begin_`,`end_`,`position_` of the stream (istream.ipp:34-50), `good` models
`rdstate() == goodbit` (byte_reader.ipp:790-794), `rem` models `remaining_`.
`ub` records a call whose size does not fit the signed stream offset type: the code then
converts it to a negative offset (byte_reader.ipp:725-727, 741, 756), which is outside its contract. -/
structure RS where
  data : Bytes
  pos : Nat
  good : Bool
  rem : Nat
  ub : Bool := false
deriving DecidableEq, Repr

/-- A reading procedure: consumes a reader state, returns a value and the new state. Used for byte_reader.ipp:665-671. -/
def Reader (α : Type) := RS → α × RS

instance : Monad Reader where
  pure a := fun s => (a, s)
  bind p f := fun s => f (p s).1 (p s).2

namespace RS

/-- A reader freshly constructed on a buffer: no limit, good state (byte_reader.ipp:62-82). -/
def init (d : Bytes) : RS := { data := d, pos := 0, good := true, rem := maxSize }

/-- Unread bytes. Used for byte_reader.ipp:713-732. -/
def rest (s : RS) : Bytes := s.data.drop s.pos

/-- Reader position lies within the buffer. -/
def WF (s : RS) : Prop := s.pos ≤ s.data.length

end RS

/-- Largest representable stream offset plus one (`std::streamoff` is 64 bit signed). -/
def offMax : Nat := 2 ^ 63

/-- Record an out-of-contract size (see `RS.ub`). Used for byte_reader.ipp:713-732. -/
def noteSize (n : Nat) (s : RS) : RS := if n < offMax then s else { s with ub := true }

/-- `byte_reader::operator bool` (byte_reader.ipp:665-671). -/
def isGood : Reader Bool := fun s => (s.good, s)

/-- `byte_reader::invalidate` (byte_reader.ipp:658-663, 796-802). -/
def invalidate : Reader Unit := fun s => ((), { s with good := false })

/-- `byte_reader::do_read_bytes` into a zero-initialised buffer (byte_reader.ipp:713-732), with
`istream::read` (istream.ipp:150-170) and `limiter` (byte_reader.ipp:863-875) inlined.
The returned list is the final content of the buffer: truncated reads keep the zero fill. -/
def doRead (n : Nat) : Reader Bytes := fun s =>
  if s.rem < n then
    (List.replicate n 0, { s with good := false })
  else
    let s := noteSize n { s with rem := s.rem - n }
    if s.good then
      if s.data.length - s.pos < n then
        (s.rest ++ List.replicate (n - s.rest.length) 0, { s with pos := s.data.length, good := false })
      else
        (s.rest.take n, { s with pos := s.pos + n })
    else
      (List.replicate n 0, s)

/-- `byte_reader::do_skip_bytes` (byte_reader.ipp:734-743) with `seeker` (877-900) and
`istream::seekg(cur)` (istream.ipp:80-126). A zero seek is a no-op; a failed seek leaves the position. -/
def doSkip (n : Nat) : Reader Unit := fun s =>
  if s.rem < n then ((), { s with good := false })
  else
    let s := noteSize n { s with rem := s.rem - n }
    if n = 0 then ((), s)
    else if s.good then
      if s.data.length - s.pos < n then ((), { s with good := false })
      else ((), { s with pos := s.pos + n })
    else ((), s)

/-- `byte_reader::do_rewind_bytes` (byte_reader.ipp:745-757) with `seeker` and `seekg(cur)`. -/
def doRewind (n : Nat) : Reader Unit := fun s =>
  let s := noteSize n { s with rem := cadd s.rem n }
  if n = 0 then ((), s)
  else if s.good then
    if s.pos < n then ((), { s with good := false })
    else ((), { s with pos := s.pos - n })
  else ((), s)

/-- `byte_reader::get_exhausted` / `is_exhausted` (byte_reader.ipp:627-632, 759-785). No net state change. -/
def isExhausted : Reader Bool := fun s =>
  (s.rem == 0 || !s.good || s.data.length ≤ s.pos, s)

/-- `byte_reader::do_peek_byte` (byte_reader.ipp:693-711) with `istream::peek` (istream.ipp:128-147). -/
def peekByte : Reader UInt8 := fun s =>
  if s.rem = 0 then (0, { s with good := false })
  else if s.good && s.pos < s.data.length then (s.rest.headD 0, s)
  else (0, { s with good := false })

/-- `byte_reader::get_read_position` (byte_reader.ipp:636-640, 831-855): `tellg` of `system::istream`
never fails (istream.ipp:73-78). -/
def getPosition : Reader Nat := fun s => (s.pos, s)

/-- `byte_reader::set_position` (byte_reader.ipp:607-624). -/
def setPosition (a : Nat) : Reader Unit := fun s =>
  let s := { s with good := true }
  if a = s.pos then ((), s)
  else if s.pos < a then doSkip (a - s.pos) s
  else doRewind (s.pos - a) s

/-- `byte_reader::set_limit(size)` (byte_reader.ipp:648-652). -/
def setLimit (n : Nat) : Reader Unit := fun s => ((), { s with rem := n })

/-- `byte_reader::set_limit()` (byte_reader.ipp:642-646). -/
def clearLimit : Reader Unit := setLimit maxSize

/-- `byte_reader::read_byte` (byte_reader.ipp:256-262). -/
def readByte : Reader UInt8 := do
  let b ← doRead 1
  return b.headD 0

/-- `byte_reader::skip_byte` / `skip_bytes` (byte_reader.ipp:564-573). -/
def skipBytes (n : Nat) : Reader Unit := doSkip n

/-- Little-endian value of a byte string (`native_from_little_end` on a zero-extended buffer). Used for byte_reader.ipp:146-160. -/
def leNat : Bytes → Nat
  | [] => 0
  | b :: bs => b.toNat + 256 * leNat bs

/-- Big-endian value of a byte string. Used for byte_reader.ipp:88-101. -/
def beNat (bs : Bytes) : Nat := leNat bs.reverse

/-- Low `n` bytes of `v`, least significant first (`native_to_little_end`). Used for byte_writer.ipp:128-138. -/
def leBytes : Nat → Nat → Bytes
  | 0, _ => []
  | n + 1, v => UInt8.ofNat (v % 256) :: leBytes n (v / 256)

/-- Low `n` bytes of `v`, most significant first. Used for byte_writer.ipp:72-82. -/
def beBytes (n v : Nat) : Bytes := (leBytes n v).reverse

/-- `byte_reader::read_little_endian<Integer, Size>` (byte_reader.ipp:146-160). -/
def readLE (n : Nat) : Reader Nat := do
  let b ← doRead n
  return leNat b

/-- `byte_reader::read_big_endian<Integer, Size>` (byte_reader.ipp:88-101). -/
def readBE (n : Nat) : Reader Nat := do
  let b ← doRead n
  return beNat b

/-- `byte_reader::read_variable` (byte_reader.ipp:202-225). -/
def readVariable : Reader Nat := do
  let size ← readByte
  if size = 0xff then
    let v ← readLE 8
    if v > 0xffffffff then return v else do invalidate; return 0
  else if size = 0xfe then
    let v ← readLE 4
    if v > 0xffff then return v else do invalidate; return 0
  else if size = 0xfd then
    let v ← readLE 2
    if v ≥ 0xfd then return v else do invalidate; return 0
  else
    return size.toNat

/-- `byte_reader::read_size(limit)` (byte_reader.ipp:227-241). -/
def readSize (limit : Nat) : Reader Nat := do
  let size ← readVariable
  if size > limit then
    do invalidate; return 0
  else
    return size

/-- `byte_reader::read_bytes(size)` (byte_reader.ipp:424-437). -/
def readBytes (n : Nat) : Reader Bytes := fun s =>
  if n = 0 then ([], s)
  else if !s.good then ([], s)
  else doRead n s

/-- Counting loop of `byte_reader::read_bytes()` (byte_reader.ipp:383-388). `fuel` bounds the loop; the
loop ends because every iteration on a non-exhausted reader advances (see `countLoop_exhausts`). -/
def countLoop : Nat → Nat → Reader Nat
  | 0, size => fun s => (size, s)
  | fuel + 1, size => fun s =>
    if (isExhausted s).1 then (size, s)
    else countLoop fuel (size + 1) (doSkip 1 s).2

/-- `byte_reader::read_bytes()` (byte_reader.ipp:379-392): count to the end, rewind, read. -/
def readAll : Reader Bytes := fun s =>
  let c := countLoop (s.data.length + 1) 0 s
  let s := (doRewind c.1 c.2).2
  readBytes c.1 s

/-- `byte_reader::skip_variable` (byte_reader.ipp:576-593). -/
def skipVariable : Reader Unit := do
  let size ← readByte
  if size = 0xff then doSkip 8
  else if size = 0xfe then doSkip 4
  else if size = 0xfd then doSkip 2
  else return ()

/-- `byte_reader::read_string_buffer` collection loop (byte_reader.ipp:519-523): push bytes while valid. -/
def stringLoop : Nat → Bytes → Reader Bytes
  | 0, out => fun s => (out, s)
  | n + 1, out => fun s =>
    if s.good then stringLoop n (out ++ [(readByte s).1]) (readByte s).2
    else (out, s)

/-- `byte_reader::read_string_buffer` (byte_reader.ipp:512-532). Strings are byte lists. -/
def readStringBuffer (n : Nat) : Reader Bytes := fun s =>
  if (isExhausted s).1 then ([], s)
  else
    let r := stringLoop n [] s
    (r.1.takeWhile (· != 0), { r.2 with good := true })

/-- `byte_reader::read_string` (byte_reader.ipp:506-510). -/
def readString (limit : Nat) : Reader Bytes := do
  let n ← readSize limit
  readStringBuffer n

/-- `byte_reader::line_length` loop (byte_reader.ipp:905-957); `none` is "terminator not found".
`index` counts matched terminator bytes, `length` the line bytes so far. -/
def lineLengthLoop (term : Bytes) : Nat → Nat → Nat → RS → Option Nat × RS
  | 0, _, _, s => (none, s)
  | fuel + 1, index, length, s =>
    if (isExhausted s).1 then (none, s)
    else
      let b := (readByte s).1
      let s := (readByte s).2
      if b = term.getD index 0 then
        if index + 1 = term.length then (some length, s)
        else lineLengthLoop term fuel (index + 1) length s
      else if index ≠ 0 then
        if b = term.headD 0 then lineLengthLoop term fuel 1 (length + index) s
        else lineLengthLoop term fuel 0 (length + index + 1) s
      else lineLengthLoop term fuel 0 (length + 1) s

/-- `byte_reader::read_line` (byte_reader.ipp:534-547). -/
def readLine (term : Bytes) : Reader Bytes := fun s =>
  if term = [] then ([], { s with good := false })
  else
    match lineLengthLoop term (s.data.length + 1) 0 0 s with
    | (none, s) => ([], { s with good := false })
    | (some 0, s) => ([], s)
    | (some n, s) =>
      let s := (doRewind (n + term.length) s).2
      let r := doRead n s
      (r.1, (doSkip term.length r.2).2)

/-- `byte_writer::write_little_endian<Integer, Size>` (byte_writer.ipp:128-138): bytes appended. -/
def writeLE (n v : Nat) : Bytes := leBytes n v

/-- `byte_writer::write_big_endian<Integer, Size>` (byte_writer.ipp:72-82). -/
def writeBE (n v : Nat) : Bytes := beBytes n v

/-- `byte_writer::write_variable` (byte_writer.ipp:184-206). -/
def writeVariable (v : Nat) : Bytes :=
  if v < 0xfd then [UInt8.ofNat v]
  else if v ≤ 0xffff then 0xfd :: writeLE 2 v
  else if v ≤ 0xffffffff then 0xfe :: writeLE 4 v
  else 0xff :: writeLE 8 v

/-- `variable_size` (include/bitcoin/system/funclets.hpp:176-189). -/
def variableSize (v : Nat) : Nat :=
  if v < 0xfd then 1
  else if v ≤ 0xffff then 3
  else if v ≤ 0xffffffff then 5
  else 9

/-- `size_variable` (include/bitcoin/system/funclets.hpp:192-206). -/
def sizeVariable (prefixByte : UInt8) : Nat :=
  if prefixByte = 0xff then 9
  else if prefixByte = 0xfe then 5
  else if prefixByte = 0xfd then 3
  else 1

/-- `byte_writer::write_string_buffer` (byte_writer.ipp:257-268). -/
def writeStringBuffer (v : Bytes) (size : Nat) : Bytes :=
  v.take (min size v.length) ++ List.replicate (size - min size v.length) 0

/-- `byte_writer::write_string` (byte_writer.ipp:250-255). -/
def writeString (v : Bytes) : Bytes := writeVariable v.length ++ writeStringBuffer v v.length

/-- `byte_writer::write_line` (byte_writer.ipp:270-276). -/
def writeLine (v term : Bytes) : Bytes :=
  writeStringBuffer v v.length ++ writeStringBuffer term term.length

end Verif
