import Verif.Model.Stream
/-!
# Model of writers and flippers over a fixed buffer, and of the growing sink

Sources: include/bitcoin/system/impl/stream/iostream/ostream.ipp,
         include/bitcoin/system/impl/stream/iostream/iostream.ipp,
         include/bitcoin/system/impl/stream/streamers/byte_writer.ipp,
         include/bitcoin/system/stream/streamers/byte_flipper.hpp,
         include/bitcoin/system/impl/stream/device.ipp, include/bitcoin/system/stream/devices/push_sink.hpp.

The buffer is the region `[base, base + size)` of a memory, so that a write outside of it would be visible.
Sizes are below 2^63 (the code asserts `size <= maximum`, byte_writer.ipp:324).
-/
namespace Verif.Writer
open Verif

/-- A stream over a region of memory: `begin_ = base`, `end_ = base + size`, `position_ = base + pos`, `state_ == goodbit`
(ostream.ipp:33-50, iostream.ipp:33-50), with the read limit `remaining_` of the reader half of a flipper. -/
structure S where
  mem : Bytes
  base : Nat
  size : Nat
  pos : Nat
  good : Bool
  rem : Nat
deriving DecidableEq, Repr

/-- Construction of the stream on a slab (ostream.ipp:33-40, iostream.ipp:33-40) and of the reader and writer on it. -/
def open' (mem : Bytes) (base size : Nat) : S := { mem, base, size, pos := 0, good := true, rem := maxSize }

/-- `std::copy_n(data, bytes, position_)`: store bytes at an address of the memory. Used for byte_writer.ipp:317-330. -/
def store (mem : Bytes) (address : Nat) (d : Bytes) : Bytes := mem.take address ++ d ++ mem.drop (address + d.length)

/-- `is_overflow` (ostream.ipp:102-107, iostream.ipp:208-213). -/
def overflow (s : S) (n : Nat) : Bool := !s.good || decide (s.size - s.pos < n)

/-- `byte_writer::do_write_bytes` (byte_writer.ipp:317-330) with `ostream::write` (ostream.ipp:76-93) or `iostream::write`
(iostream.ipp:170-188). -/
def write (d : Bytes) (s : S) : S :=
  if overflow s d.length then { s with good := false }
  else { s with mem := store s.mem (s.base + s.pos) d, pos := s.pos + d.length }

/-- `byte_writer::get_write_position` (byte_writer.ipp:287-291, 374-398). -/
def position (s : S) : Nat := s.pos

/-- `byte_reader::do_read_bytes` (byte_reader.ipp:713-732) with `iostream::read` (iostream.ipp:150-168): nothing is read past the end,
the zeroed buffer of the caller is returned. -/
def read (n : Nat) (s : S) : Bytes × S :=
  if s.rem < n then (List.replicate n 0, { s with good := false })
  else
    let s := { s with rem := s.rem - n }
    if overflow s n then (List.replicate n 0, { s with good := false })
    else ((s.mem.drop (s.base + s.pos)).take n, { s with pos := s.pos + n })

/-- `byte_reader::do_peek_byte` (byte_reader.ipp:693-711) with `iostream::peek` (iostream.ipp:134-148). -/
def peek (s : S) : UInt8 × S :=
  if s.rem = 0 then (0, { s with good := false })
  else if overflow s 1 then (0, { s with good := false })
  else ((s.mem.drop (s.base + s.pos)).headD 0, s)

/-- `byte_reader::do_skip_bytes` (byte_reader.ipp:734-743) with `iostream::seekg(cur)` (iostream.ipp:81-132). -/
def skip (n : Nat) (s : S) : S :=
  if s.rem < n then { s with good := false }
  else
    let s := { s with rem := s.rem - n }
    if n = 0 then s
    else if s.good then
      if s.size - s.pos < n then { s with good := false } else { s with pos := s.pos + n }
    else s

/-- `byte_reader::do_rewind_bytes` (byte_reader.ipp:745-757) with `iostream::seekg(cur)`. -/
def rewind (n : Nat) (s : S) : S :=
  let s := { s with rem := cadd s.rem n }
  if n = 0 then s
  else if s.good then
    if s.pos < n then { s with good := false } else { s with pos := s.pos - n }
  else s

/-- `byte_reader::set_position` (byte_reader.ipp:607-624) of a flipper. -/
def seek (a : Nat) (s : S) : S :=
  let s := { s with good := true }
  if a = s.pos then s else if s.pos < a then skip (a - s.pos) s else rewind (s.pos - a) s

/-- `device::write` (device.ipp:68-81) with `push_sink::do_write` (push_sink.hpp:55-59): appends what the remaining capacity allows and
returns how much that is. `remaining` is `max_size() - size()` at construction (push_sink.hpp:45-50). -/
def pushWrite (container : Bytes) (remaining : Nat) (d : Bytes) : Nat × Bytes × Nat :=
  let size := min remaining d.length
  (size, container ++ d.take size, remaining - size)

end Verif.Writer
