import Verif.Model.Stream
/-!
# Model of `bit_writer` and `bit_reader`

Sources: include/bitcoin/system/impl/stream/streamers/{bit_writer,bit_reader}.ipp, include/bitcoin/system/impl/math/bits.ipp.
The byte streams under them are those of Model/Stream (writer: the bytes appended; reader: `RS`).
-/
namespace Verif.Bit

/-- `bit_left<uint8_t>(offset)` `bit_right` (bits.ipp:129-153). -/
def bitLeft (offset : Nat) : UInt8 := if offset ≥ 8 then 0 else 1 <<< (UInt8.ofNat (8 - offset - 1))

/-- `get_left<uint8_t>` (bits.ipp:158-162). -/
def getLeft (value : UInt8) (offset : Nat) : Bool := value &&& bitLeft offset != 0

/-- `set_left_into<uint8_t>` (bits.ipp:181-186). -/
def setLeft (value : UInt8) (offset : Nat) (state : Bool) : UInt8 :=
  if state then value ||| bitLeft offset else value &&& ~~~ bitLeft offset

/-- `set_right_into<uint64_t>` (bits.ipp:195-200), numbers as naturals. -/
def setRight (value offset : Nat) (state : Bool) : Nat :=
  if state then value ||| 2 ^ offset else if value.testBit offset then value - 2 ^ offset else value

/-- `bit_writer`: bytes passed on, byte buffer, bits in the buffer. Used for bit_writer.ipp:46-52. -/
structure Writer where
  out : Bytes
  byte : UInt8
  offset : Nat
deriving DecidableEq

/-- `bit_writer(sink)` (bit_writer.ipp:46-52); `pad()` is zero. -/
def Writer.init : Writer := ⟨[], 0, 0⟩

/-- `unload` (bit_writer.ipp:109-116). -/
def Writer.unload (w : Writer) : Writer := ⟨w.out ++ [w.byte], 0, 0⟩

/-- `write_bit` (bit_writer.ipp:64-73). -/
def Writer.writeBit (w : Writer) (value : Bool) : Writer :=
  let w := { w with byte := setLeft w.byte w.offset value, offset := w.offset + 1 }
  if 8 - w.offset = 0 then w.unload else w

/-- The loop of `write_bits` (bit_writer.ipp:83-84), `bit` from the count down to one. -/
def Writer.bitsLoop (value : Nat) : Nat → Writer → Writer
  | 0, w => w
  | bit + 1, w => bitsLoop value bit (w.writeBit (value.testBit bit))

/-- `write_bits` (bit_writer.ipp:75-85). -/
def Writer.writeBits (w : Writer) (value bits : Nat) : Writer := Writer.bitsLoop value (min 64 bits) w

/-- `do_write_bytes` (bit_writer.ipp:90-97). -/
def Writer.writeBytes (w : Writer) (d : Bytes) : Writer := d.foldl (fun w b => w.writeBits b.toNat 8) w

/-- `do_flush`, `flusher` (bit_writer.ipp:99-104, 118-123). -/
def Writer.flush (w : Writer) : Writer := if w.offset ≠ 0 then w.unload else w

/-- `bit_reader`: byte reader below, buffered byte, bits taken from it. Used for bit_reader.ipp:46-52. -/
structure Reader where
  src : RS
  byte : UInt8
  offset : Nat
deriving DecidableEq

/-- `bit_reader(source)` (bit_reader.ipp:46-52). -/
def Reader.init (d : Bytes) : Reader := ⟨RS.init d, 0, 8⟩

/-- `load` (bit_reader.ipp:165-172). -/
def Reader.load (r : Reader) : Reader :=
  let x := doRead 1 r.src
  ⟨x.2, x.1.headD 0, 0⟩

/-- `reload` (bit_reader.ipp:174-181). -/
def Reader.reload (r : Reader) : Reader :=
  let x := doRead 1 (doRewind 2 r.src).2
  ⟨x.2, x.1.headD 0, 8⟩

/-- `read_bit` (bit_reader.ipp:57-66). -/
def Reader.readBit (r : Reader) : Bool × Reader :=
  let r := if 8 - r.offset = 0 then r.load else r
  (getLeft r.byte r.offset, { r with offset := r.offset + 1 })

/-- The loop of `read_bits` (bit_reader.ipp:77-78). -/
def Reader.bitsLoop : Nat → Nat → Reader → Nat × Reader
  | 0, out, r => (out, r)
  | bit + 1, out, r => bitsLoop bit (setRight out bit r.readBit.1) r.readBit.2

/-- `read_bits` (bit_reader.ipp:68-81). -/
def Reader.readBits (r : Reader) (bits : Nat) : Nat × Reader := Reader.bitsLoop (min 64 bits) 0 r

/-- `skip_bit` (bit_reader.ipp:83-91). -/
def Reader.skipBit (r : Reader) : Reader :=
  let r := if 8 - r.offset = 0 then r.load else r
  { r with offset := r.offset + 1 }

/-- `rewind_bit` (bit_reader.ipp:100-108). -/
def Reader.rewindBit (r : Reader) : Reader :=
  let r := if r.offset = 0 then r.reload else r
  { r with offset := r.offset - 1 }

/-- `do_read_bytes` (bit_reader.ipp:130-136), `narrow_cast` of an eight bit value. -/
def Reader.readBytes : Nat → Reader → Bytes × Reader
  | 0, r => ([], r)
  | n + 1, r =>
    let x := r.readBits 8
    let y := readBytes n x.2
    (UInt8.ofNat x.1 :: y.1, y.2)

/-- `do_peek_byte` (bit_reader.ipp:120-128): `(byte_ << offset_) | (peek() >> shift())` narrowed. -/
def Reader.peekByte (r : Reader) : UInt8 × Reader :=
  let p := Verif.peekByte r.src
  if r.offset = 0 then (p.1, { r with src := p.2 })
  else (UInt8.ofNat (r.byte.toNat <<< r.offset ||| p.1.toNat >>> (8 - r.offset)), { r with src := p.2 })

/-- `byte_reader::read_variable` (byte_reader.ipp:202-225) over the bit reader's byte reads (read_byte and read_little_endian
call the overridden `do_read_bytes`). The flag is the reader's state after it. -/
def Reader.readVariable (r : Reader) : Nat × Reader :=
  let fail := fun r : Reader => ((0, { r with src := { r.src with good := false } }) : Nat × Reader)
  let x := r.readBytes 1
  let size := x.1.headD 0
  if size = 0xff then
    let v := x.2.readBytes 8
    if leNat v.1 > 0xffffffff then (leNat v.1, v.2) else fail v.2
  else if size = 0xfe then
    let v := x.2.readBytes 4
    if leNat v.1 > 0xffff then (leNat v.1, v.2) else fail v.2
  else if size = 0xfd then
    let v := x.2.readBytes 2
    if leNat v.1 ≥ 0xfd then (leNat v.1, v.2) else fail v.2
  else (size.toNat, x.2)

end Verif.Bit
