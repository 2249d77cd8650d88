import Verif.Model.Bits

/-! # QR codes as images

`src/wallet/addresses/qr_code.cpp` and `tiff.cpp`. The coding of a text as modules is the embedded qrencode library's
and is an argument here: a width and one byte for each module, row by row, or nothing if it fails. -/

namespace Verif.Image

/-- The pixels of one row (qr_code.cpp:197-226): left margin, the modules of the row scaled, right margin. The reader
returns zero after the end of the data. -/
def rowBits (coded : Bytes) (width scale margin row : Nat) : List Bool :=
  List.replicate margin false ++
  ((List.range width).flatMap fun column => List.replicate scale ((coded.getD (row * width + column) 0) &&& 0x01 != 0)) ++
  List.replicate margin false

/-- Bits through the bit writer, flushed (qr_code.cpp:200, 226-227). -/
def packBits (bits : List Bool) : Bytes := (bits.foldl Bit.Writer.writeBit Bit.Writer.init).flush.out

/-- Rows through the bit writer (qr_code.cpp:183, 188, 231, 237, 246). -/
def packRows (rows : List Bytes) : Bytes := (rows.foldl Bit.Writer.writeBytes Bit.Writer.init).flush.out

/-- The rows of the image (qr_code.cpp:185-238): top margin, each row repeated, bottom margin. -/
def imageRows (coded : Bytes) (width scale margin : Nat) : List Bytes :=
  let pixels := 2 * margin + scale * width
  let blank := List.replicate ((pixels + 7) / 8) 0
  List.replicate margin blank ++
  ((List.range width).flatMap fun row => List.replicate scale (packBits (rowBits coded width scale margin row))) ++
  List.replicate margin blank

/-- `qr_code::to_pixels` (qr_code.cpp:137-249). The product of the widths is of 32 bits (qr_code.cpp:149). A reader
that was read past its end is exhausted too (byte_reader.ipp:626-630), so the last guard is that no data is left. -/
def toPixels (coded : Bytes) (width scale margin : Nat) : Bytes :=
  let pixels := 2 * margin + scale * width
  if coded.length ≠ width * width % 2 ^ 32 then []
  else if pixels = 0 then []
  else if maxSize / pixels < pixels then []
  else if width * width < coded.length then []
  else packRows (imageRows coded width scale margin)

/-- One entry of the directory with a value of four bytes (tiff.cpp:178-181). -/
def entryFull (tag value : Nat) : Bytes := beBytes 2 tag ++ beBytes 2 4 ++ beBytes 4 1 ++ beBytes 4 value

/-- One entry with a value of two bytes and a pad (tiff.cpp:190-194). -/
def entryHalf (tag value : Nat) : Bytes := beBytes 2 tag ++ beBytes 2 3 ++ beBytes 4 1 ++ beBytes 2 value ++ beBytes 2 0

/-- One entry with the offset of a ratio (tiff.cpp:222-225). -/
def entryRatio (tag offset : Nat) : Bytes := beBytes 2 tag ++ beBytes 2 5 ++ beBytes 4 1 ++ beBytes 4 offset

/-- The offsets (tiff.cpp:105-119). -/
def directory0 : Nat := 2 + 2 + 4
/-- As above, tiff.cpp:105-119. -/
def entry0 : Nat := directory0 + 2
/-- As above, tiff.cpp:105-119. -/
def xResolution : Nat := entry0 + 10 * 12 + 4 + 2
/-- As above, tiff.cpp:105-119. -/
def yResolution : Nat := xResolution + 4 + 4
/-- As above, tiff.cpp:105-119. -/
def strip0 : Nat := yResolution + 4 + 4 + 4

/-- All before the image data (tiff.cpp:160-266). -/
def tiffHeader (width rows size : Nat) : Bytes :=
  beBytes 2 0x4d4d ++ beBytes 2 0x002a ++ beBytes 4 directory0 ++ beBytes 2 0x000a ++
  entryFull 0x0100 width ++ entryFull 0x0101 rows ++ entryHalf 0x0103 1 ++ entryHalf 0x0106 0 ++ entryFull 0x0111 strip0 ++
  entryFull 0x0116 rows ++ entryFull 0x0117 size ++ entryRatio 0x011a xResolution ++ entryRatio 0x011b yResolution ++
  entryHalf 0x0128 1 ++ beBytes 4 0 ++ beBytes 2 0 ++ beBytes 4 72 ++ beBytes 4 1 ++ beBytes 4 72 ++ beBytes 4 1 ++ beBytes 4 0xbaadf00d

/-- `tiff::to_image` (tiff.cpp:136-275): what it writes, or none if it returns false. Failure of the stream is not modelled. -/
def toImage (data : Bytes) (width : Nat) : Option Bytes :=
  if width = 0 ∨ data = [] then none
  else if 2 ^ 32 - 1 < data.length then none
  else
    let rowBytes := (width + 7) / 8
    if data.length % rowBytes ≠ 0 then none
    else some (tiffHeader width (data.length / rowBytes) data.length ++ data)

/-- `qr_code::encode` (qr_code.cpp:87-130), given what the coding library returns for the text. -/
def encode (code : Option (Nat × Bytes)) (version scale margin : Nat) : Option Bytes :=
  if 40 < version then none
  else match code with
    | none => none
    | some (width, data) =>
      if width = 0 then none
      else if 2 ^ 16 - 1 < 2 * margin + scale * width then none
      else toImage (toPixels data width scale margin) (2 * margin + scale * width)

end Verif.Image
