import Verif.Model.Machine
import Verif.Model.Radix
import Verif.Model.Base10
import Verif.Model.Number
import Verif.Model.Catalog.Opcodes
/-!
# Text of operations, scripts and witnesses

src/chain/enums/opcode.cpp, src/chain/operation.cpp:307-477, src/chain/script.cpp:288-324, 355-371, src/chain/witness.cpp:253-304,
src/data/string.cpp. A string is its bytes.
-/
namespace Verif.ScriptText
open Verif
open Verif.Radix (ascii encode16 decode16)
open Verif.Machine (opcodeFromSize)

/-! ### Strings -/

/-- `is_ascii_whitespace` (include/bitcoin/system/impl/unicode/ascii.ipp:73-77), the characters of `ascii_whitespace`
(src/unicode/code_points.cpp:43-62). -/
def isWs (c : UInt8) : Bool := c == 0x20 || (9 ≤ c && c ≤ 13)

/-- `trim` of `ascii_whitespace` (src/data/string.cpp:161-219): tokens are removed from the left until none is found, then from the right. -/
def trimWs (s : Bytes) : Bytes := ((s.dropWhile isWs).reverse.dropWhile isWs).reverse

/-- The loop of `splitter` with a delimiter of one character (string.cpp:104-123). -/
def splitOn (c : UInt8) : Bytes → List Bytes
  | [] => [[]]
  | x :: l =>
    if x = c then [] :: splitOn c l
    else match splitOn c l with
      | t :: ts => (x :: t) :: ts
      | [] => [[x]]

/-- `split(text)` (string.cpp:125-159, 52-68): trim, replace the other whitespace by the first (tab), split, trim the tokens, erase empty
tokens; one empty token if none is left. -/
def split (text : Bytes) : List Bytes :=
  let replaced := (trimWs text).map fun c => if isWs c then 9 else c
  let tokens := ((splitOn 9 replaced).map trimWs).filter (fun t => !t.isEmpty)
  if tokens.isEmpty then [[]] else tokens

/-- `ascii_to_lower` (src/unicode/ascii.cpp:54-64). -/
def toLower (s : Bytes) : Bytes := s.map fun c => if 65 ≤ c && c ≤ 90 then c + 32 else c

/-- `is_ascii_numeric` (ascii.cpp:44-52). -/
def isNumeric (s : Bytes) : Bool := (if s.head? = some 45 then s.drop 1 else s).all Base10.isDigit

/-- `deserialize(int64_t&)` of a text that `is_ascii_numeric` (include/bitcoin/system/impl/serial/deserialize.ipp:96-118): stream extraction
fails without digits and out of range. -/
def parseInt64 (s : Bytes) : Option Int :=
  let negative := s.head? = some 45
  let digits := if negative then s.drop 1 else s
  if digits.isEmpty then none
  else
    let v : Int := if negative then -(Base10.digitsVal digits : Int) else (Base10.digitsVal digits : Int)
    if -2 ^ 63 ≤ v ∧ v < 2 ^ 63 then some v else none

/-! ### Opcodes -/

/-- The rules that change the text of an opcode. Used for opcode.cpp:39-407. -/
structure Forks where
  bip65 : Bool
  bip112 : Bool
  bip342 : Bool

/-- `opcode_to_hexadecimal` (opcode.cpp:680-683). -/
def toHexadecimal (code : UInt8) : Bytes := ascii "0x" ++ encode16 [code]

/-- `opcode_to_mnemonic` (opcode.cpp:39-407). -/
def toMnemonic (f : Forks) (code : UInt8) : Bytes :=
  let c := code.toNat
  if 1 ≤ c ∧ c ≤ 75 then ascii "push_" ++ Base10.formatDec c
  else if 81 ≤ c ∧ c ≤ 96 then Base10.formatDec (c - 80)
  else if c = 177 then (if f.bip65 then ascii "checklocktimeverify" else ascii "nop2")
  else if c = 178 then (if f.bip112 then ascii "checksequenceverify" else ascii "nop3")
  else if c = 186 then (if f.bip342 then ascii "checksigadd" else toHexadecimal code)
  else match Catalog.opcodeText.find? (fun e => e.1 == c) with
    | some e => ascii e.2
    | none => toHexadecimal code

/-- `opcode_from_hexadecimal` (opcode.cpp:685-700); `octet_width` is 2. -/
def fromHexadecimal (s : Bytes) : Option UInt8 :=
  if s.length ≠ 4 ∨ s.take 2 ≠ ascii "0x" then none
  else match decode16 (s.drop 2) with
    | some d => d.head?
    | none => none

/-- `opcode_from_mnemonic` (opcode.cpp:410-678). -/
def fromMnemonic (s : Bytes) : Option UInt8 :=
  let norm := toLower s
  match Catalog.opcodeNames.find? (fun e => norm == ascii e.1) with
  | some e => some (UInt8.ofNat e.2)
  | none => fromHexadecimal s

/-! ### Operations -/

/-- `is_push_token`, `is_text_token`, `is_underflow_token` (operation.cpp:307-320), `is_push_token` (witness.cpp:253-256). -/
def isToken (front back : UInt8) (s : Bytes) : Bool := decide (1 < s.length) && s.head? == some front && s.getLast? == some back

/-- `remove_token_delimiters` (operation.cpp:322-326, witness.cpp:258-262). -/
def inner (s : Bytes) : Bytes := (s.drop 1).dropLast

/-- `opcode_from_data_prefix` (operation.cpp:333-361). -/
def codeFromPrefix (pre data : Bytes) : Option UInt8 :=
  if pre = ascii "0" then (if data.length ≤ 75 then some (opcodeFromSize data.length) else none)
  else if pre = ascii "1" then (if data.length ≤ 255 then some 76 else none)
  else if pre = ascii "2" then (if data.length ≤ 65535 then some 77 else none)
  else if pre = ascii "4" then (if data.length ≤ 4294967295 then some 78 else none)
  else none

/-- `data_from_decimal` (operation.cpp:363-376). -/
def dataFromDecimal (s : Bytes) : Option Bytes :=
  if !isNumeric s then none else (parseInt64 s).map Num.chunkFromInteger

/-- `operation::from_string` (operation.cpp:378-441). -/
def fromString (s : Bytes) : Op :=
  if isToken 91 93 s then
    match splitOn 46 (inner s) with
    | [part] => match decode16 part with
      | some d => { code := opcodeFromSize d.length, data := d }
      | none => Op.default
    | [pre, part] => match decode16 part with
      | some d => match codeFromPrefix pre d with
        | some code => { code := code, data := d }
        | none => Op.default
      | none => Op.default
    | _ => Op.default
  else if isToken 39 39 s then { code := opcodeFromSize (inner s).length, data := inner s }
  else if isToken 60 62 s then
    match decode16 (inner s) with
    | some d => { code := anyInvalid, data := d, underflow := true }
    | none => Op.default
  else match fromMnemonic s with
    | some code => { code := code }
    | none => match dataFromDecimal s with
      | some d => { code := opcodeFromSize d.length, data := d }
      | none => Op.default

/-- `operation::is_valid` (operation.cpp:482-487). -/
def isValid (o : Op) : Bool := !(o.code == anyInvalid && !o.underflow && !o.data.isEmpty)

/-- `opcode_to_prefix` (operation.cpp:443-461). -/
def toPrefix (code : UInt8) (data : Bytes) : Bytes :=
  if code = opcodeFromSize data.length then []
  else if code = 76 then ascii "1." else if code = 77 then ascii "2." else if code = 78 then ascii "4." else ascii "0."

/-- `operation::to_string` (operation.cpp:463-477). -/
def toText (f : Forks) (o : Op) : Bytes :=
  if !isValid o then ascii "?"
  else if o.underflow then ascii "(" ++ encode16 o.data ++ ascii ")"
  else if o.data.isEmpty then toMnemonic f o.code
  else ascii "[" ++ toPrefix o.code o.data ++ encode16 o.data ++ ascii "]"

/-! ### Scripts and witnesses -/

/-- The texts with a space between them (the loops of script.cpp:360-367 and witness.cpp:294-299). -/
def joined : List Bytes → Bytes
  | [] => []
  | t :: ts => t ++ ts.flatMap fun t => ascii " " ++ t

/-- `script::to_string` (script.cpp:355-371). -/
def scriptText (f : Forks) (sc : Script) : Bytes := joined (sc.ops.map (toText f))

/-- The tokens of a text: none if the first is empty (script.cpp:300-305, witness.cpp:268-273). -/
def tokens (s : Bytes) : List Bytes :=
  let ts := split s
  if (ts.headD []).isEmpty then [] else ts

/-- `script::from_string` (script.cpp:288-324); the default script if an operation is not valid. -/
def scriptFromString (s : Bytes) : Script :=
  let ops := (tokens s).map fromString
  if ops.all isValid then Script.ofOps ops else { ops := [], valid := false, size := 0 }

/-- `witness::to_string` (witness.cpp:289-305). -/
def witnessText (w : Witness) : Bytes :=
  if !w.valid then ascii "(?)" else joined (w.stack.map fun e => ascii "[" ++ encode16 e ++ ascii "]")

/-- `witness::from_string` (witness.cpp:264-287). -/
def witnessFromString (s : Bytes) : Witness :=
  let ds := (tokens s).map fun t => if isToken 91 93 t then decode16 (inner t) else none
  if ds.all Option.isSome then Witness.ofStack (ds.filterMap id) else { stack := [], valid := false, size := 0 }

end Verif.ScriptText
