import Verif.Model.Strings
import Verif.Model.Config
import Verif.Model.Binary
/-!
# Lists of values as text, and the remaining data types of config

include/bitcoin/system/impl/serial/serialize.ipp, deserialize.ipp, src/config/base2.cpp, base32.cpp. A decoder of an element gives `none` where it
returns false; what it leaves in the element then is not modelled (`deserialize` of the list returns false).
-/
namespace Verif.Lists
open Verif
open Verif.Radix (encode16 decode16)

/-- `ascii_whitespace` (src/unicode/code_points.cpp:42-61). -/
def whitespace : List Bytes := [[9], [10], [11], [12], [13], [32]]

/-- `serialize` of a value with a stream operator: the fallback if its text is empty (serialize.ipp:88-103). -/
def serializeOne (fallback text : Bytes) : Bytes := if text = [] then fallback else text

/-- `serialize` of an array or a vector (serialize.ipp:60-86), from that of an element. -/
def serializeList (element : α → Bytes) (values : List α) : Bytes := Strings.join (values.map element) [32]

/-- The tokens of `split(text)` (deserialize.ipp:81, 97; src/data/string.cpp:154-159). -/
def tokens (text : Bytes) : List Bytes := (Strings.split (text.length + 1) text whitespace whitespace true).getD []

/-- `deserialize` of a vector (deserialize.ipp:86-101): every token is read, and all must succeed. -/
def deserializeList (element : Bytes → Option α) (text : Bytes) : Option (List α) := (tokens text).mapM element

/-- `deserialize` of an array (deserialize.ipp:70-84): the values are written over those of the array from its first; more tokens than elements
are written past its end. -/
def deserializeArray (element : Bytes → Option α) (array : List α) (text : Bytes) : Pack.Out (List α) :=
  if array.length < (tokens text).length then .undefined
  else match (tokens text).mapM element with
    | none => .fail
    | some values => .ok (values ++ array.drop values.length)

/-- The list of numbers below a limit (serialize.ipp:88-103; deserialize.ipp:103-127). -/
def serializeNumbers (fallback : Bytes) (l : List Nat) : Bytes := serializeList (fun n => serializeOne fallback (Config.serialize n)) l
/-- As above, deserialize.ipp:103-127. -/
def deserializeNumbers (limit : Nat) (text : Bytes) : Option (List Nat) := deserializeList (Config.deserialize limit) text
/-- The list of data (serialize.ipp:54-58; deserialize.ipp:65-68): the fallback is not used. -/
def serializeData (l : List Bytes) : Bytes := serializeList encode16 l
/-- As above, deserialize.ipp:65-68. -/
def deserializeData (text : Bytes) : Option (List Bytes) := deserializeList decode16 text

/-! ## Base 2 and base 32 -/

/-- `operator>>` of `config::base2` (src/config/base2.cpp:53-63) with that of `binary` (src/stream/binary.cpp:159-165); `none` is thrown. -/
def readBase2 (s : Bytes) : Option Binary.Binary :=
  let text := Config.word s
  if !Binary.isBase2 text then none else some (Binary.ofString (Config.word text))
/-- `operator<<` (base2.cpp:65-69; binary.cpp:167-171). -/
def writeBase2 (x : Binary.Binary) : Bytes := Binary.encoded x

/-- `operator>>` of `config::base32` (src/config/base32.cpp:54-63); `fail` is thrown. -/
def readBase32 (s : Bytes) : Pack.Out Bytes := Pack.decode32 (Config.word s)
/-- `operator<<` (base32.cpp:65-69). -/
def writeBase32 (d : Bytes) : Bytes := Pack.encode32 d

end Verif.Lists
