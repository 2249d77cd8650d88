import Verif.Model.Stream
/-!
# Model of the text utilities (src/data/string.cpp)

A text is its bytes (`std::string`).  Loops that need not terminate have fuel and are `none` when it runs out.
-/
namespace Verif.Strings
open Verif

/-- `std::string::find` from the start: the first position at which the pattern is found. Used for string.cpp:251-254. -/
def find : Bytes → Bytes → Option Nat
  | [], pat => if pat = [] then some 0 else none
  | x :: t, pat => if pat.isPrefixOf (x :: t) then some 0 else (find t pat).map (· + 1)

/-- `std::string::rfind`: the last position at which the pattern is found. Used for string.cpp:245-249. -/
def rfind : Bytes → Bytes → Option Nat
  | [], pat => if pat = [] then some 0 else none
  | x :: t, pat =>
    match rfind t pat with
    | some i => some (i + 1)
    | none => if pat.isPrefixOf (x :: t) then some 0 else none

/-- `starts_with` (string.cpp:251-254). -/
def startsWith (text pre : Bytes) : Bool := find text pre == some 0

/-- `ends_with` (string.cpp:245-249). -/
def endsWith (text suffix : Bytes) : Bool :=
  match rfind text suffix with
  | none => false
  | some i => i + suffix.length == text.length

/-- The loop of `join` (string.cpp:43-44). -/
def joinLoop (delimiter : Bytes) : Bytes → List Bytes → Bytes
  | out, [] => out
  | out, token :: tokens => joinLoop delimiter (out ++ delimiter ++ token) tokens

/-- `join` (string.cpp:32-50). -/
def join (tokens : List Bytes) (delimiter : Bytes) : Bytes :=
  match tokens with
  | [] => []
  | token :: tokens => joinLoop delimiter token tokens

/-- The loop of `replace` (string.cpp:85-91): the count, the text and where the next search starts. -/
def replaceLoop (source target : Bytes) : Nat → Nat → Bytes → Nat → Option (Nat × Bytes)
  | 0, _, _, _ => none
  | fuel + 1, count, text, start =>
    match find (text.drop start) source with
    | none => some (count, text)
    | some p =>
      replaceLoop source target fuel (count + 1) (text.take (start + p) ++ target ++ text.drop (start + p + source.length)) (start + p + target.length)

/-- `replace` (string.cpp:78-94), `replace_copy` (96-102): the count and the text. -/
def replace (fuel : Nat) (text source target : Bytes) : Option (Nat × Bytes) :=
  if source = [] then some (0, text) else replaceLoop source target fuel 0 text 0

/-- `trim_left` of a token (string.cpp:161-172): whether found, and the text. -/
def trimLeftOne (token : Bytes) : Nat → Bytes → Option (Bool × Bytes)
  | 0, _ => none
  | fuel + 1, text =>
    if startsWith text token then (trimLeftOne token fuel (text.drop token.length)).map fun r => (true, r.2) else some (false, text)

/-- `trim_right` of a token (string.cpp:174-185). -/
def trimRightOne (token : Bytes) : Nat → Bytes → Option (Bool × Bytes)
  | 0, _ => none
  | fuel + 1, text =>
    if endsWith text token then (trimRightOne token fuel (text.take (text.length - token.length))).map fun r => (true, r.2) else some (false, text)

/-- The `for` loops of `trim_left` and `trim_right` (string.cpp:193-195, 207-209). -/
def passTokens (one : Bytes → Nat → Bytes → Option (Bool × Bytes)) (fuel : Nat) : List Bytes → Bool → Bytes → Option (Bool × Bytes)
  | [], found, text => some (found, text)
  | token :: tokens, found, text => (one token fuel text).bind fun r => passTokens one fuel tokens (found || r.1) r.2

/-- The `do` loops of `trim_left` and `trim_right` (string.cpp:187-213): the value returned, and the text. -/
def trimSide (one : Bytes → Nat → Bytes → Option (Bool × Bytes)) (inner : Nat) (tokens : List Bytes) : Nat → Bytes → Option (Bool × Bytes)
  | 0, _ => none
  | fuel + 1, text => (passTokens one inner tokens false text).bind fun r => if r.1 then trimSide one inner tokens fuel r.2 else some r

/-- `trim_left` (string.cpp:187-199). -/
def trimLeft (fuel : Nat) (text : Bytes) (tokens : List Bytes) : Option (Bool × Bytes) := trimSide trimLeftOne fuel tokens fuel text

/-- `trim_right` (string.cpp:201-213). -/
def trimRight (fuel : Nat) (text : Bytes) (tokens : List Bytes) : Option (Bool × Bytes) := trimSide trimRightOne fuel tokens fuel text

/-- `trim` (string.cpp:215-219), `trim_copy` (237-243). -/
def trim (fuel : Nat) (text : Bytes) (tokens : List Bytes) : Option Bytes :=
  (trimLeft fuel text tokens).bind fun r => (trimRight fuel r.2 tokens).map (·.2)

/-- `reduce` (string.cpp:52-68). -/
def reduce (fuel : Nat) (tokens trimTokens : List Bytes) (compress : Bool) : Option (List Bytes) :=
  if tokens = [] then some []
  else (tokens.mapM fun t => trim fuel t trimTokens).map fun trimmed =>
    let kept := if compress then trimmed.filter (· ≠ []) else trimmed
    if kept = [] then [[]] else kept

/-- The loop of `splitter` (string.cpp:110-119), on the text from `start`. -/
def splitLoop (delimiter : Bytes) : Nat → Bytes → Option (List Bytes)
  | 0, _ => none
  | fuel + 1, text =>
    match find text delimiter with
    | none => some [text]
    | some p => (splitLoop delimiter fuel (text.drop (p + delimiter.length))).map (text.take p :: ·)

/-- `splitter` (string.cpp:104-123). -/
def splitter (fuel : Nat) (text delimiter : Bytes) (trimTokens : List Bytes) (compress : Bool) : Option (List Bytes) :=
  (splitLoop delimiter fuel text).bind fun tokens => reduce fuel tokens trimTokens compress

/-- The loop of `split` that replaces the other delimiters (string.cpp:140-141). -/
def unify (fuel : Nat) (first : Bytes) : List Bytes → Bytes → Option Bytes
  | [], text => some text
  | d :: ds, text => (replace fuel text d first).bind fun r => unify fuel first ds r.2

/-- `split` (string.cpp:125-145). -/
def split (fuel : Nat) (text : Bytes) (delimiters trimTokens : List Bytes) (compress : Bool) : Option (List Bytes) :=
  match delimiters, trimTokens with
  | [], [] => some [text]
  | [], _ :: _ => (trim fuel text trimTokens).map ([·])
  | d :: ds, _ => (trim fuel text trimTokens).bind fun t => (unify fuel d ds t).bind fun u => splitter fuel u d trimTokens compress

end Verif.Strings
