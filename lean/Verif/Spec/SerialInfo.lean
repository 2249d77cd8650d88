import Verif.Spec.Serial
/-!
# Specification: the words of a text, and those a property tree stands for
-/
namespace Verif.Serial.Spec

/-- A word: something without whitespace that does not begin with a quote. -/
def Word (s : Bytes) : Prop := s ≠ [] ∧ s.head? ≠ some 34 ∧ ∀ c ∈ s, isSpace c = false

/-- A text consists of words and quoted passages, separated by whitespace. -/
inductive Words : Bytes → List Bytes → Prop
  | nil : Words [] []
  | space (c : UInt8) (s : Bytes) (ws : List Bytes) : isSpace c = true → Words s ws → Words (c :: s) ws
  | word (t s : Bytes) (ws : List Bytes) : Word t → (∀ c ∈ s.head?, isSpace c = true) → Words s ws → Words (t ++ s) (t :: ws)
  | quoted (t s : Bytes) (ws : List Bytes) : (∀ c ∈ t, c ≠ 34) → (∀ c ∈ s.head?, isSpace c = true) → Words s ws →
      Words ([34] ++ t ++ [34] ++ s) (t :: ws)

mutual
/-- The words of a tree: a value is one, an array or object is its elements or members between braces, a member is its name and
its value. -/
def wordsOf : Tree → List Bytes
  | .null => [[110, 117, 108, 108]]
  | .true_ => [[116, 114, 117, 101]]
  | .false_ => [[102, 97, 108, 115, 101]]
  | .string s => [s]
  | .number n => [serialize n]
  | .invalid => []
  | .array _ children => [[123]] ++ elementWords children ++ [[125]]
  | .object children => [[123]] ++ memberWords children ++ [[125]]
def elementWords : List Tree → List Bytes
  | [] => []
  | c :: cs => wordsOf c ++ elementWords cs
def memberWords : List (Bytes × Tree) → List Bytes
  | [] => []
  | (name, c) :: cs => [name] ++ wordsOf c ++ memberWords cs
end

mutual
/-- The names are words, a string is one or has whitespace and no quote, and there is no invalid number. -/
def AllInfo (space : Bytes → Bool) : Tree → Prop
  | .string s => if space s then ∀ c ∈ s, c ≠ 34 else Word s
  | .invalid => False
  | .array _ children => ElementsInfo space children
  | .object children => MembersInfo space children
  | _ => True
def ElementsInfo (space : Bytes → Bool) : List Tree → Prop
  | [] => True
  | c :: cs => AllInfo space c ∧ ElementsInfo space cs
def MembersInfo (space : Bytes → Bool) : List (Bytes × Tree) → Prop
  | [] => True
  | (name, c) :: cs => Word name ∧ AllInfo space c ∧ MembersInfo space cs
end

end Verif.Serial.Spec
