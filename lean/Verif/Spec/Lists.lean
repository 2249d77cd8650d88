import Verif.Model.ScriptText
/-!
# Words of a text
-/
namespace Verif.Lists.Spec
open Verif
open Verif.ScriptText (isWs)

/-- A word: not empty and without whitespace. -/
def Word (t : Bytes) : Prop := t ≠ [] ∧ ∀ c ∈ t, isWs c = false

/-- The text consists of these words, with whitespace between them and possibly around them. -/
inductive Words : Bytes → List Bytes → Prop
  | nil : Words [] []
  | white (c : UInt8) (s : Bytes) (ws : List Bytes) : isWs c = true → Words s ws → Words (c :: s) ws
  | word (t s : Bytes) (ws : List Bytes) : Word t → (∀ c ∈ s.head?, isWs c = true) → Words s ws → Words (t ++ s) (t :: ws)

end Verif.Lists.Spec
