import Verif.Model.ScriptText
/-!
# Texts one after another
-/
namespace Verif.Spec
open Verif.ScriptText (isWs)

/-- Only whitespace. -/
def Blank (s : List UInt8) : Prop := ∀ c ∈ s, c = 0x20 ∨ (9 ≤ c ∧ c ≤ 13)

/-- The stream holds these texts, in this order, with whitespace before, between and after them; nothing of it is needed before the first
and after the last. -/
inductive Written : List (List UInt8) → List UInt8 → Prop where
  | done (w : List UInt8) (h : Blank w) : Written [] w
  | last (w t v : List UInt8) (hw : Blank w) (hv : Blank v) : Written [t] (w ++ t ++ v)
  | more (w t v : List UInt8) (ts : List (List UInt8)) (s : List UInt8) (hw : Blank w) (hv : Blank v) (hne : v ≠ []) (h : Written ts s) :
      Written (t :: ts) (w ++ t ++ v ++ s)

end Verif.Spec
