import Verif.Spec.Reference
/-!
# Asking for a form (C105)

Nothing here is used by the model.
-/

namespace Utg.Spec
open Py

/-- The value that asks for a text as it is, or with a capital letter. -/
def letterCase (upper : Bool) : Rec := if upper then .WORD_CASE_UPPER else .WORD_CASE_LOWER

/-- A text as it is, or with a capital letter; an empty text has no first letter. -/
def inCase (U : PyUni) (upper : Bool) (text : Str) : Except PyErr Str :=
  match upper, text with
  | false, text => .ok text
  | true, [] => .error .IndexError
  | true, c :: cs => .ok (U.upperC c ++ cs)

/-- The word fixes no value that differs from the listed ones. -/
def Permits (w : Word) (rs : List Rec) : Prop :=
  ∀ r ∈ rs, w.properties.isSpecified r.group = true → w.properties.get r.group = some r

instance (w : Word) (rs : List Rec) : Decidable (Permits w rs) := by unfold Permits; infer_instance

end Utg.Spec
