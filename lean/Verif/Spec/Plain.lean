import Verif.Spec.Reference
/-!
# Plain texts

A text typed by a user, given to a template as a variable. Nothing here is used by the model.
-/

namespace Utg.Spec
open Py

/-- The word form of a plain text: a word of type text with one form and no properties. -/
def plain (text : Str) : WordForm := WordForm.new ⟨.TEXT, [text], .new []⟩

/-- The dependencies ask for a capital letter: the last one that speaks about letter case asks for the upper one. -/
def asksCapital (ext : Externals) (deps : List Dep) : Bool := decide (lastSay ext .WORD_CASE deps = some .WORD_CASE_UPPER)

end Utg.Spec
