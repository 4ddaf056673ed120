import Verif.Model.Tuples
import Verif.Spec.Dictionary
/-!
# Specification: words whose forms are a list or a tuple

Nothing here is used by the model.
-/

namespace Utg.Spec
open Py

/-- The dictionary after adding the words one after the other to an empty one; an `add_word` that raised is followed by the next one all the
same. -/
def seqHistory (U : PyUni) (ws : List SeqWord) : SeqDictionary := ws.foldl (fun d w => (d.addWord U w).1) []

/-- A dictionary all of whose words have the same kind of forms. -/
def ofKind (tuple : Bool) (d : Dictionary) : SeqDictionary := d.map fun kv => (kv.1, kv.2, tuple)

/-- The registered word forms, whatever their words have. -/
def forgetKind (d : SeqDictionary) : Dictionary := d.map fun kv => (kv.1, kv.2.1)

/-- The text is registered for a word of the same type whose forms are a sequence of the other kind. -/
def Clashes (d : SeqDictionary) (w : SeqWord) (text : Str) : Prop :=
  ∃ g, Dict.get? d text = some (g, !w.tuple) ∧ g.word.type = w.word.type

end Utg.Spec
