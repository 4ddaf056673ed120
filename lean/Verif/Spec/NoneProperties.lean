import Verif.Model.NoneProperties
import Verif.Spec.Dictionary
/-! # Words whose properties are `None`, and words with no properties -/

namespace Utg.Spec
open Py

/-- The same word, made with `Properties()` instead of `None`. -/
def proper (w : BareWord) : Word where
  type := w.type
  forms := w.forms
  properties := w.properties.getD (.new [])

/-- The same word form, made with `Properties()` instead of `None`. -/
def properForm (f : BareForm) : WordForm where
  word := proper f.word
  properties := f.properties.getD (.new [])
  formProperties := f.formProperties.getD (.new [])

/-- The same dictionary, or the same externals, with such word forms. -/
def properForms (d : Dict Str BareForm) : Dict Str WordForm := d.map fun kv => (kv.1, properForm kv.2)

/-- The dictionary after adding the words one after the other. -/
def bareHistory (U : PyUni) (ws : List BareWord) : BareDictionary := ws.foldl (fun d w => (d.addWord U w).1) []

/-- The word form that the substitution begins with: the external of that name, else the word of the dictionary. -/
def ResolvesBare (ext : BareExternals) (d : BareDictionary) (name : Str) (f : BareForm) : Prop :=
  Dict.get? ext name = some f ∨ Dict.get? ext name = none ∧ Dict.get? d name = some f

end Utg.Spec
