import Verif.Model.NoneForms
import Verif.Spec.Dictionary
/-!
# Specification: missing forms given as `None` and as `''`

Nothing here is used by the model.
-/

namespace Utg.Spec
open Py

/-- The same word with `''` for `None`. -/
def blankWord (w : OptWord) : Word := ⟨w.type, w.forms.map fun f => f.getD [], w.properties⟩

/-- The same word form with `''` for `None`. -/
def blankForm (f : OptForm) : WordForm := ⟨blankWord f.word, f.properties, f.formProperties⟩

/-- The same externals with `''` for `None`. -/
def blankExternals (ext : OptExternals) : Externals := ext.map fun kv => (kv.1, blankForm kv.2)

/-- A word without `None`. -/
def given (w : Word) : OptWord := ⟨w.type, w.forms.map some, w.properties⟩

/-- Where the two lists first differ, one of them has `None` and the other a string. -/
def Incomparable (a b : List (Option Str)) : Prop :=
  ∃ same x a' b', (a = same ++ none :: a' ∧ b = same ++ some x :: b') ∨ (a = same ++ some x :: a' ∧ b = same ++ none :: b')

/-- The text is registered for a word of the same type, to whose forms those of `w` cannot be compared. -/
def NoneClash (d : OptDictionary) (w : OptWord) (text : Option Str) : Prop :=
  ∃ g, Dict.get? d text = some g ∧ g.word.type = w.type ∧ Incomparable w.forms g.word.forms

/-- The same is registered for all texts that are not empty. -/
def AgreeOnTexts (d : OptDictionary) (e : Dictionary) : Prop := ∀ t, t ≠ [] → (Dict.get? d (some t)).map blankForm = Dict.get? e t

/-- The dictionary after adding the words one after the other to an empty one. -/
def optHistory (U : PyUni) (ws : List OptWord) : OptDictionary := ws.foldl (fun d w => (d.addWord U w).1) []

/-- Two outcomes, with `None` and with `''`: related results; or the same exception; or, in the circumstances `Q` only, `TypeError`, where
with `''` there is an `IndexError`; or, in the circumstances `P` only, `AttributeError` whatever happens with `''`. -/
inductive Alike (P Q : Prop) {α β : Type} (r : α → β → Prop) : Except PyErr α → Except PyErr β → Prop
  | ok (a : α) (b : β) : r a b → Alike P Q r (.ok a) (.ok b)
  | error (e : PyErr) : Alike P Q r (.error e) (.error e)
  | gap : Q → Alike P Q r (.error .TypeError) (.error .IndexError)
  | first (y : Except PyErr β) : P → Alike P Q r (.error .AttributeError) y

/-- The same text, or, in the circumstances `Q` only, `None` for `''`. -/
def Blank (Q : Prop) (v : Option Str) (s : Str) : Prop := v = some s ∨ Q ∧ v = none ∧ s = []

/-- One of the externals, or of the registered forms, is a form of a word with `None`. -/
def SomeNone (ext : OptExternals) (d : OptDictionary) : Prop :=
  (∃ n f, Dict.get? ext n = some f ∧ none ∈ f.word.forms) ∨ (∃ v f, Dict.get? d v = some f ∧ none ∈ f.word.forms)

/-- One of the externals is a form of a word whose first form is `None`. -/
def FirstIsNone (ext : OptExternals) : Prop := ∃ n f, Dict.get? ext n = some f ∧ f.word.forms[0]? = some none

end Utg.Spec
