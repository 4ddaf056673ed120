import Verif.Model.Dictionary
import Verif.Spec.Words
/-!
# Specification vocabulary for dictionaries

Nothing here is used by the model.
-/

namespace Utg.Spec
open Py

/-- The (text, word form) pairs of a list of word forms, up to the first one that cannot be spelled (upper case of an empty
form): that is where `add_word` raises. -/
def spelled (U : PyUni) : List WordForm → List (Str × WordForm)
  | [] => []
  | f :: fs => match f.form U with
    | .error _ => []
    | .ok text => (text, f) :: spelled U fs

/-- What adding a word offers to the dictionary: its word forms in slot order, with their spelling. -/
def offered (U : PyUni) (w : Word) : List (Str × WordForm) :=
  match w.allForms with
  | .error _ => []
  | .ok fs => spelled U fs

/-- Everything offered by a sequence of words, in order of addition and slot. -/
def candidates (U : PyUni) (ws : List Word) : List (Str × WordForm) := ws.flatMap (offered U)

/-- The word forms offered under the spelling `text`, in order. -/
def candidatesFor (U : PyUni) (ws : List Word) (text : Str) : List WordForm :=
  (candidates U ws).filterMap fun c => if c.1 = text then some c.2 else none

/-- The dictionary after adding the words one after the other to an empty one; an `add_word` that raised is followed by the
next one all the same. -/
def history (U : PyUni) (ws : List Word) : Dictionary := ws.foldl (fun d w => (d.addWord U w).1) []

/-- Every form of the word can be spelled. -/
def Spellable (U : PyUni) (w : Word) : Prop := ∃ fs, w.allForms = .ok fs ∧ ∀ f ∈ fs, ∃ s, f.form U = .ok s

/-- In how many properties `p` departs from the documented defaults. -/
def departures (p : Properties) : Nat := (Group.all.filter fun g => decide (p.get g ≠ documentedDefault g)).length

/-- `f` is preferred to `g`: smaller type code; then smaller list of forms (lexicographic, strings by code points); then
fewer non-default properties. -/
def Better (f g : WordForm) : Prop :=
  f.word.type.value < g.word.type.value ∨
  f.word.type.value = g.word.type.value ∧
    (f.word.forms < g.word.forms ∨
     f.word.forms = g.word.forms ∧ departures f.properties < departures g.properties)

/-- `f` and `g` are equally good. -/
def SameRank (f g : WordForm) : Prop :=
  f.word.type = g.word.type ∧ f.word.forms = g.word.forms ∧
    departures f.properties = departures g.properties

end Utg.Spec
