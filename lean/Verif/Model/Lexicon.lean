import Verif.Py.Str
import Verif.Py.Dict
import Mathlib.Data.Finset.Card
/-!
# `utg/lexicon.py`

Keys, templates and restrictions are opaque to the code; the model is polymorphic in them.
-/

namespace Utg
open Py

variable {K T R : Type} [DecidableEq K] [DecidableEq R]

/-- `Lexicon._data` (utg/lexicon.py:8,11): key ↦ list of (template, restrictions). -/
abbrev Lexicon (K T R : Type) := Dict K (List (T × Finset R))

/-- `Lexicon()` (utg/lexicon.py:10-11). -/
def Lexicon.empty : Lexicon K T R := []

/-- `l.add_template(key, template, restrictions)` (utg/lexicon.py:13-17). -/
def Lexicon.addTemplate (l : Lexicon K T R) (key : K) (template : T) (restrictions : Finset R := ∅) : Lexicon K T R :=
  let l := if Dict.contains l key then l else Dict.set l key []
  Dict.set l key ((Dict.get? l key).getD [] ++ [(template, restrictions)])   -- `key` is present here

/-- `l.has_key(key)` (utg/lexicon.py:19-20). -/
def Lexicon.hasKey (l : Lexicon K T R) (key : K) : Bool := Dict.contains l key

/-- `l.get_templates(key, restrictions)` (utg/lexicon.py:22-27). -/
def Lexicon.getTemplates (l : Lexicon K T R) (key : K) (restrictions : Finset R) : List T :=
  (((Dict.get? l key).getD []).filter fun tr => decide (tr.2 ⊆ restrictions)).map Prod.fst

/-- `random.choice(candidates)`: the draw `r` is an arbitrary number, reduced to an index. Python raises `IndexError` on an
empty sequence. -/
def choice (candidates : List T) (r : Nat) : Except PyErr T :=
  match candidates[r % candidates.length]? with
  | none => .error .IndexError
  | some t => .ok t

/-- `l.get_random_template(key, restrictions)` with random draw `r` (utg/lexicon.py:29-38). -/
def Lexicon.getRandomTemplate (l : Lexicon K T R) (key : K) (restrictions : Finset R) (r : Nat) : Except PyErr T :=
  if !Dict.contains l key then .error .UnknownLexiconKeyError
  else
    let candidates := l.getTemplates key restrictions
    if candidates.isEmpty then .error .NoTemplatesWithSpecifiedRestrictions
    else choice candidates r

/-- One round of the loop in `_get_nearest_templates` (utg/lexicon.py:45-54): state is (templates, best_distance). -/
def nearestTemplatesStep (restrictions : Finset R) (s : List (T × Nat) × Int) (tr : T × Finset R) : List (T × Nat) × Int :=
  if ¬ tr.2 ⊆ restrictions then s
  else
    let distance := (tr.2 ∩ restrictions).card
    (s.1 ++ [(tr.1, distance)], if s.2 < (distance : Int) then (distance : Int) else s.2)

/-- `l._get_nearest_templates(key, restrictions)` (utg/lexicon.py:40-56). -/
def Lexicon.getNearestTemplates (l : Lexicon K T R) (key : K) (restrictions : Finset R) : List T :=
  let s := ((Dict.get? l key).getD []).foldl (nearestTemplatesStep restrictions) ([], -1)
  (s.1.filter fun td => decide ((td.2 : Int) = s.2)).map Prod.fst

/-- `l.get_random_nearest_template(key, restrictions)` with random draw `r` (utg/lexicon.py:58-67). -/
def Lexicon.getRandomNearestTemplate (l : Lexicon K T R) (key : K) (restrictions : Finset R) (r : Nat) : Except PyErr T :=
  if !Dict.contains l key then .error .UnknownLexiconKeyError
  else
    let candidates := l.getNearestTemplates key restrictions
    if candidates.isEmpty then .error .NoTemplatesWithSpecifiedRestrictions
    else choice candidates r

end Utg
