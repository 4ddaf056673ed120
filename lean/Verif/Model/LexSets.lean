import Verif.Model.Lexicon
/-!
# `utg/lexicon.py`: restrictions are objects

`add_template` stores the very object it is given as `restrictions`, of whatever kind; nothing is copied or checked. Here such
objects live in a store and the lexicon refers to them. In `Verif.Model.Lexicon` they are values, and sets.
-/

namespace Utg
open Py

variable {K T R : Type} [DecidableEq K] [DecidableEq R]

/-- A collection given as restrictions: a `set` or `frozenset`, or something else one can iterate over (a list, a tuple, a
generator that was turned into one of them). -/
inductive Coll (R : Type) where
  | set (s : Finset R)
  | seq (l : List R)

/-- The elements an iteration over the collection gives. -/
def Coll.elements : Coll R → Finset R
  | .set s => s
  | .seq l => l.toFinset

/-- `template_restrictions.issubset(restrictions)` (utg/lexicon.py:25,46): sets only have this method; its argument may be anything
one can iterate over. -/
def Coll.issubset (c restrictions : Coll R) : Except PyErr Bool :=
  match c with
  | .seq _ => .error .AttributeError
  | .set s => .ok (decide (s ⊆ restrictions.elements))

/-- `len(template_restrictions & restrictions)` (utg/lexicon.py:49): the operator, unlike the method, wants two sets. -/
def Coll.common (c restrictions : Coll R) : Except PyErr Nat :=
  match c, restrictions with
  | .set s, .set s' => .ok (s ∩ s').card
  | _, _ => .error .TypeError

/-- The objects given as restrictions, and `Lexicon._data` (utg/lexicon.py:8,11), which refers to them. -/
structure SetWorld (K T R : Type) where
  objects : List (Coll R)
  lexicon : Dict K (List (T × Nat))

/-- What a program does: it creates a collection, gives a set or a list new elements, adds a template. -/
inductive SetOp (K T R : Type) where
  | create (c : Coll R)
  | changeSet (i : Nat) (s : Finset R)
  | changeSeq (i : Nat) (l : List R)
  | add (key : K) (template : T) (i : Nat)

/-- The effect of an operation. `add` is `add_template` (utg/lexicon.py:13-17); the others are Python's. -/
def SetWorld.step (w : SetWorld K T R) : SetOp K T R → SetWorld K T R
  | .create c => { w with objects := w.objects ++ [c] }
  | .changeSet i s => match w.objects[i]? with
    | some (.set _) => { w with objects := w.objects.set i (.set s) }
    | _ => w
  | .changeSeq i l => match w.objects[i]? with
    | some (.seq _) => { w with objects := w.objects.set i (.seq l) }
    | _ => w
  | .add key template i =>
    let l := if Dict.contains w.lexicon key then w.lexicon else Dict.set w.lexicon key []
    { w with lexicon := Dict.set l key ((Dict.get? l key).getD [] ++ [(template, i)]) }

/-- The world after these operations, starting from an empty lexicon. -/
def SetWorld.after (ops : List (SetOp K T R)) : SetWorld K T R := ops.foldl SetWorld.step ⟨[], []⟩

/-- The object a reference stands for. References always stand for an object in Python; a dangling one is a `KeyError` here. -/
def SetWorld.object (w : SetWorld K T R) (i : Nat) : Except PyErr (Coll R) :=
  match w.objects[i]? with
  | none => .error .KeyError
  | some c => .ok c

/-- The loop of `get_templates` (utg/lexicon.py:23-25). -/
def SetWorld.templatesLoop (w : SetWorld K T R) (restrictions : Coll R) : List (T × Nat) → Except PyErr (List T)
  | [] => .ok []
  | (template, i) :: rest => do
    let c ← w.object i
    let b ← c.issubset restrictions
    let templates ← w.templatesLoop restrictions rest
    .ok (if b then template :: templates else templates)

/-- `l.get_templates(key, restrictions)` (utg/lexicon.py:22-27). -/
def SetWorld.getTemplates (w : SetWorld K T R) (key : K) (restrictions : Coll R) : Except PyErr (List T) :=
  w.templatesLoop restrictions ((Dict.get? w.lexicon key).getD [])

/-- `l.get_random_template(key, restrictions)` with random draw `r` (utg/lexicon.py:29-38). -/
def SetWorld.getRandomTemplate (w : SetWorld K T R) (key : K) (restrictions : Coll R) (r : Nat) : Except PyErr T :=
  if !Dict.contains w.lexicon key then .error .UnknownLexiconKeyError
  else do
    let candidates ← w.getTemplates key restrictions
    if candidates.isEmpty then .error .NoTemplatesWithSpecifiedRestrictions
    else choice candidates r

/-- One round of the loop in `_get_nearest_templates` (utg/lexicon.py:45-54): state is (templates, best_distance). -/
def SetWorld.nearestStep (w : SetWorld K T R) (restrictions : Coll R) (s : List (T × Nat) × Int) (e : T × Nat) :
    Except PyErr (List (T × Nat) × Int) := do
  let c ← w.object e.2
  let b ← c.issubset restrictions
  if b then
    let distance ← c.common restrictions
    .ok (s.1 ++ [(e.1, distance)], if s.2 < (distance : Int) then (distance : Int) else s.2)
  else .ok s

/-- `l._get_nearest_templates(key, restrictions)` (utg/lexicon.py:40-56). -/
def SetWorld.getNearestTemplates (w : SetWorld K T R) (key : K) (restrictions : Coll R) : Except PyErr (List T) := do
  let s ← ((Dict.get? w.lexicon key).getD []).foldlM (w.nearestStep restrictions) ([], -1)
  .ok ((s.1.filter fun td => decide ((td.2 : Int) = s.2)).map Prod.fst)

/-- `l.get_random_nearest_template(key, restrictions)` with random draw `r` (utg/lexicon.py:58-67). -/
def SetWorld.getRandomNearestTemplate (w : SetWorld K T R) (key : K) (restrictions : Coll R) (r : Nat) : Except PyErr T :=
  if !Dict.contains w.lexicon key then .error .UnknownLexiconKeyError
  else do
    let candidates ← w.getNearestTemplates key restrictions
    if candidates.isEmpty then .error .NoTemplatesWithSpecifiedRestrictions
    else choice candidates r

end Utg
