import Verif.Model.Words
/-!
# `Word.create_test_word`, with its loop over optional properties
-/

namespace Utg
open Py

/-- What may be asked of `type.properties`: a relation (a class), or a record of `PROPERTY_TYPE`. They differ, also if the record stands
for the relation (`rels` compares records by identity). -/
inductive PropertyKey where
  | relation (g : Group)
  | propertyType (g : Group)
deriving DecidableEq

/-- `type.properties`, whose keys are relations (utg/relations.py:119-126). -/
def propertiesDict (t : WordType) : Dict PropertyKey Bool := t.properties.map fun kv => (.relation kv.1, kv.2)

/-- One round of the loop of `create_test_word` (utg/words.py:156-165). `coin` is `random.random() > 0.5`. What is left of the round,
lines 165, asks a record for `records` and a `Properties` for `update`; neither has it. -/
def testWordRound (t : WordType) (onlyRequired : Bool) (properties : Properties) (propertyType : Group) (coin : Bool) : Except PyErr Properties :=
  match (propertiesDict t).get? (.propertyType propertyType) with
  | none => .ok properties
  | some required => if !required && (onlyRequired || coin) then .ok properties else .error .AttributeError

/-- The loop of `create_test_word` (utg/words.py:156-165), with the throws of the coin. -/
def testWordLoop (t : WordType) (onlyRequired : Bool) (coin : Group → Bool) : List Group → Properties → Except PyErr Properties
  | [], properties => .ok properties
  | g :: gs, properties => do
    let properties ← testWordRound t onlyRequired properties g (coin g)
    testWordLoop t onlyRequired coin gs properties

/-- `Word.create_test_word(type, prefix, suffix, only_required, properties)` (utg/words.py:145-167). -/
def Word.createTestWordFull (t : WordType) (pre suf : Str) (onlyRequired : Bool) (properties : Option Properties) (coin : Group → Bool) :
    Except PyErr Word := do
  let keys ← Word.getKeys t
  let forms ← keys.mapM (testForm pre suf)
  let properties ← testWordLoop t onlyRequired coin propertyTypeRecords (properties.getD (.new []))
  Word.new t forms properties

end Utg
