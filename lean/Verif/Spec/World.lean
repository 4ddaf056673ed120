import Verif.Model.World
import Verif.Spec.Lexicon
import Verif.Spec.Objects
/-! # Which operations concern which object -/

namespace Utg.Spec
open Py

variable {K R : Type} [DecidableEq K] [DecidableEq R]

/-- How many dictionaries, templates and lexicons a history makes. -/
def dictionariesMade : List (WorldOp K R) → Nat
  | [] => 0
  | .newDictionary :: ops => dictionariesMade ops + 1
  | _ :: ops => dictionariesMade ops

@[inherit_doc dictionariesMade]
def templatesMade : List (WorldOp K R) → Nat
  | [] => 0
  | .newTemplate :: ops => templatesMade ops + 1
  | _ :: ops => templatesMade ops

@[inherit_doc dictionariesMade]
def lexiconsMade : List (WorldOp K R) → Nat
  | [] => 0
  | .newLexicon :: ops => lexiconsMade ops + 1
  | _ :: ops => lexiconsMade ops

/-- What a history does to words and to the dictionary `d`; `n` dictionaries exist at the beginning. -/
def wordsAnd (d : Nat) : Nat → List (WorldOp K R) → List Op
  | _, [] => []
  | n, .newWord t forms p :: ops => .create t forms p :: wordsAnd d n ops
  | n, .setForm w i text :: ops => .setForm w i text :: wordsAnd d n ops
  | n, .setProperties w p :: ops => .setProperties w p :: wordsAnd d n ops
  | n, .autofill w :: ops => .autofill w :: wordsAnd d n ops
  | n, .syllables w :: ops => .syllables w :: wordsAnd d n ops
  | n, .fluent w :: ops => .fluent w :: wordsAnd d n ops
  | n, .newDictionary :: ops => wordsAnd d (n + 1) ops
  | n, .addWord d' w :: ops => if d' = d ∧ d < n then .add w :: wordsAnd d n ops else wordsAnd d n ops
  | n, _ :: ops => wordsAnd d n ops

/-- The calls of `parse` on the template `t`; `n` templates exist at the beginning. -/
def parseCalls (t : Nat) : Nat → List (WorldOp K R) → List (Str × List Str)
  | _, [] => []
  | n, .newTemplate :: ops => parseCalls t (n + 1) ops
  | n, .parse t' text externals :: ops => if t' = t ∧ t < n then (text, externals) :: parseCalls t n ops else parseCalls t n ops
  | n, _ :: ops => parseCalls t n ops

/-- The calls of `add_template` on the lexicon `l`, with templates that exist; `m` lexicons and `n` templates exist at the
beginning. -/
def addCalls (l : Nat) : Nat → Nat → List (WorldOp K R) → List (Added K Nat R)
  | _, _, [] => []
  | m, n, .newLexicon :: ops => addCalls l (m + 1) n ops
  | m, n, .newTemplate :: ops => addCalls l m (n + 1) ops
  | m, n, .addTemplate l' key t restrictions :: ops =>
    if l' = l ∧ l < m ∧ t < n then ⟨key, t, restrictions⟩ :: addCalls l m n ops else addCalls l m n ops
  | m, n, _ :: ops => addCalls l m n ops

/-- All properties handed in are `Properties` objects as the class builds them. -/
def GoodWorldOp : WorldOp K R → Prop
  | .newWord _ _ p => WFProps p
  | .setProperties _ p => WFProps p
  | _ => True

/-- The operation changes a word. -/
def ChangesWords : WorldOp K R → Prop
  | .setForm _ _ _ => True
  | .setProperties _ _ => True
  | .autofill _ => True
  | _ => False

end Utg.Spec
