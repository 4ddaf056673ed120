import Verif.Model.Objects
import Verif.Model.Templates
import Verif.Model.Lexicon
/-!
# Many objects at once

`Verif.Model.Objects` has any number of words and one dictionary. This module has any number of words, dictionaries, templates and
lexicons, which refer to each other: dictionaries share words, lexicons share templates. Objects of a kind are named by their
position in the order of creation. An operation on an object that does not exist changes nothing.
-/

namespace Utg
open Py

variable {K R : Type} [DecidableEq K] [DecidableEq R]

/-- All words, the attribute `_data` of every dictionary (utg/dictionary.py:7,10), all templates, and the attribute `_data` of every
lexicon (utg/lexicon.py:8,11), which holds templates by reference. -/
structure World (K R : Type) where
  words : List WordObj
  dictionaries : List (Dict Str FormObj)
  templates : List Template
  lexicons : List (Lexicon K Nat R)

/-- What a user can do. -/
inductive WorldOp (K R : Type) where
  /-- `Word(type, forms, properties)` (utg/words.py:82-91) -/
  | newWord (type : WordType) (forms : List Str) (properties : Properties)
  /-- `word.forms[i] = text` -/
  | setForm (word i : Nat) (text : Str)
  /-- `word.properties = properties` -/
  | setProperties (word : Nat) (properties : Properties)
  /-- `word.autofill_missed_forms()` (utg/words.py:189-205) -/
  | autofill (word : Nat)
  /-- reading `word.number_of_syllables` (utg/words.py:169-172) -/
  | syllables (word : Nat)
  /-- reading `word.has_fluent_vowel` (utg/words.py:174-187) -/
  | fluent (word : Nat)
  /-- `Dictionary()` (utg/dictionary.py:9-13) -/
  | newDictionary
  /-- `dictionary.add_word(word)` (utg/dictionary.py:16-49) -/
  | addWord (dictionary word : Nat)
  /-- `Template()` (utg/templates.py:126-128) -/
  | newTemplate
  /-- `template.parse(text, externals)` (utg/templates.py:157-167); the caller goes on if it raises -/
  | parse (template : Nat) (text : Str) (externals : List Str)
  /-- `Lexicon()` (utg/lexicon.py:10-11) -/
  | newLexicon
  /-- `lexicon.add_template(key, template, restrictions)` (utg/lexicon.py:13-17) -/
  | addTemplate (lexicon : Nat) (key : K) (template : Nat) (restrictions : Finset R)

/-- An operation on words, by `Heap.step`. -/
def World.onWords (U : PyUni) (W : World K R) (op : Op) : World K R := { W with words := (Heap.step U ⟨W.words, []⟩ op).words }

/-- One operation. -/
def World.step (U : PyUni) (W : World K R) : WorldOp K R → World K R
  | .newWord t forms p => W.onWords U (.create t forms p)
  | .setForm w i text => W.onWords U (.setForm w i text)
  | .setProperties w p => W.onWords U (.setProperties w p)
  | .autofill w => W.onWords U (.autofill w)
  | .syllables w => W.onWords U (.syllables w)
  | .fluent w => W.onWords U (.fluent w)
  | .newDictionary => { W with dictionaries := W.dictionaries ++ [[]] }
  | .addWord d w => match W.words[w]? with
    | none => W
    | some o => { W with dictionaries := W.dictionaries.modify d fun data =>
        (addFormsObj U W.words o w data (List.range o.value.forms.length)).1 }
  | .newTemplate => { W with templates := W.templates ++ [Template.empty] }
  | .parse t text externals => { W with templates := W.templates.modify t fun T => (T.parseState U text externals).1 }
  | .newLexicon => { W with lexicons := W.lexicons ++ [Lexicon.empty] }
  | .addTemplate l key t restrictions => match W.templates[t]? with
    | none => W
    | some _ => { W with lexicons := W.lexicons.modify l fun L => L.addTemplate key t restrictions }

/-- The program's memory after a sequence of operations. -/
def World.after (U : PyUni) (ops : List (WorldOp K R)) : World K R := ops.foldl (World.step U) ⟨[], [], [], []⟩

/-- `template.substitute(externals, dictionary)` (utg/templates.py:169-172). The externals are word forms made for the call, of words
that nobody changes, so that their lazy attributes say what they are (C54, C100). -/
def World.render (U : PyUni) (W : World K R) (template : Nat) (externals : Externals) (dictionary : Nat) : Option (Except PyErr Str) :=
  match W.templates[template]?, W.dictionaries[dictionary]? with
  | some T, some data => some (T.substitute U externals (Heap.snapshot ⟨W.words, data⟩))
  | _, _ => none

end Utg
