import Verif.Model.AnyJson
/-!
# A word loaded from any JSON document, in use

The members of `Word` and `WordForm` that look at the forms, for words whose forms are whatever `json.loads` gave: a text, an object, a list
of anything. `lazy_property` keeps the answers (utg/utils.py:5-21); here they are computed each time. Iteration over the set `VOWELS` is in
the order of the letters in utg/data.py.
-/

namespace Utg
open Py

/-- `bool(x)` (utg/words.py:180,194,197). -/
def Json.given : Json → Bool
  | .null => false
  | .bool b => b
  | .int n => decide (n ≠ 0)
  | .float _ n => decide (n ≠ some 0)
  | .str s => !s.isEmpty
  | .arr items => !items.isEmpty
  | .obj items => !items.isEmpty

/-- `x == char` (`list.count` in utg/words.py:172). -/
def Json.isChar (char : Char) : Json → Bool
  | .str s => decide (s = [char])
  | _ => false

/-- `form.count(char)` (utg/words.py:172): of a text, or of a list; nothing else has `count`. -/
def Json.countChar (char : Char) : Json → Except LoadErr Nat
  | .str s => .ok (s.count char)
  | .arr items => .ok (items.countP (Json.isChar char))
  | _ => .error .AttributeError

/-- `word.number_of_syllables` (utg/words.py:169-172). -/
def LoadedWord.numberOfSyllables (w : LoadedWord) : Except LoadErr Nat := do
  let form ← w.forms.nth 0
  let counts ← VOWELS.mapM fun char => form.countChar char
  .ok (max 1 counts.sum)

/-- `''.join([char for char in ... if char in data.VOWELS])` (utg/words.py:177,182), of what has been iterated over: lists and objects have no
hash. -/
def joinVowels : List Json → Except LoadErr Str
  | [] => .ok []
  | .str [c] :: rest => do
    let more ← joinVowels rest
    .ok (if VOWELS.contains c then c :: more else more)
  | .arr _ :: _ => .error .TypeError
  | .obj _ :: _ => .error .TypeError
  | _ :: rest => joinVowels rest

/-- The same of a form (utg/words.py:177,182): `for char in form`. -/
def Json.vowels (form : Json) : Except LoadErr Str := do joinVowels (← form.iterate)

/-- `x[1:]` (utg/words.py:179): of a text, its characters (utg/words.py:179 iterates over them). -/
def Json.others : Json → Except LoadErr (List Json)
  | .str s => .ok ((s.drop 1).map fun c => .str [c])
  | .arr items => .ok (items.drop 1)
  | _ => .error .TypeError

/-- The loop of `has_fluent_vowel` (utg/words.py:179-187). -/
def fluentLoop (base : Str) : List Json → Except LoadErr Bool
  | [] => .ok false
  | form :: rest =>
    if form.given then do
      let vowels ← form.vowels
      if base.isPrefixOf vowels then fluentLoop base rest else .ok true
    else fluentLoop base rest

/-- `word.has_fluent_vowel` (utg/words.py:174-187). -/
def LoadedWord.hasFluentVowel (w : LoadedWord) : Except LoadErr Bool := do
  let form ← w.forms.nth 0
  let base ← form.vowels
  fluentLoop base (← w.forms.others)

/-- `x[i] = y` (utg/words.py:205): a text cannot be assigned to. Not reached for an object. -/
def Json.setNth (i : Nat) (y : Json) : Json → Except LoadErr Json
  | .arr items => if i < items.length then .ok (.arr (items.set i y)) else .error (.other .IndexError)
  | _ => .error .TypeError

/-- One item of `available_keys` of `autofill_missed_forms` (utg/words.py:192-194). -/
def availableKeyAny (t : WordType) (forms : Json) (index : Nat) : Except LoadErr (Option Key) := do
  let form ← forms.nth index
  if form.given then match (invertedCache t)[index]? with
    | none => .error (.other .IndexError)
    | some k => .ok (some k)
  else .ok none

/-- `available_keys` of `autofill_missed_forms` (utg/words.py:192-194). -/
def availableKeysAny (t : WordType) (forms : Json) : Except LoadErr (List Key) := do
  let n ← forms.size
  let ks ← (List.range n).mapM (availableKeyAny t forms)
  .ok (ks.filterMap id)

/-- One round of the loop in `autofill_missed_forms` (utg/words.py:196-205). -/
def autofillStepAny (t : WordType) (available : List Key) (forms : Json) (i : Nat) : Except LoadErr Json := do
  let form ← forms.nth i
  if form.given then .ok forms
  else match (invertedCache t)[i]? with
    | none => .error (.other .IndexError)
    | some key => match getNearestKey key available with
      | none => .ok forms
      | some nearest => match (wordsCache t).get? nearest with
        | none => .error (.other .KeyError)
        | some j => do Json.setNth i (← forms.nth j) forms

/-- `word.autofill_missed_forms()` (utg/words.py:189-205): the word afterwards. -/
def LoadedWord.autofillMissedForms (w : LoadedWord) : Except LoadErr LoadedWord := do
  let available ← availableKeysAny w.type w.forms
  let n ← w.forms.size
  let forms ← (List.range n).foldlM (autofillStepAny w.type available) w.forms
  .ok { w with forms := forms }

/-- `x[0].upper() + x[1:]` (utg/words.py:223). Of a list: `upper` of its first item, if that is a text, and a text cannot be added to a list. -/
def Json.upperFirst (U : PyUni) : Json → Except LoadErr Json
  | .str s => match Utg.upperFirst U s with
    | .error e => .error (.other e)
    | .ok r => .ok (.str r)
  | .arr [] => .error (.other .IndexError)
  | .arr (.str _ :: _) => .error .TypeError
  | .arr (_ :: _) => .error .AttributeError
  | .obj _ => .error (.KeyError (pyStr 0))
  | _ => .error .TypeError

/-- `WordForm(word, properties).form` (utg/words.py:212-229): `get_form` of the word and the properties with those of the word. -/
def LoadedWord.spell (U : PyUni) (w : LoadedWord) (properties : Properties) : Except LoadErr Json := do
  let form ← w.form properties
  match (Properties.new [.props properties, .props w.properties]).getRec .WORD_CASE with
  | .error e => .error (.other e)
  | .ok wc => if wc = .WORD_CASE_UPPER then form.upperFirst U else .ok form

end Utg
