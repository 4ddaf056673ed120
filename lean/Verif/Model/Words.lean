import Verif.Model.Data
/-!
# `utg/words.py`

Objects are values; methods that can raise return `Except PyErr`. The lazy attributes (`utils.lazy_property`) are modelled as
plain functions here; their caching is modelled in `Verif.Model.Lazy`, `Objects` and `Rendering`, shared lists of forms in `Aliasing`.
-/

namespace Utg
open Py

/-- `Properties` (utg/words.py:11-12): the dictionary `_data`, relation ↦ record. -/
structure Properties where
  data : Dict Group Rec
  deriving DecidableEq, Repr

/-- An argument of `Properties(...)`, `_update` and `clone` (utg/words.py:29-38): `None`, a record, or a `Properties`. -/
inductive Arg where
  | none
  | record (r : Rec)
  | props (p : Properties)
  deriving DecidableEq, Repr

/-- One round of the loop in `Properties._update` (utg/words.py:30-38). -/
def Properties.updateOne (d : Dict Group Rec) : Arg → Dict Group Rec
  | .none => d
  | .record r => d.set r.group r
  | .props p => d.update p.data

/-- `Properties(*argv)` (utg/words.py:14-16, 29-38). -/
def Properties.new (argv : List Arg) : Properties := ⟨argv.foldl Properties.updateOne []⟩

/-- `p.get(property_group)` (utg/words.py:44-47). -/
def Properties.get (p : Properties) (g : Group) : Option Rec :=
  match p.data.get? g with
  | some r => some r
  | none => defaultProperty g

/-- `p.is_specified(property_group)` (utg/words.py:49-50). -/
def Properties.isSpecified (p : Properties) (g : Group) : Bool := p.data.contains g

/-- `p.get_raw_key(schema)` (utg/words.py:41-42). -/
def Properties.getRawKey (p : Properties) (schema : List Group) : Key := schema.map p.get

/-- `p.clone(*argv)` (utg/words.py:52-53). -/
def Properties.clone (p : Properties) (argv : List Arg) : Properties := .new (.props p :: argv)

/-- `p.__unicode__()` (utg/words.py:55-58). `p.__str__` (lines 60-61) encodes this to bytes, which Python 3 rejects; it is
not modelled. -/
def Properties.toText (p : Properties) : Str :=
  '(' :: join ',' (propertyTypeRecords.filterMap fun g => (p.data.get? g).map Rec.verboseId) ++ [')']

/-- `p == q` (utg/words.py:63-65). -/
def Properties.eq (p q : Properties) : Bool := Dict.beq p.data q.data

/-- `p.manhattan_distance()` (utg/words.py:73-76). -/
def Properties.manhattanDistance (p : Properties) : Nat :=
  (p.data.filter fun kv => decide (some kv.2 ≠ defaultProperty kv.1)).length

/-- `hash(p)` (utg/words.py:70-71). -/
def Properties.hash (p : Properties) : Nat := p.manhattanDistance

/-- A key of serialized properties: an integer, or a string after a trip through JSON. -/
inductive JKey where
  | int (n : Int)
  | str (s : Str)
  deriving DecidableEq, Repr

/-- `int(property_type)` (utg/words.py:24,26,27). -/
def JKey.toInt : JKey → Except PyErr Int
  | .int n => .ok n
  | .str s => pyInt s

/-- `p.serialize()` (utg/words.py:18-20). `index_relation` is total: every relation is in `PROPERTY_TYPE`. -/
def Properties.serialize (p : Properties) : Dict JKey Int := p.data.map fun kv => (.int kv.1.code, (kv.2.value : Int))

/-- `PROPERTY_TYPE(code).relation`, `none` if the code is unknown (utg/words.py:24,26; utg/relations.py:129-152). -/
def groupOfCode (n : Int) : Option Group := propertyTypeRecords.find? fun g => decide ((g.code : Int) = n)

/-- `relation(value)`, `none` if the value is unknown (utg/words.py:24,27). -/
def recOfValue (g : Group) (v : Int) : Option Rec := g.records.find? fun r => decide ((r.value : Int) = v)

/-- One item of the comprehension in `Properties.deserialize` (utg/words.py:24-27): `none` if it is filtered out. -/
def deserializeItem (kv : JKey × Int) : Except PyErr (Option Rec) := do
  let n ← kv.1.toInt
  match groupOfCode n with
  | none => .ok none
  | some g => .ok (recOfValue g kv.2)

/-- `Properties.deserialize(data)` (utg/words.py:22-27). -/
def Properties.deserialize (data : Dict JKey Int) : Except PyErr Properties := do
  let rs ← data.mapM deserializeItem
  .ok (.new ((rs.filterMap id).map .record))

/-- `Word` (utg/words.py:79-80). -/
structure Word where
  type : WordType
  forms : List Str
  properties : Properties
  deriving DecidableEq, Repr

/-- `Word(type, forms, properties)` (utg/words.py:82-91). -/
def Word.new (type : WordType) (forms : List Str) (properties : Properties := .new []) : Except PyErr Word :=
  if forms.length ≠ (wordsCache type).length then
    .error (.WrongFormsNumberError forms.length (wordsCache type).length forms)
  else .ok ⟨type, forms, properties⟩

/-- Serialized word: `{'type': ..., 'forms': ..., 'properties': ...}` (utg/words.py:93-96). -/
structure WordData where
  type : Int
  forms : List Str
  properties : Dict JKey Int
  deriving DecidableEq, Repr

/-- `w.serialize()` (utg/words.py:93-96). -/
def Word.serialize (w : Word) : WordData := ⟨w.type.value, w.forms, w.properties.serialize⟩

/-- `WORD_TYPE(value)` (utg/words.py:100). -/
def wordTypeOfValue (v : Int) : Option WordType := WordType.all.find? fun t => decide ((t.value : Int) = v)

/-- `Word.deserialize(data)` (utg/words.py:98-102); arguments are evaluated left to right. -/
def Word.deserialize (data : WordData) : Except PyErr Word :=
  match wordTypeOfValue data.type with
  | none => .error (.RelsLookupError data.type)
  | some t => do
    let p ← Properties.deserialize data.properties
    Word.new t data.forms p

/-- `w._form(properties)` (utg/words.py:109-112). -/
def Word.formRaw (w : Word) (properties : Properties) : Except PyErr Str := do
  let cache ← rawWordsCache w.type
  match cache.get? (properties.getRawKey w.type.schema) with
  | none => .error .KeyError
  | some index => match w.forms[index]? with
    | none => .error .IndexError
    | some f => .ok f

/-- `w.form(properties)` (utg/words.py:104-107). -/
def Word.form (w : Word) (properties : Properties) : Except PyErr Str :=
  w.formRaw (.new [.props properties, .props w.properties])

/-- `w.normal_form()` (utg/words.py:114-115). -/
def Word.normalForm (w : Word) : Except PyErr Str := w.form w.properties

/-- `w == v` (utg/words.py:120-124). -/
def Word.eq (w v : Word) : Bool := decide (w.type = v.type) && w.properties.eq v.properties && decide (w.forms = v.forms)

/-- `hash(w)` (utg/words.py:129-130). `pairHash` is Python's hash of a pair as a function of the hashes of its components,
`typeHash` the hash of a `WORD_TYPE` record. -/
def Word.hash (pairHash : Int → Int → Int) (typeHash : WordType → Int) (w : Word) : Int :=
  pairHash (typeHash w.type) (w.properties.hash : Int)

/-- `Word.get_forms_number(type)` (utg/words.py:132-134). -/
def Word.getFormsNumber (t : WordType) : Nat := (wordsCache t).length

/-- `keys[index] = key` in `Word.get_keys` (utg/words.py:140-141). -/
def setKey (keys : List (Option Key)) (e : Key × Nat) : Except PyErr (List (Option Key)) :=
  if e.2 < keys.length then .ok (keys.set e.2 (some e.1)) else .error .IndexError

/-- `Word.get_keys(type)` (utg/words.py:136-142). -/
def Word.getKeys (t : WordType) : Except PyErr (List (Option Key)) :=
  (wordsCache t).foldlM setKey (List.replicate (wordsCache t).length none)

/-- The form built for one key in `Word.create_test_word` (utg/words.py:150-151). Iterating over `None` is a `TypeError`. -/
def testForm (pre suf : Str) : Option Key → Except PyErr Str
  | none => .error .TypeError
  | some key => .ok (pre ++ join ',' (key.filterMap fun p => p.map Rec.verboseId) ++ suf)

/-- `Word.create_test_word(type, prefix, suffix, only_required, properties)` (utg/words.py:145-167). The loop of lines 156-165
never gets past its first `continue`: `type.properties` is keyed by relations (utg/relations.py:119-126), the loop tests
records of `PROPERTY_TYPE`; it is left out here, and `only_required` with it; `Model/TestWords.lean` has it. -/
def Word.createTestWord (t : WordType) (pre : Str := str! "w-") (suf : Str := []) (properties : Option Properties := none) :
    Except PyErr Word := do
  let keys ← Word.getKeys t
  let forms ← keys.mapM (testForm pre suf)
  Word.new t forms (properties.getD (.new []))

/-- `w.number_of_syllables` (utg/words.py:169-172). -/
def Word.numberOfSyllables (w : Word) : Except PyErr Nat :=
  match w.forms with
  | [] => .error .IndexError
  | form :: _ => .ok (max 1 (VOWELS.map fun char => form.count char).sum)

/-- `''.join([char for char in form if char in data.VOWELS])` (utg/words.py:177,182). -/
def vowelsOf (form : Str) : Str := form.filter fun c => VOWELS.contains c

/-- `w.has_fluent_vowel` (utg/words.py:174-187). -/
def Word.hasFluentVowel (w : Word) : Except PyErr Bool :=
  match w.forms with
  | [] => .error .IndexError
  | form :: others => .ok (others.any fun other => decide (other ≠ []) && !(vowelsOf form).isPrefixOf (vowelsOf other))

/-- `available_keys` of `autofill_missed_forms` (utg/words.py:192-194). `inverted_cache[index]` would be an `IndexError` if
there were more forms than slots. -/
def availableKeys (t : WordType) (forms : List Str) : Except PyErr (List Key) := do
  let ks ← (List.range forms.length).mapM fun index =>
    match forms[index]? with
    | none => .error .IndexError
    | some [] => .ok none
    | some _ => match (invertedCache t)[index]? with
      | none => .error .IndexError
      | some k => .ok (some k)
  .ok (ks.filterMap id)

/-- One round of the loop in `autofill_missed_forms` (utg/words.py:196-205). -/
def autofillStep (t : WordType) (available : List Key) (forms : List Str) (i : Nat) : Except PyErr (List Str) :=
  match forms[i]? with
  | none => .error .IndexError
  | some form =>
    if form ≠ [] then .ok forms
    else match (invertedCache t)[i]? with
      | none => .error .IndexError
      | some key => match getNearestKey key available with
        | none => .ok forms
        | some nearest => match (wordsCache t).get? nearest with
          | none => .error .KeyError
          | some j => match forms[j]? with
            | none => .error .IndexError
            | some f => .ok (forms.set i f)

/-- `w.autofill_missed_forms()` (utg/words.py:189-205): returns the word with the updated `forms`. -/
def Word.autofillMissedForms (w : Word) : Except PyErr Word := do
  let available ← availableKeys w.type w.forms
  let forms ← (List.range w.forms.length).foldlM (autofillStep w.type available) w.forms
  .ok { w with forms := forms }

/-- `WordForm` (utg/words.py:209-210). -/
structure WordForm where
  word : Word
  properties : Properties
  formProperties : Properties
  deriving DecidableEq, Repr

/-- `WordForm(word, properties, form_properties)` (utg/words.py:212-215). -/
def WordForm.new (word : Word) (properties formProperties : Option Properties := none) : WordForm :=
  let ps := match properties with
    | none => word.properties
    | some p => .new [.props p, .props word.properties]
  let fps := match formProperties with
    | none => ps
    | some p => .new [.props p, .props word.properties]
  ⟨word, ps, fps⟩

/-- `form[0].upper() + form[1:]` (utg/words.py:223). -/
def upperFirst (U : PyUni) : Str → Except PyErr Str
  | [] => .error .IndexError
  | c :: cs => .ok (U.upperC c ++ cs)

/-- `x.is_...` on the result of `p.get(g)`: `None` has no such attribute. -/
def Properties.getRec (p : Properties) (g : Group) : Except PyErr Rec :=
  match p.get g with
  | none => .error .AttributeError
  | some r => .ok r

/-- `WordForm.get_form(word, properties)` (utg/words.py:218-225). -/
def WordForm.getForm (U : PyUni) (word : Word) (properties : Properties) : Except PyErr Str := do
  let form ← word.formRaw properties
  let wc ← properties.getRec .WORD_CASE
  if wc = .WORD_CASE_UPPER then upperFirst U form else .ok form

/-- `f.form` (utg/words.py:227-229). -/
def WordForm.form (U : PyUni) (f : WordForm) : Except PyErr Str := WordForm.getForm U f.word f.formProperties

/-- `(form[0] in CONSONANTS) and (len(form) == 1 or form[1] in CONSONANTS)` (utg/words.py:234). -/
def consonantCluster : Str → Except PyErr Bool
  | [] => .error .IndexError
  | [c] => .ok (CONSONANTS.contains c)
  | c :: d :: _ => .ok (CONSONANTS.contains c && CONSONANTS.contains d)

/-- `f.starts_with_consonant_cluster` (utg/words.py:231-234). -/
def WordForm.startsWithConsonantCluster (U : PyUni) (f : WordForm) : Except PyErr Bool := do
  consonantCluster (← f.form U)

/-- `f == g` (utg/words.py:237-239). -/
def WordForm.eq (f g : WordForm) : Bool := f.word.eq g.word && f.properties.eq g.properties

/-- `hash(f)` (utg/words.py:244-245). -/
def WordForm.hash (pairHash : Int → Int → Int) (typeHash : WordType → Int) (f : WordForm) : Int :=
  pairHash (f.word.hash pairHash typeHash) (f.formProperties.hash : Int)

/-- `Properties(*key)` (utg/words.py:250). -/
def propertiesOfKey (key : Key) : Properties :=
  .new (key.map fun p => match p with | none => .none | some r => .record r)

/-- `_INVERTED_WORDS_CACHES__PROPERTIES[word_type]` (utg/words.py:248-250). -/
def invertedCacheProperties (t : WordType) : List Properties := (invertedCache t).map propertiesOfKey

/-- The `i`-th item of `w.all_forms()` (utg/words.py:117-118). -/
def Word.nthForm (w : Word) (i : Nat) : Except PyErr WordForm :=
  match (invertedCacheProperties w.type)[i]? with
  | none => .error .IndexError
  | some p => .ok (WordForm.new w (some p))

/-- `w.all_forms()` (utg/words.py:117-118); the generator is evaluated eagerly. -/
def Word.allForms (w : Word) : Except PyErr (List WordForm) := (List.range w.forms.length).mapM w.nthForm

end Utg
