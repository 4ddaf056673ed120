import Verif.Model.Templates
/-!
# Substitution with shared objects

`Verif.Model.Templates` computes texts from values. In the program the externals and the entries of the dictionary are `WordForm`
objects that refer to `Word` objects, and agreement of prepositions reads four lazy attributes of them: `form` and
`starts_with_consonant_cluster` of a word form, `number_of_syllables` and `has_fluent_vowel` of a word. The first read of such an
attribute stores its value in the object (utg/utils.py:9-13). This module models `substitute` as a program that reads and stores them
step by step, so that several calls can run one after another or in several threads, on the same objects.
-/

namespace Utg
open Py

/-- The lazy attributes; word forms and words are named by numbers. -/
inductive Attr where
  /-- `word_form.form` (utg/words.py:227-229) -/
  | form (f : Nat)
  /-- `word_form.starts_with_consonant_cluster` (utg/words.py:231-234) -/
  | cluster (f : Nat)
  /-- `word.number_of_syllables` (utg/words.py:169-172) -/
  | syllables (w : Nat)
  /-- `word.has_fluent_vowel` (utg/words.py:174-187) -/
  | fluent (w : Nat)
  deriving DecidableEq, Repr

/-- The values of lazy attributes. -/
inductive AttrValue where
  | text (s : Str)
  | flag (b : Bool)
  | count (n : Nat)
  deriving DecidableEq, Repr

/-- A `WordForm` object (utg/words.py:209-215) without its lazy attributes. -/
structure FormRef where
  word : Nat
  properties : Properties
  formProperties : Properties
  deriving DecidableEq, Repr

/-- All words and all word forms, without their lazy attributes. -/
structure Store where
  words : List Word
  forms : List FormRef
  deriving DecidableEq, Repr

/-- The word form named `f`, as a value. -/
def Store.form (σ : Store) (f : Nat) : Option WordForm :=
  match σ.forms[f]? with
  | none => none
  | some r => (σ.words[r.word]?).map fun w => ⟨w, r.properties, r.formProperties⟩

/-- A program: what it does next with the objects. A raised exception ends it. -/
inductive Prog (α : Type) where
  /-- the end -/
  | ret (r : Except PyErr α)
  /-- `hasattr(self, lazy_name)` -/
  | has (a : Attr) (next : Bool → Prog α)
  /-- `getattr(self, lazy_name)` -/
  | get (a : Attr) (next : AttrValue → Prog α)
  /-- `setattr(self, lazy_name, value)` -/
  | set (a : Attr) (value : AttrValue) (next : Prog α)
  /-- looking at the other attributes -/
  | look (next : Store → Prog α)

/-- One program after another. -/
def Prog.bind {α β : Type} : Prog α → (α → Prog β) → Prog β
  | .ret (.ok a), g => g a
  | .ret (.error e), _ => .ret (.error e)
  | .has a k, g => .has a fun b => (k b).bind g
  | .get a k, g => .get a fun v => (k v).bind g
  | .set a v k, g => .set a v (k.bind g)
  | .look k, g => .look fun σ => (k σ).bind g

instance : Monad Prog where
  pure a := .ret (.ok a)
  bind := Prog.bind

/-- A computation that looks at nothing. -/
def lift {α : Type} (r : Except PyErr α) : Prog α := .ret r

/-- Reading a lazy attribute (utg/utils.py:9-13) that is computed by `func`. -/
def lazyRead (a : Attr) (func : Prog AttrValue) : Prog AttrValue :=
  .has a fun present =>
    if present then .get a fun v => pure v
    else func.bind fun v => .set a v (.get a fun v => pure v)

/-- The word form named `f` with its word. -/
def lookForm (f : Nat) : Prog (WordForm × Nat) := .look fun σ =>
  match σ.forms[f]?, σ.form f with
  | some r, some v => pure (v, r.word)
  | _, _ => lift (.error .AttributeError)

/-- Reading `word_form.form` (utg/words.py:227-229). -/
def readForm (U : PyUni) (f : Nat) : Prog Str := do
  let v ← lazyRead (.form f) do
    let (v, _) ← lookForm f
    return .text (← lift (v.form U))
  match v with
  | .text s => pure s
  | _ => lift (.error .TypeError)

/-- Reading `word_form.starts_with_consonant_cluster` (utg/words.py:231-234), which reads `form`. -/
def readCluster (U : PyUni) (f : Nat) : Prog Bool := do
  let v ← lazyRead (.cluster f) do
    return .flag (← lift (consonantCluster (← readForm U f)))
  match v with
  | .flag b => pure b
  | _ => lift (.error .TypeError)

/-- The word named `w`. -/
def lookWord (w : Nat) : Prog Word := .look fun σ =>
  match σ.words[w]? with
  | some v => pure v
  | none => lift (.error .AttributeError)

/-- Reading `word.number_of_syllables` (utg/words.py:169-172). -/
def readSyllables (w : Nat) : Prog Nat := do
  let v ← lazyRead (.syllables w) do
    return .count (← lift (← lookWord w).numberOfSyllables)
  match v with
  | .count n => pure n
  | _ => lift (.error .TypeError)

/-- Reading `word.has_fluent_vowel` (utg/words.py:174-187). -/
def readFluent (w : Nat) : Prog Bool := do
  let v ← lazyRead (.fluent w) do
    return .flag (← lift (← lookWord w).hasFluentVowel)
  match v with
  | .flag b => pure b
  | _ => lift (.error .TypeError)

/-- `_consonant_preposition_any` (utg/transformators.py:32-59); `and` short-circuits as in Python. -/
def consonantPrepositionProg (U : PyUni) (slave : Str) (properties : Properties) (f : Nat) : Prog Properties := do
  let master ← readForm U f                                                       -- line 35
  let first ← (do                                                                 -- lines 39-41
    if ← readCluster U f then
      let (_, w) ← lookForm f
      if (← readSyllables w) = 1 then
        let (_, w) ← lookForm f
        readFluent w
      else pure false
    else pure false : Prog Bool)
  if first then return properties.clone [.record .PREPOSITION_FORM_ALTERNATIVE]      -- line 42
  let second ← (do                                                                -- lines 45-47
    if slave = str! "в" ∨ slave = str! "с" then
      if slave = [← lift (Py.first master)] then readCluster U f
      else pure false
    else pure false : Prog Bool)
  if second then return properties.clone [.record .PREPOSITION_FORM_ALTERNATIVE]     -- line 48
  return properties                                                               -- line 59

/-- `_vowels_preposition_any` (utg/transformators.py:62-82). -/
def vowelsPrepositionProg (U : PyUni) (slave : Str) (properties : Properties) (f : Nat) : Prog Properties := do
  let master ← readForm U f                                                       -- line 65
  if slave = str! "о" ∧
      master ∈ [str! "всех", str! "мне", str! "всём", str! "что", str! "всей"] then
    return properties.clone [.record .PREPOSITION_FORM_SPECIAL]                      -- line 72
  if NOT_J_VOWELS.contains (← lift (Py.first master)) then
    return properties.clone [.record .PREPOSITION_FORM_ALTERNATIVE]                  -- line 76
  return properties

/-- `transform(slave_word, slave_propeties, master_form)` (utg/transformators.py:8-15, 18-29, 226-233). -/
def transformProg (U : PyUni) (slaveWord : Word) (properties : Properties) (f : Nat) : Prog Properties := do
  let (master, _) ← lookForm f
  if slaveWord.type = .PREPOSITION then
    let slave ← lift slaveWord.normalForm
    if CONSONANTS.contains (← lift (Py.last slave)) then consonantPrepositionProg U slave properties f
    else vowelsPrepositionProg U slave properties f
  else lift (transform U slaveWord properties master)

/-- Agreement with each external word in turn (utg/templates.py:110-114). -/
def transformAll (U : PyUni) (slaveWord : Word) : Properties → List Nat → Prog Properties
  | p, [] => pure p
  | p, f :: fs => do transformAll U slaveWord (← transformProg U slaveWord p f) fs

/-- `s._list_propeties(externals)` (utg/templates.py:77-93). -/
def listRefs (externals : Dict Str Nat) : List Dep → Prog (List Properties × List Nat)
  | [] => pure ([], [])
  | .ext n :: deps =>
    match externals.get? n with
    | none => lift (.error (.ExternalDependecyNotFoundError n))
    | some f => do
      let (v, _) ← lookForm f
      let (ps, fs) ← listRefs externals deps
      return (v.properties :: ps, f :: fs)
  | .props p :: deps => do
    let (ps, fs) ← listRefs externals deps
    return (p :: ps, fs)

/-- `s.get_text(externals, dictionary)` (utg/templates.py:96-116); the base form is looked at once. -/
def getTextProg (U : PyUni) (externals dictionary : Dict Str Nat) (s : Substitution) : Prog Str := do
  let f ← lift (match externals.get? s.id with
    | some f => .ok f
    | none => match dictionary.get? s.id with
      | some f => .ok f
      | none => .error (.NoWordsFoundError s.id))
  let (base, _) ← lookForm f
  let (ps, fs) ← listRefs externals s.dependencies
  let properties := base.properties.clone ((ps ++ [base.word.properties]).map .props)
  let formProperties ← transformAll U base.word properties fs
  lift (WordForm.getForm U base.word formProperties)

/-- The texts of all substitutions (utg/templates.py:170-171). -/
def getTextsProg (U : PyUni) (externals dictionary : Dict Str Nat) : List Substitution → Prog (List Str)
  | [] => pure []
  | s :: ss => do
    let text ← getTextProg U externals dictionary s
    return text :: (← getTextsProg U externals dictionary ss)

/-- `t.substitute(externals, dictionary)` (utg/templates.py:169-172). -/
def substituteProg (U : PyUni) (t : Template) (externals dictionary : Dict Str Nat) : Prog Str := do
  let texts ← getTextsProg U externals dictionary t.substitutions
  match t.template with
  | none => lift (.error .TypeError)
  | some template => lift (pyFormat U template texts)

/-- The objects, the values of the lazy attributes stored in them, and all running or finished programs. -/
structure Machine where
  store : Store
  hidden : Attr → Option AttrValue
  threads : List (Prog Str)

/-- One step of a program. Reading an attribute that is not there is an `AttributeError`. -/
def Prog.step {α : Type} (σ : Store) (hidden : Attr → Option AttrValue) : Prog α → Prog α × (Attr → Option AttrValue)
  | .ret r => (.ret r, hidden)
  | .has a k => (k (hidden a).isSome, hidden)
  | .get a k => match hidden a with
    | none => (.ret (.error .AttributeError), hidden)
    | some v => (k v, hidden)
  | .set a v k => (k, fun b => if b = a then some v else hidden b)
  | .look k => (k σ, hidden)

/-- What can happen: a call of `substitute` or a read of `word_form.form` begins, a call or read makes a step, or someone assigns the
forms of a word. -/
inductive RenderEvent where
  /-- `template.substitute(externals, dictionary)` -/
  | substitute (t : Template) (externals dictionary : Dict Str Nat)
  /-- `word_form.form` -/
  | form (f : Nat)
  | run (i : Nat)
  /-- `word.forms = forms` -/
  | setForms (w : Nat) (forms : List Str)

/-- The effect of an event. -/
def Machine.step (U : PyUni) (m : Machine) : RenderEvent → Machine
  | .substitute t externals dictionary => { m with threads := m.threads ++ [substituteProg U t externals dictionary] }
  | .form f => { m with threads := m.threads ++ [readForm U f] }
  | .run i => match m.threads[i]? with
    | none => m
    | some p => ⟨m.store, (p.step m.store m.hidden).2, m.threads.set i (p.step m.store m.hidden).1⟩
  | .setForms w forms => { m with store := { m.store with words := m.store.words.modify w fun v => { v with forms := forms } } }

/-- The machine after a schedule; at first no lazy attribute is stored. -/
def Machine.after (U : PyUni) (σ : Store) (events : List RenderEvent) : Machine :=
  events.foldl (Machine.step U) ⟨σ, fun _ => none, []⟩

end Utg
