import Verif.Spec.Templates
import Verif.Spec.Transformators
import Verif.Spec.Layout
/-!
# A reference semantics of substitution

What a variable of a template stands for, as a function of the values of the properties and the documented list of forms; no
cache, no key, no nearest-key search, no `Properties` objects are involved. Nothing here is used by the model.
-/

namespace Utg.Spec
open Py

/-- The value of each property. -/
abbrev Reading := Group → Option Rec

/-- A reading with some values replaced. -/
def Reading.upd (ρ : Reading) (rs : List Rec) : Reading := fun g =>
  match rs.find? fun r => decide (r.group = g) with
  | some r => some r
  | none => ρ g

/-- What the last dependency that speaks about `g` says. -/
def lastSay (ext : Externals) (g : Group) : List Dep → Option Rec
  | [] => none
  | dep :: deps => match lastSay ext g deps with
    | some r => some r
    | none => depSays ext dep g

/-- The reading a substitution starts from: the word's own values, else those of the dependencies, the last one first, else
those of the recognised word form. -/
def initialReading (ext : Externals) (base : WordForm) (deps : List Dep) : Reading := fun g =>
  if base.word.properties.isSpecified g then base.word.properties.get g
  else match lastSay ext g deps with
    | some r => some r
    | none => base.properties.get g

/-- Two combinations have no form of their own. The countable form of a noun has no singular: the normal singular stands in. The
imperative has no third person and no first person singular: the infinitive stands in. -/
def standIn (t : WordType) (ρ : Reading) : Reading :=
  if t = .NOUN ∧ ρ .NOUN_FORM = some .NOUN_FORM_COUNTABLE ∧ ρ .NUMBER = some .NUMBER_SINGULAR then ρ.upd [.NOUN_FORM_NORMAL]
  else if t = .VERB ∧ ρ .VERB_FORM = some .VERB_FORM_IMPERATIVE ∧
      (ρ .PERSON = some .PERSON_THIRD ∨ ρ .PERSON = some .PERSON_FIRST ∧ ρ .NUMBER = some .NUMBER_SINGULAR)
    then ρ.upd [.VERB_FORM_INFINITIVE]
  else ρ

/-- A reading fits a combination of values. -/
def Fits (ρ : Reading) (m : List Rec) : Prop := ∀ r ∈ m, ρ r.group = some r

instance (ρ : Reading) (m : List Rec) : Decidable (Fits ρ m) := by unfold Fits; infer_instance

/-- The position of the form for a reading: the combination in the documented list of forms that the reading fits. -/
def slotOf (t : WordType) (ρ : Reading) : Nat := (layoutNow t).findIdx fun m => decide (Fits (standIn t ρ) m)

/-- The form of a word under a reading. -/
def formIn (w : Word) (ρ : Reading) : Str := w.forms.getD (slotOf w.type ρ) []

/-- The text of a word under a reading: the form, with a capital letter if the reading asks for it. -/
def spoken (U : PyUni) (w : Word) (ρ : Reading) : Except PyErr Str :=
  if ρ .WORD_CASE = some .WORD_CASE_UPPER then
    match formIn w ρ with
    | [] => .error .IndexError
    | c :: cs => .ok (U.upperC c ++ cs)
  else .ok (formIn w ρ)

instance : DecidablePred isConsonant := fun c => by unfold isConsonant; infer_instance

instance : DecidablePred isPlainVowel := fun c => by unfold isPlainVowel; infer_instance

instance (text : Str) : Decidable (StartsWithCluster text) :=
  match text with
  | [] => .isFalse (by rintro ⟨c, cs, h, -⟩; cases h)
  | [c] => decidable_of_iff (isConsonant c) (by
      constructor
      · intro h; exact ⟨c, [], rfl, h, by simp⟩
      · rintro ⟨c', cs, h, h', -⟩; injection h with h1 h2; subst h1; exact h')
  | c :: d :: cs => decidable_of_iff (isConsonant c ∧ isConsonant d) (by
      constructor
      · intro h; exact ⟨c, d :: cs, rfl, h.1, by intro d' hd; injection hd with hd; subst hd; exact h.2⟩
      · rintro ⟨c', cs', h, h1, h2⟩; injection h with e1 e2; subst e1 e2; exact ⟨h1, h2 d rfl⟩)

instance (w : Word) : Decidable (OneSyllable w) :=
  match h : w.forms with
  | [] => .isFalse (by rintro ⟨f, hf, -⟩; rw [h] at hf; cases hf)
  | f :: _ => decidable_of_iff ((vowels f).length ≤ 1) (by
      unfold OneSyllable; rw [h]; simp)

instance (w : Word) : Decidable (FluentVowel w) :=
  match h : w.forms with
  | [] => .isFalse (by rintro ⟨f, g, i, hf, -⟩; rw [h] at hf; cases hf)
  | f :: fs => decidable_of_iff (∃ g ∈ fs, g ≠ [] ∧ ¬ vowels f <+: vowels g) (by
      unfold FluentVowel; rw [h]
      constructor
      · rintro ⟨g, hg, h1, h2⟩
        obtain ⟨i, hi⟩ := List.mem_iff_getElem?.mp hg
        exact ⟨f, g, i, by simp, by simpa using hi, h1, h2⟩
      · rintro ⟨f', g, i, hf, hi, h1, h2⟩
        simp at hf; subst hf
        exact ⟨g, List.mem_of_getElem? (by simpa using hi), h1, h2⟩)

/-- The form of the preposition `prep` in front of the text `next` of the word `w`, if it is not the one asked for. After a
consonant: the alternative form in front of a consonant cluster, if the word has one syllable and a fluent vowel (ко сну), or
if the preposition is в or с and the cluster begins with the same letter (во власти, со стола). After a vowel: the special form
of о in front of five words (обо мне), the alternative one in front of a plain vowel (об осени). -/
def prepositionDemand (prep next : Str) (w : Word) : List Rec :=
  if ∃ c ∈ prep.getLast?, isConsonant c then
    if StartsWithCluster next ∧ (OneSyllable w ∧ FluentVowel w ∨ (prep = str! "в" ∨ prep = str! "с") ∧ prep <+: next)
    then [.PREPOSITION_FORM_ALTERNATIVE] else []
  else if prep = str! "о" ∧ next ∈ [str! "всех", str! "мне", str! "всём", str! "что", str! "всей"] then [.PREPOSITION_FORM_SPECIAL]
  else if ∃ c ∈ next.head?, isPlainVowel c then [.PREPOSITION_FORM_ALTERNATIVE]
  else []

/-- What a dependency on the word form `master` demands of the word `w` with reading `ρ`. Numbers make demands on nouns, pronouns,
adjectives, verbs and participles, all words on prepositions; there the last letter of the preposition's normal form and the
first letter of the other text have to exist. -/
def demand (U : PyUni) (w : Word) (ρ : Reading) (master : WordForm) : Except PyErr (List Rec) :=
  match w.type with
  | .PREPOSITION =>
    if formIn w w.properties.get = [] then .error .IndexError
    else do
      let next ← spoken U master.word master.formProperties.get
      if next = [] then .error .IndexError else .ok (prepositionDemand (formIn w w.properties.get) next master.word)
  | .NOUN | .PRONOUN =>
    if master.word.type = .INTEGER then
      match ρ .DEPENDENCY_MODE, ρ .INTEGER_FORM, ρ .CASE, ρ .ANIMALITY with
      | some mode, some i, some case, some animality => .ok (nounAgreement mode i case animality)
      | _, _, _, _ => .error .TypeError
    else .ok []
  | .ADJECTIVE | .VERB | .PARTICIPLE =>
    if master.word.type = .INTEGER then
      match ρ .DEPENDENCY_MODE, ρ .INTEGER_FORM, ρ .CASE, ρ .GENDER with
      | some mode, some i, some case, some gender => .ok (adjectiveAgreement mode i case gender)
      | _, _, _, _ => .error .TypeError
    else .ok []
  | .INTEGER | .TEXT => .ok []

/-- The reading after all demands, in order. -/
def agreeAll (U : PyUni) (w : Word) : Reading → List WordForm → Except PyErr Reading
  | ρ, [] => .ok ρ
  | ρ, master :: masters => do agreeAll U w (ρ.upd (← demand U w ρ master)) masters

/-- What a number demands of a noun when it is named again: the same, unless it is one that makes a genitive singular. -/
def nounAgain (mode integerForm case animality : Rec) : List Rec :=
  if mode = .DEPENDENCY_MODE_FULL ∧
      (integerForm = .INTEGER_FORM_DUAL ∧ (case = .CASE_NOMINATIVE ∨ case = .CASE_ACCUSATIVE ∧ animality = .ANIMALITY_INANIMATE) ∨
       integerForm = .INTEGER_FORM_COMPOSITE_DUAL ∧ (case = .CASE_NOMINATIVE ∨ case = .CASE_ACCUSATIVE))
  then [.NOUN_FORM_COUNTABLE, .NUMBER_PLURAL, .CASE_GENITIVE]
  else nounAgreement mode integerForm case animality

/-- What a number demands of an adjective, verb or participle when it is named again. -/
def adjectiveAgain (mode integerForm case gender : Rec) : List Rec :=
  if mode = .DEPENDENCY_MODE_FULL ∧ integerForm = .INTEGER_FORM_COMPOSITE_DUAL ∧ (case = .CASE_NOMINATIVE ∨ case = .CASE_ACCUSATIVE)
  then [.NUMBER_PLURAL, .CASE_GENITIVE]
  else adjectiveAgreement mode integerForm case gender

/-- The word forms a list of dependencies refers to, or the first name that is not given. -/
def masters (ext : Externals) : List Dep → Except PyErr (List WordForm)
  | [] => .ok []
  | .props _ :: deps => masters ext deps
  | .ext n :: deps => match ext.get? n with
    | none => .error (.ExternalDependecyNotFoundError n)
    | some f => do .ok (f :: (← masters ext deps))

/-- The text a substitution stands for: `lookup` is the dictionary. -/
def meaning (U : PyUni) (ext : Externals) (lookup : Str → Option WordForm) (s : Substitution) : Except PyErr Str :=
  match (ext.get? s.id).or (lookup s.id) with
  | none => .error (.NoWordsFoundError s.id)
  | some base => do
    let fs ← masters ext s.dependencies
    let ρ ← agreeAll U base.word (initialReading ext base s.dependencies) fs
    spoken U base.word ρ

/-- The text a list of substitutions and the literals between them stand for. -/
def meaningAll (U : PyUni) (ext : Externals) (lookup : Str → Option WordForm) (l : Str) : List (Substitution × Str) → Except PyErr Str
  | [] => .ok l
  | (s, l') :: rest => do
    let x ← meaning U ext lookup s
    let y ← meaningAll U ext lookup l' rest
    .ok (l ++ x ++ y)

/-- What the variable `[head|slug...]` stands for: the head, stripped and lower-cased, is the id; each slug is a dependency; a head
that begins with a capital letter asks for a capital letter. -/
def ReadsAs (U : PyUni) (names : List Str) (v : Str) (s : Substitution) : Prop :=
  ∃ head slugs deps c id, v = bracketed head slugs ∧ '|' ∉ head ∧ (∀ slug ∈ slugs, '|' ∉ slug) ∧ Stripped U head (c :: id) ∧
    List.Forall₂ (Reads U names) slugs deps ∧
    s = ⟨U.lower (c :: id), deps ++ if U.isUpper c then [.props (.new [.record .WORD_CASE_UPPER])] else []⟩

/-! ## Dictionaries -/

/-- The word forms of a word, in the documented order. -/
def entries (w : Word) : List WordForm := (layoutNow w.type).map fun m => WordForm.new w (some (.new (m.map .record)))

/-- Word forms with their texts, up to the first one that has none. -/
def withTexts (U : PyUni) : List WordForm → List (Str × WordForm)
  | [] => []
  | f :: fs => match spoken U f.word f.formProperties.get with
    | .error _ => []
    | .ok text => (text, f) :: withTexts U fs

instance (f g : WordForm) : Decidable (Better f g) := by unfold Better; infer_instance

/-- The best one of a list, the first one among equals. -/
def best : List WordForm → Option WordForm
  | [] => none
  | f :: fs => match best fs with
    | none => some f
    | some g => if Better g f then some g else some f

/-- The entry of a dictionary of the words `ws` for a text. -/
def entryFor (U : PyUni) (ws : List Word) (text : Str) : Option WordForm :=
  best (((ws.flatMap fun w => withTexts U (entries w)).filter fun c => decide (c.1 = text)).map Prod.snd)

end Utg.Spec
