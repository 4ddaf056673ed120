import Verif.Model.Templates
import Verif.Spec.Words
import Verif.Spec.Dictionary
import Verif.Spec.Integers
/-!
# Specification vocabulary for templates

Nothing here is used by the model.
-/

namespace Utg.Spec
open Py

/-- A variable: a bracket group `[body]` whose body is not empty and contains no `]`. -/
def IsVariable (v : Str) : Prop := ∃ body, v = '[' :: body ++ [']'] ∧ body ≠ [] ∧ ']' ∉ body

/-- A literal piece in front of a variable: each `[` in it is closed immediately (`[]` is not a variable). -/
def IsLiteral (l : Str) : Prop := ∀ a b, l = a ++ '[' :: b → ∃ b', b = ']' :: b'

/-- The literal piece at the end of a text: it contains no variable. -/
def IsFinalLiteral (l : Str) : Prop := ∀ a body b, l = a ++ '[' :: body ++ ']' :: b → ']' ∉ body → body = []

/-- `Pieces text l [(v₁, l₁), (v₂, l₂), ...]`: the text is `l v₁ l₁ v₂ l₂ ...`, its variables from left to right are the `vᵢ`,
the rest is literal. -/
inductive Pieces : Str → Str → List (Str × Str) → Prop
  | last (l : Str) : IsFinalLiteral l → Pieces l l []
  | var (l v text l' : Str) (rest : List (Str × Str)) : IsLiteral l → IsVariable v → Pieces text l' rest →
      Pieces (l ++ v ++ text) l ((v, l') :: rest)

/-- Percent signs doubled. -/
def doubled : Str → Str
  | [] => []
  | c :: cs => if c = '%' then '%' :: '%' :: doubled cs else c :: doubled cs

/-- The text in which percent signs are doubled and the variables replaced by `%s`. -/
def formatted (l : Str) (lits : List Str) : Str := doubled l ++ lits.flatMap fun l' => '%' :: 's' :: doubled l'

/-- `l r₁ l₁ r₂ l₂ ...`: the text with each variable replaced by its own text. -/
def filled (l : Str) : List Str → List Str → Str
  | r :: rs, l' :: ls => l ++ r ++ filled l' rs ls
  | _, _ => l

/-- The text `head|slug₁|slug₂...` in brackets. -/
def bracketed (head : Str) (slugs : List Str) : Str := '[' :: (head ++ slugs.flatMap ('|' :: ·)) ++ [']']

/-- `t` is `s` without the white space at both ends. -/
def Stripped (U : PyUni) (s t : Str) : Prop :=
  ∃ a b, s = a ++ t ++ b ∧ (∀ c ∈ a, U.isSpace c = true) ∧ (∀ c ∈ b, U.isSpace c = true) ∧
    (∀ c, t.head? = some c → U.isSpace c = false) ∧ (∀ c, t.getLast? = some c → U.isSpace c = false)

/-- What a part of a variable after a bar stands for: lower-cased and stripped, it is the name of an external, or else a comma
separated list of property ids, empty ids being skipped. -/
def Reads (U : PyUni) (externals : List Str) (slug : Str) (dep : Dep) : Prop :=
  ∃ name, Stripped U (U.lower slug) name ∧
    (name ∈ externals ∧ dep = .ext name ∨
     name ∉ externals ∧ ∃ (ids : List Str) (rs : List Rec), name = [','].intercalate ids ∧ ids ≠ [] ∧ (∀ id ∈ ids, ',' ∉ id) ∧
       (ids.filter (· ≠ [])) = rs.map Rec.verboseId ∧ dep = .props (.new (rs.map .record)))

/-- The first unknown property id of a part of a variable that names no external. -/
def Unreadable (U : PyUni) (externals : List Str) (slug : Str) (bad : Str) : Prop :=
  ∃ name, Stripped U (U.lower slug) name ∧ name ∉ externals ∧
    ∃ (good others : List Str), name = [','].intercalate (good ++ bad :: others) ∧ (∀ id ∈ good ++ bad :: others, ',' ∉ id) ∧
      (∀ id ∈ good, id = [] ∨ ∃ r : Rec, r.verboseId = id) ∧ bad ≠ [] ∧ ∀ r : Rec, r.verboseId ≠ bad

/-- The property ids documented in README.rst:140-320, with their meaning. -/
def readmeIds : List (Str × Rec) :=
  [(str! "несов", .ASPECT_IMPERFECTIVE), (str! "сов", .ASPECT_PERFECTIVE),
   (str! "пзв", .DEPENDENCY_MODE_FULL), (str! "сзв", .DEPENDENCY_MODE_SEMANTIC),
   (str! "цо", .INTEGER_FORM_SINGULAR), (str! "цд", .INTEGER_FORM_DUAL), (str! "цсд", .INTEGER_FORM_COMPOSITE_DUAL),
   (str! "цост", .INTEGER_FORM_PLURAL), (str! "цмм", .INTEGER_FORM_MIL_BIL),
   (str! "прш", .TIME_PAST), (str! "нст", .TIME_PRESENT), (str! "буд", .TIME_FUTURE),
   (str! "прям", .VOICE_DIRECT), (str! "взв", .VOICE_REVERSE),
   (str! "личн", .PRONOUN_CATEGORY_PERSONAL), (str! "возвр", .PRONOUN_CATEGORY_REFLEXIVE),
   (str! "притяж", .PRONOUN_CATEGORY_POSSESSIVE), (str! "вопр", .PRONOUN_CATEGORY_INTERROGATIVE),
   (str! "относ", .PRONOUN_CATEGORY_RELATIVE), (str! "указат", .PRONOUN_CATEGORY_DEMONSTRATIVE),
   (str! "опред", .PRONOUN_CATEGORY_ATTRIBUTIVE), (str! "отриц", .PRONOUN_CATEGORY_NEGATIVE),
   (str! "неопр", .PRONOUN_CATEGORY_VAGUE), (str! "взаимн", .PRONOUN_CATEGORY_MUTUAL),
   (str! "кач", .ADJECTIVE_CATEGORY_QUALITY), (str! "отн", .ADJECTIVE_CATEGORY_RELATIVE), (str! "прит", .ADJECTIVE_CATEGORY_POSSESSIVE),
   (str! "1л", .PERSON_FIRST), (str! "2л", .PERSON_SECOND), (str! "3л", .PERSON_THIRD),
   (str! "од", .ANIMALITY_ANIMATE), (str! "но", .ANIMALITY_INANIMATE),
   (str! "им", .CASE_NOMINATIVE), (str! "рд", .CASE_GENITIVE), (str! "дт", .CASE_DATIVE), (str! "вн", .CASE_ACCUSATIVE),
   (str! "тв", .CASE_INSTRUMENTAL), (str! "пр", .CASE_PREPOSITIONAL),
   (str! "строч", .WORD_CASE_LOWER), (str! "загл", .WORD_CASE_UPPER),
   (str! "мр", .GENDER_MASCULINE), (str! "ср", .GENDER_NEUTER), (str! "жр", .GENDER_FEMININE),
   (str! "пол", .GRADE_POSITIVE), (str! "сравн", .GRADE_COMPARATIVE), (str! "прев", .GRADE_SUPERLATIVE),
   (str! "инф", .VERB_FORM_INFINITIVE), (str! "изъяв", .VERB_FORM_INDICATIVE), (str! "пов", .VERB_FORM_IMPERATIVE),
   (str! "осн", .PREPOSITION_FORM_NORMAL), (str! "алт", .PREPOSITION_FORM_ALTERNATIVE), (str! "спц", .PREPOSITION_FORM_SPECIAL),
   (str! "полнприл", .ADJECTIVE_FORM_FULL), (str! "крприл", .ADJECTIVE_FORM_SHORT),
   (str! "полнприч", .PARTICIPLE_FORM_FULL), (str! "крприч", .PARTICIPLE_FORM_SHORT),
   (str! "нс", .NOUN_FORM_NORMAL), (str! "счт", .NOUN_FORM_COUNTABLE),
   (str! "сущ", .WORD_TYPE_NOUN), (str! "прил", .WORD_TYPE_ADJECTIVE), (str! "мест", .WORD_TYPE_PRONOUN), (str! "гл", .WORD_TYPE_VERB),
   (str! "прич", .WORD_TYPE_PARTICIPLE), (str! "целое", .WORD_TYPE_INTEGER), (str! "текст", .WORD_TYPE_TEXT),
   (str! "предл", .WORD_TYPE_PREPOSITION),
   (str! "ед", .NUMBER_SINGULAR), (str! "мн", .NUMBER_PLURAL)]

/-! ## Substitutions -/

/-- A word form of an accepted word, with well-formed properties. -/
def GoodForm (f : WordForm) : Prop := Accepted f.word ∧ WFProps f.properties ∧ WFProps f.formProperties

/-- All externals are good word forms. -/
def GoodExternals (ext : Externals) : Prop := ∀ n f, ext.get? n = some f → GoodForm f

/-- All dictionary entries are good word forms. -/
def GoodDictionary (d : Dictionary) : Prop := ∀ t f, d.getWord t = .ok f → GoodForm f

/-- All property lists of a substitution are well formed. -/
def GoodSubstitution (s : Substitution) : Prop := ∀ p, Dep.props p ∈ s.dependencies → WFProps p

/-- The word form an id stands for: the external of that name, else the dictionary entry. -/
def Resolves (ext : Externals) (d : Dictionary) (id : Str) (f : WordForm) : Prop :=
  ext.get? id = some f ∨ ext.get? id = none ∧ d.getWord id = .ok f

/-- What a dependency specifies for property `g`. -/
def depSays (ext : Externals) (dep : Dep) (g : Group) : Option Rec :=
  match dep with
  | .props p => if p.isSpecified g then p.get g else none
  | .ext n => match ext.get? n with
    | none => none
    | some f => if f.properties.isSpecified g then f.properties.get g else none

/-- `q` collects the properties of a substitution in the order of precedence: the word's own; else the last dependency that
specifies the property; else the recognised word form's (which may be the default). -/
def Collects (ext : Externals) (base : WordForm) (deps : List Dep) (q : Properties) : Prop :=
  (∀ g, base.word.properties.isSpecified g = true → q.get g = base.word.properties.get g) ∧
  (∀ g pre dep post r, base.word.properties.isSpecified g = false → deps = pre ++ dep :: post → depSays ext dep g = some r →
    (∀ dep' ∈ post, depSays ext dep' g = none) → q.get g = some r) ∧
  (∀ g, base.word.properties.isSpecified g = false → (∀ dep ∈ deps, depSays ext dep g = none) → q.get g = base.properties.get g)

/-- No agreement applies: the word is no preposition, and no dependency is a number unless the word is a number or a text. -/
def NoAgreement (ext : Externals) (base : WordForm) (deps : List Dep) : Prop :=
  base.word.type ≠ .PREPOSITION ∧ ∀ n f, Dep.ext n ∈ deps → ext.get? n = some f →
    f.word.type ≠ .INTEGER ∨ base.word.type = .INTEGER ∨ base.word.type = .TEXT

/-- The number `f` is the only number among the dependencies. -/
def SoleNumber (ext : Externals) (deps : List Dep) (f : WordForm) : Prop :=
  f.word.type = .INTEGER ∧ ∃ pre n post, deps = pre ++ Dep.ext n :: post ∧ ext.get? n = some f ∧
    ∀ m, Dep.ext m ∈ pre ++ post → ∃ f', ext.get? m = some f' ∧ f'.word.type ≠ .INTEGER

/-- `f` is the only external among the dependencies. -/
def SoleExternal (ext : Externals) (deps : List Dep) (f : WordForm) : Prop :=
  ∃ pre n post, deps = pre ++ Dep.ext n :: post ∧ ext.get? n = some f ∧ ∀ m, Dep.ext m ∉ pre ++ post

/-- No text is empty, neither a form nor the capital of a letter. -/
def NonEmptyForms (f : WordForm) : Prop := ∀ x ∈ f.word.forms, x ≠ []

/-- The slot of a noun for the number `n`, a requested case, and the noun's animality. -/
def countedSlot (n : Int) (case animality : Rec) : Key :=
  match agreementClass n with
  | .INTEGER_FORM_SINGULAR => [some .NOUN_FORM_NORMAL, some .NUMBER_SINGULAR, some case]        -- (с) двадцатью одним рублём
  | .INTEGER_FORM_DUAL =>
    if case = .CASE_NOMINATIVE ∨ (case = .CASE_ACCUSATIVE ∧ animality = .ANIMALITY_INANIMATE)
    then [some .NOUN_FORM_NORMAL, some .NUMBER_SINGULAR, some .CASE_GENITIVE]                   -- два рубля
    else [some .NOUN_FORM_COUNTABLE, some .NUMBER_PLURAL, some case]                           -- (о) двух рублях
  | .INTEGER_FORM_COMPOSITE_DUAL =>
    if case = .CASE_NOMINATIVE ∨ case = .CASE_ACCUSATIVE
    then [some .NOUN_FORM_NORMAL, some .NUMBER_SINGULAR, some .CASE_GENITIVE]                   -- двадцать два рубля
    else [some .NOUN_FORM_COUNTABLE, some .NUMBER_PLURAL, some case]
  | .INTEGER_FORM_PLURAL =>
    if case = .CASE_NOMINATIVE ∨ case = .CASE_ACCUSATIVE
    then [some .NOUN_FORM_COUNTABLE, some .NUMBER_PLURAL, some .CASE_GENITIVE]                  -- пять рублей
    else [some .NOUN_FORM_COUNTABLE, some .NUMBER_PLURAL, some case]
  | _ => [some .NOUN_FORM_COUNTABLE, some .NUMBER_PLURAL, some .CASE_GENITIVE]                  -- миллион рублей

/-- Serialized substitutions that denote the same substitution: same id, same externals, and property dictionaries that went
through JSON (integer keys may become strings, the order of items may change). -/
inductive DepViaJson : DepData → DepData → Prop
  | ext (n : Str) : DepViaJson (.ext n) (.ext n)
  | props (d e d' : Dict JKey Int) : List.Forall₂ ViaJson d e → d'.Perm e → DepViaJson (.props d) (.props d')

/-- The effect of a JSON round trip on a serialized template. -/
def TemplateViaJson (a b : TemplateData) : Prop :=
  a.template = b.template ∧
  List.Forall₂ (fun s t => s.id = t.id ∧ List.Forall₂ DepViaJson s.dependencies t.dependencies) a.substitutions b.substitutions

end Utg.Spec
