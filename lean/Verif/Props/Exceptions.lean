import Verif.Model.Exceptions
import Verif.Proofs.Dict
/-! # C79: error messages -/

namespace Utg.Spec
open Py

/-- A message with places for arguments: literal text, or the name of an argument and whether its `repr` is shown. -/
inductive Part where
  | lit (s : Str)
  | arg (name : Str) (asRepr : Bool)

/-- A message written in Python's format syntax. -/
def Part.source : Part → Str
  | .lit s => s
  | .arg n r => '%' :: '(' :: (n ++ [')', if r then 'r' else 's'])

/-- The parts can be written as they are: no `%` in literals, no `)` in names. -/
def Part.Plain : Part → Prop
  | .lit s => '%' ∉ s
  | .arg n _ => ')' ∉ n

/-- What a part shows. -/
def Part.shows (kwargs : Dict Str Shown) : Part → Option Str
  | .lit s => some s
  | .arg n r => (kwargs.get? n).map fun v => if r then v.repr else v.str

end Utg.Spec

namespace Utg
open Py Spec

theorem format_lit (kwargs : Dict Str Shown) (s rest : Str) (hs : '%' ∉ s) :
    formatNamed kwargs .text (s ++ rest) = (formatNamed kwargs .text rest).map (s ++ ·) := by
  induction s with
  | nil => simp [Except.map]; split <;> simp [*]
  | cons c s ih =>
    simp only [List.mem_cons, not_or] at hs
    have hc : c ≠ '%' := fun e => hs.1 e.symm
    simp only [List.cons_append, formatNamed, hc, if_false, ih hs.2]
    cases formatNamed kwargs .text rest <;> rfl

theorem format_name (kwargs : Dict Str Shown) (n soFar rest : Str) (hn : ')' ∉ n) :
    formatNamed kwargs (.name soFar) (n ++ ')' :: rest) =
      match kwargs.get? (soFar ++ n) with
      | none => .error .KeyError
      | some v => formatNamed kwargs (.conversion v) rest := by
  induction n generalizing soFar with
  | nil => cases h : kwargs.get? soFar <;> simp [formatNamed, h]
  | cons c n ih =>
    simp only [List.mem_cons, not_or] at hn
    have hc : c ≠ ')' := fun e => hn.1 e.symm
    simp only [List.cons_append, formatNamed, hc, if_false]
    rw [ih _ hn.2]; simp

theorem format_arg (kwargs : Dict Str Shown) (n : Str) (r : Bool) (rest : Str) (hn : ')' ∉ n) :
    formatNamed kwargs .text ((Part.arg n r).source ++ rest) =
      match (Part.arg n r).shows kwargs with
      | none => .error .KeyError
      | some s => (formatNamed kwargs .text rest).map (s ++ ·) := by
  have e : (Part.arg n r).source ++ rest = '%' :: '(' :: (n ++ ')' :: (if r then 'r' else 's') :: rest) := by
    simp [Part.source]
  rw [e, formatNamed, if_pos rfl, formatNamed, if_pos rfl, format_name kwargs n [] _ hn, List.nil_append]
  simp only [Part.shows]
  cases kwargs.get? n with
  | none => rfl
  | some v =>
    simp only [Option.map_some]
    cases r
    · simp only [Bool.false_eq_true, if_false, formatNamed, if_true]
      cases formatNamed kwargs .text rest <;> rfl
    · simp only [if_true, formatNamed]
      rw [if_neg (by decide)]
      cases formatNamed kwargs .text rest <;> rfl

/-- Formatting a message shows its parts one after the other; it fails iff an argument is missing. -/
theorem C79_formatting (kwargs : Dict Str Shown) (parts : List Part) (hp : ∀ p ∈ parts, p.Plain) :
    formatNamed kwargs .text (parts.map Part.source).flatten =
      match parts.mapM (Part.shows kwargs) with
      | none => .error .KeyError
      | some texts => .ok texts.flatten := by
  induction parts with
  | nil => rfl
  | cons p ps ih =>
    have ih := ih fun q hq => hp q (by simp [hq])
    simp only [List.map_cons, List.flatten_cons, List.mapM_cons, Option.bind_eq_bind]
    cases p with
    | lit s =>
      have hs : '%' ∉ s := hp (.lit s) (by simp)
      rw [show (Part.lit s).source = s from rfl, format_lit kwargs s _ hs, ih]
      cases ps.mapM (Part.shows kwargs) <;> simp [Part.shows, Except.map]
    | arg n r =>
      rw [format_arg kwargs n r _ (hp (.arg n r) (by simp)), ih]
      cases (Part.arg n r).shows kwargs with
      | none => rfl
      | some s => cases ps.mapM (Part.shows kwargs) <;> simp [Except.map]

/-- The parts of the message of each class that has one. -/
def ErrorClass.parts : ErrorClass → Option (List Part)
  | .UtgError | .WordsError | .LexiconError | .TransformatorsError => none
  | .WrongFormsNumberError => some [.lit (str! "constuctor of word receive wrong number of forms ("), .arg (str! "wrong_number") false,
      .lit (str! " intead of "), .arg (str! "expected_number") false, .lit (str! "), forms are: "), .arg (str! "forms") false]
  | .DuplicateWordError => some [.lit (str! "duplicate word in dictionary, type: "), .arg (str! "type") false,
      .lit (str! ", normal form: "), .arg (str! "normal_form") false]
  | .UnknownVerboseIdError => some [.lit (str! "Unknown verbose id: "), .arg (str! "verbose_id") false]
  | .ExternalDependecyNotFoundError => some [.lit (str! "External dependency not found: "), .arg (str! "dependency") false]
  | .WrongDependencyFormatError => some [.lit (str! "wrong dependency format: "), .arg (str! "dependency") false]
  | .NoWordsFoundError => some [.lit (str! "no words found for text=\""), .arg (str! "text") false, .lit (str! "\"")]
  | .MoreThenOneWordFoundError => some [.lit (str! "more then one word found for text=\""), .arg (str! "text") false,
      .lit (str! "\" and type="), .arg (str! "type") false]
  | .UnknownLexiconKeyError => some [.lit (str! "unknown lexicon key: "), .arg (str! "key") false]
  | .NoTemplatesWithSpecifiedRestrictions => some [.lit (str! "no templates with specified key: "), .arg (str! "key") false,
      .lit (str! " and restrictions: "), .arg (str! "restrictions") true]
  | .UnknownIntegerFormError => some [.lit (str! "unknown integer form: "), .arg (str! "form") false]

theorem msg_parts (c : ErrorClass) : c.msg = c.parts.map fun ps => (ps.map Part.source).flatten := by
  cases c <;> decide +kernel

theorem parts_plain (c : ErrorClass) (ps : List Part) (h : c.parts = some ps) : ∀ p ∈ ps, p.Plain := by
  cases c <;> simp only [ErrorClass.parts, reduceCtorEq, Option.some.injEq] at h <;> subst h <;> simp [Part.Plain]

/-- C79: building an exception object succeeds iff every argument that the message names is given; more arguments do no harm.
The object keeps the arguments. -/
theorem C79_construct (c : ErrorClass) (ps : List Part) (h : c.parts = some ps) (kwargs : Dict Str Shown) :
    c.new kwargs = match ps.mapM (Part.shows kwargs) with
      | none => .error .KeyError
      | some texts => .ok ⟨texts.flatten, kwargs⟩ := by
  unfold ErrorClass.new
  rw [msg_parts, h]
  simp only [Option.map_some]
  rw [C79_formatting kwargs ps (parts_plain c ps h)]
  cases ps.mapM (Part.shows kwargs) <;> rfl

/-- C79: every `raise` statement of the library raises the exception it means to raise, whatever the values are, also if they
contain `%`: the object can be built and its message shows the values. -/
theorem C79_raise_sites (wrong expected forms spec slug dependency text key restrictions form : Shown) :
    (Raise.wrongFormsNumber wrong expected forms).build = .ok ⟨str! "constuctor of word receive wrong number of forms (" ++ wrong.str ++
        str! " intead of " ++ expected.str ++ str! "), forms are: " ++ forms.str,
      [(str! "wrong_number", wrong), (str! "expected_number", expected), (str! "forms", forms)]⟩ ∧
    (Raise.wrongDependencyFormat spec).build =
      .ok ⟨str! "wrong dependency format: " ++ spec.str, [(str! "dependency", spec)]⟩ ∧
    (Raise.unknownVerboseId slug).build = .ok ⟨str! "Unknown verbose id: " ++ slug.str, [(str! "verbose_id", slug)]⟩ ∧
    (Raise.externalNotFound dependency).build =
      .ok ⟨str! "External dependency not found: " ++ dependency.str, [(str! "dependency", dependency)]⟩ ∧
    (Raise.noWordsFound text).build = .ok ⟨str! "no words found for text=\"" ++ text.str ++ str! "\"", [(str! "text", text)]⟩ ∧
    (Raise.unknownLexiconKey key).build = .ok ⟨str! "unknown lexicon key: " ++ key.str, [(str! "key", key)]⟩ ∧
    (Raise.noTemplates key restrictions).build = .ok ⟨str! "no templates with specified key: " ++ key.str ++ str! " and restrictions: " ++
      restrictions.repr, [(str! "key", key), (str! "restrictions", restrictions)]⟩ ∧
    (Raise.unknownIntegerForm form).build = .ok ⟨str! "unknown integer form: " ++ form.str, [(str! "form", form)]⟩ := by
  refine ⟨?_, ?_, ?_, ?_, ?_, ?_, ?_, ?_⟩ <;>
    (simp only [Raise.build]; rw [C79_construct _ _ rfl]; simp [Part.shows, Dict.get?])

/-- C79 applies: an unknown word with a percent sign in it. -/
example : (Raise.noWordsFound ⟨str! "50%s", str! "'50%s'"⟩).build =
    .ok ⟨str! "no words found for text=\"50%s\"", [(str! "text", ⟨str! "50%s", str! "'50%s'"⟩)]⟩ := by decide +kernel

/-- The abstract classes cannot be raised. -/
theorem C79_abstract (c : ErrorClass) (h : c.msg = none) (kwargs : Dict Str Shown) : c.new kwargs = .error .TypeError := by
  unfold ErrorClass.new; rw [h]

end Utg
