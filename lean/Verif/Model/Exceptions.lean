import Verif.Py.Dict
import Verif.Py.Str
/-!
# `utg/exceptions.py`

`Py.PyErr` names the exceptions that the rest of the model raises; here is how an exception object is built.
-/

namespace Utg
open Py

/-- What formatting can use of an argument: `str(x)` and `repr(x)`. -/
structure Shown where
  str : Str
  repr : Str
  deriving DecidableEq, Repr

/-- Where the formatting of `message % kwargs` is: in plain text, after `%`, inside `%(name`, after `%(name)`. -/
inductive FormatState where
  | text
  | percent
  | name (soFar : Str)
  | conversion (value : Shown)
  deriving DecidableEq, Repr

/-- Python's `message % kwargs` with a dictionary on the right, for messages with `%(name)s`, `%(name)r` and `%%`; all other
conversions are taken to be a `ValueError`, and names do not contain parentheses. -/
def formatNamed (kwargs : Dict Str Shown) : FormatState → Str → Except PyErr Str
  | .text, [] => .ok []
  | _, [] => .error .ValueError
  | .text, c :: cs => if c = '%' then formatNamed kwargs .percent cs else do
      let rest ← formatNamed kwargs .text cs
      .ok (c :: rest)
  | .percent, c :: cs =>
    if c = '(' then formatNamed kwargs (.name []) cs
    else if c = '%' then do
      let rest ← formatNamed kwargs .text cs
      .ok ('%' :: rest)
    else .error .ValueError
  | .name n, c :: cs =>
    if c = ')' then match kwargs.get? n with
      | none => .error .KeyError
      | some v => formatNamed kwargs (.conversion v) cs
    else formatNamed kwargs (.name (n ++ [c])) cs
  | .conversion v, c :: cs =>
    if c = 's' then do
      let rest ← formatNamed kwargs .text cs
      .ok (v.str ++ rest)
    else if c = 'r' then do
      let rest ← formatNamed kwargs .text cs
      .ok (v.repr ++ rest)
    else .error .ValueError

/-- The classes of utg/exceptions.py that can be told apart by what they raise with. -/
inductive ErrorClass where
  | UtgError | WordsError | LexiconError | TransformatorsError
  | WrongFormsNumberError | DuplicateWordError | UnknownVerboseIdError | ExternalDependecyNotFoundError
  | WrongDependencyFormatError | NoWordsFoundError | MoreThenOneWordFoundError | UnknownLexiconKeyError
  | NoTemplatesWithSpecifiedRestrictions | UnknownIntegerFormError
  deriving DecidableEq, Repr

/-- The class attribute `MSG` (utg/exceptions.py:4, 16-55); the abstract classes inherit `None`. -/
def ErrorClass.msg : ErrorClass → Option Str
  | .UtgError | .WordsError | .LexiconError | .TransformatorsError => none
  | .WrongFormsNumberError => some (str! "constuctor of word receive wrong number of forms (%(wrong_number)s intead of %(expected_number)s), forms are: %(forms)s")
  | .DuplicateWordError => some (str! "duplicate word in dictionary, type: %(type)s, normal form: %(normal_form)s")
  | .UnknownVerboseIdError => some (str! "Unknown verbose id: %(verbose_id)s")
  | .ExternalDependecyNotFoundError => some (str! "External dependency not found: %(dependency)s")
  | .WrongDependencyFormatError => some (str! "wrong dependency format: %(dependency)s")
  | .NoWordsFoundError => some (str! "no words found for text=\"%(text)s\"")
  | .MoreThenOneWordFoundError => some (str! "more then one word found for text=\"%(text)s\" and type=%(type)s")
  | .UnknownLexiconKeyError => some (str! "unknown lexicon key: %(key)s")
  | .NoTemplatesWithSpecifiedRestrictions => some (str! "no templates with specified key: %(key)s and restrictions: %(restrictions)r")
  | .UnknownIntegerFormError => some (str! "unknown integer form: %(form)s")

/-- An exception object: the text given to `Exception.__init__` and the attribute `arguments` (utg/exceptions.py:6-8). -/
structure ErrorObj where
  message : Str
  arguments : Dict Str Shown
  deriving DecidableEq, Repr

/-- `UtgError.__init__` (utg/exceptions.py:6-8); `None % kwargs` is a `TypeError`. -/
def ErrorClass.new (c : ErrorClass) (kwargs : Dict Str Shown) : Except PyErr ErrorObj :=
  match c.msg with
  | none => .error .TypeError
  | some m => do
    let text ← formatNamed kwargs .text m
    .ok ⟨text, kwargs⟩

/-- The `raise` statements of the library with the values they pass. -/
inductive Raise where
  /-- utg/words.py:84-87 -/
  | wrongFormsNumber (wrong expected forms : Shown)
  /-- utg/templates.py:39 -/
  | wrongDependencyFormat (spec : Shown)
  /-- utg/templates.py:70 -/
  | unknownVerboseId (slug : Shown)
  /-- utg/templates.py:91 -/
  | externalNotFound (dependency : Shown)
  /-- utg/dictionary.py:60 -/
  | noWordsFound (text : Shown)
  /-- utg/lexicon.py:31,60 -/
  | unknownLexiconKey (key : Shown)
  /-- utg/lexicon.py:36,65 -/
  | noTemplates (key restrictions : Shown)
  /-- utg/transformators.py:150,223 -/
  | unknownIntegerForm (form : Shown)
  deriving DecidableEq, Repr

/-- Building the exception of a `raise` statement (lines as cited at `Raise`). -/
def Raise.build : Raise → Except PyErr ErrorObj
  | .wrongFormsNumber wrong expected forms => ErrorClass.WrongFormsNumberError.new
      [(str! "wrong_number", wrong), (str! "expected_number", expected), (str! "forms", forms)]
  | .wrongDependencyFormat v => ErrorClass.WrongDependencyFormatError.new [(str! "dependency", v)]
  | .unknownVerboseId v => ErrorClass.UnknownVerboseIdError.new [(str! "verbose_id", v)]
  | .externalNotFound v => ErrorClass.ExternalDependecyNotFoundError.new [(str! "dependency", v)]
  | .noWordsFound v => ErrorClass.NoWordsFoundError.new [(str! "text", v)]
  | .unknownLexiconKey v => ErrorClass.UnknownLexiconKeyError.new [(str! "key", v)]
  | .noTemplates k r => ErrorClass.NoTemplatesWithSpecifiedRestrictions.new [(str! "key", k), (str! "restrictions", r)]
  | .unknownIntegerForm v => ErrorClass.UnknownIntegerFormError.new [(str! "form", v)]

end Utg
