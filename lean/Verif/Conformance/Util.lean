import Verif.Props.Templates
/-! # The repository's own tests, run in the model

The code cannot be run here. Its unit tests can be read, and they say what the code does on certain inputs: the modules of this
directory translate them, test by test, and let the kernel evaluate the model on them. They are tests of the model against the
code, not proofs of properties. What is not translated: tests with `mock`, tests of the initial state of an object, and tests that
only call `random` a number of times (the model's version of `random` is in C32, C33). -/

namespace Utg
open Py

/-- `words.Properties(*records)` -/
def props (rs : List Rec) : Properties := .new (rs.map .record)

/-- The call returned and the result is equal, in the sense of `Properties.__eq__`. -/
def sameProps (r : Except PyErr Properties) (p : Properties) : Bool :=
  match r with
  | .ok q => q.eq p
  | .error _ => false

/-- The call returned and the results are equal, in the sense of `WordForm.__eq__`. -/
def sameForm (r : Except PyErr WordForm) (f : WordForm) : Bool :=
  match r with
  | .ok g => g.eq f
  | .error _ => false

/-- The call raised this exception. -/
def raises {α : Type} (r : Except PyErr α) (e : PyErr) : Bool :=
  match r with
  | .ok _ => false
  | .error e' => decide (e' = e)

/-- `word.forms[:n] = texts` with `n = len(texts)` -/
def withFirst (w : Word) (texts : List Str) : Word := { w with forms := texts ++ w.forms.drop texts.length }

/-- `Word.create_test_word(type, prefix, properties=...)`, the value if it returned. -/
def testWord (t : WordType) (pre : Str) (rs : List Rec) : Word :=
  match Word.createTestWord t pre [] (some (props rs)) with
  | .ok w => w
  | .error _ => ⟨t, [], props rs⟩

end Utg
