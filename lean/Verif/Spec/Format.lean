import Verif.Py.Str
/-!
# The grammar of the text of a saved template

A template is filled with Python's `%` operator. Parsed templates contain only `%s` and `%%`; saved data may contain any text. This is the
documented grammar of `%`-formatting for strings: `%`, flags, width, precision, size, letter.
-/

namespace Utg.Spec
open Py

/-- A conversion as it is written. -/
structure Field where
  flags : Str
  width : Str
  precision : Option Str
  size : Option Char
  letter : Char

/-- How it is written. -/
def Field.source (f : Field) : Str :=
  '%' :: (f.flags ++ (f.width ++ ((match f.precision with | none => [] | some p => '.' :: p) ++ (f.size.toList ++ [f.letter]))))

/-- The number written with these digits. -/
def decimal (digits : Str) : Nat := digits.foldl (fun n c => n * 10 + (c.toNat - 48)) 0

/-- The fields that can show a string: flags `-+ #0`, a width without leading zeros (they are flags), a precision, sizes `hlL` and the
letters `s`, `r`, `a`, `c` and `%`. Numbers are limited by the machine. -/
structure Field.Valid (f : Field) : Prop where
  flags : ∀ c ∈ f.flags, c ∈ ['-', '+', ' ', '#', '0']
  width : (∀ c ∈ f.width, c.isDigit = true) ∧ f.width.head? ≠ some '0' ∧ decimal f.width < 2 ^ 63
  precision : ∀ p, f.precision = some p → (∀ c ∈ p, c.isDigit = true) ∧ decimal p < 2 ^ 31
  size : ∀ c, f.size = some c → c ∈ ['h', 'l', 'L']
  letter : f.letter ∈ ['s', 'r', 'a', 'c', '%']

/-- The field puts this in place of a text: the text (`s`), its `repr` (`r`) or `ascii` (`a`) cut to the precision, or the text if it is one
letter (`c`); then padded with blanks to the width, on the right if `-` is among the flags. -/
inductive Field.Shows (U : PyUni) (f : Field) (text : Str) : Str → Prop
  | mk (value cut : Str)
    (hvalue : (f.letter = 's' ∧ value = text) ∨ (f.letter = 'r' ∧ value = pyRepr U text) ∨ (f.letter = 'a' ∧ value = pyAscii U text) ∨
      (f.letter = 'c' ∧ value = text ∧ text.length = 1))
    (hcut : cut = match f.precision with
      | none => value
      | some p => if f.letter = 'c' then value else value.take (decimal p)) :
    Shows U f text (if '-' ∈ f.flags then cut ++ List.replicate (decimal f.width - cut.length) ' '
      else List.replicate (decimal f.width - cut.length) ' ' ++ cut)

/-- A part of the text of a template. -/
inductive TextPart where
  | char (c : Char)
  | field (f : Field)

/-- How it is written. -/
def TextPart.source : TextPart → Str
  | .char c => [c]
  | .field f => f.source

/-- A character other than `%`, or a valid field. -/
def TextPart.Valid : TextPart → Prop
  | .char c => c ≠ '%'
  | .field f => f.Valid

/-- Filling the fields with texts, one for each field whose letter is not `%`, in order. -/
inductive Filled (U : PyUni) : List TextPart → List Str → Str → Prop
  | nil : Filled U [] [] []
  | char {ps args out} (c : Char) : Filled U ps args out → Filled U (.char c :: ps) args (c :: out)
  | percent {ps args out} (f : Field) (h : f.letter = '%') : Filled U ps args out → Filled U (.field f :: ps) args ('%' :: out)
  | field {ps args out} (f : Field) (h : f.letter ≠ '%') (text shown : Str) (hs : f.Shows U text shown) :
    Filled U ps args out → Filled U (.field f :: ps) (text :: args) (shown ++ out)

end Utg.Spec
