import Verif.Py.Str
import Mathlib.Data.Nat.Digits.Defs
/-!
# Specification vocabulary: texts that write an integer

The tables of white space (`isIntBlank`) and of digits (`decimalValue`) are those of Unicode.
-/

namespace Utg.Spec
open Py

/-- A group of digits, most significant first, with their values. -/
def IsGroup (group : Str) (values : List Nat) : Prop := group ≠ [] ∧ List.Forall₂ (fun c d => decimalValue c = some d) group values

/-- The number with the given decimal digits, most significant first. -/
def ofDecimal (values : List Nat) : Nat := Nat.ofDigits 10 values.reverse

/-- The text writes the integer: white space, perhaps a sign, groups of digits joined by underscores, white space. -/
def Writes (s : Str) (n : Int) : Prop :=
  ∃ (before after sign : Str) (groups : List Str) (values : List (List Nat)),
    s = before ++ sign ++ ['_'].intercalate groups ++ after ∧
    (∀ c ∈ before ++ after, isIntBlank c = true) ∧
    groups ≠ [] ∧ List.Forall₂ IsGroup groups values ∧
    (sign = [] ∧ n = ofDecimal values.flatten ∨ sign = ['+'] ∧ n = ofDecimal values.flatten ∨ sign = ['-'] ∧ n = -(ofDecimal values.flatten : Int))

end Utg.Spec
