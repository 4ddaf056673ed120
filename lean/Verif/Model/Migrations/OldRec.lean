import Verif.Model.Migrations.Common
/-!
# Names used by old migrations

`m_0003` and `m_0006` refer to `VERB_FORM.CONDITIONAL`, which `utg/relations.py:35` has commented out.
-/

namespace Utg
open Py

/-- An expression `RELATION.RECORD` in a migration: a record of `utg/relations.py`, or the removed one. -/
inductive OldRec where
  | cur (r : Rec)
  | VERB_FORM_CONDITIONAL
  deriving DecidableEq, Repr

/-- A key literal of an old migration. -/
abbrev OldKey := List (Option OldRec)

/-- Evaluating `RELATION.RECORD` against the current `utg/relations.py`: the removed record is an `AttributeError`. -/
def OldRec.eval : OldRec → Except PyErr Rec
  | .cur r => .ok r
  | .VERB_FORM_CONDITIONAL => .error .AttributeError

/-- Evaluating a key literal. -/
def evalKey (k : OldKey) : Except PyErr Key := k.mapM fun o => match o with
  | none => .ok none
  | some r => do .ok (some (← r.eval))

/-- Evaluating a table literal at import time. -/
def evalTable (d : Dict OldKey Nat) : Except PyErr (Dict Key Nat) := d.mapM fun e => do .ok (← evalKey e.1, e.2)

end Utg
