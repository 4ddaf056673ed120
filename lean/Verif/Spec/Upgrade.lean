import Verif.Model.Migrations
import Verif.Spec.Migrations
/-!
# Specification: upgrading a saved dictionary (C135)
-/

namespace Utg.Spec
open Py

/-- The documented upgrade of one saved word: the three migrations in order, then `Word.deserialize`
(utg/migrations/m_0007_reduce_words_forms.py:7-9, m_0008_lower_animiality_nearest_priority.py:7-9, m_0009_pronoun_modernization.py:7-9,
`Word.deserialize` in utg/words.py). -/
def upgraded (d : WordData) : Except PyErr Word := do
  let d1 ← M0007.migrate d
  let d2 ← M0008.migrate d1
  let d3 ← M0009.migrate d2
  Word.deserialize d3

/-- Combinations whose form the upgrade keeps: everything but the comparative (see C70). -/
def Kept (m : List Rec) : Prop := m ≠ [.ADJECTIVE_FORM_FULL, .GRADE_COMPARATIVE]

instance (m : List Rec) : Decidable (Kept m) := by unfold Kept; infer_instance

end Utg.Spec
