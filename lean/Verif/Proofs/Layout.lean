import Verif.Spec.Layout
import Verif.Proofs.Words
/-! # The documented list of forms is the one of the code -/

namespace Utg
open Py Spec

/-- The layout of today lists the slots of the code. -/
theorem layoutNow_eq (t : WordType) : layoutNow t = (invertedCache t).map (·.filterMap id) := by cases t <;> decide +kernel

theorem layoutNow_length (t : WordType) : (layoutNow t).length = (wordsCache t).length := by
  rw [layoutNow_eq, wordsCache_length, List.length_map]

end Utg
