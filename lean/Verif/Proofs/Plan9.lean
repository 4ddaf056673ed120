import Verif.Spec.Migrations
import Verif.Model.Migrations.M0009
import Verif.Proofs.Plan8 -- one after the other: each takes several GB of memory
/-! # Where m_0009 takes each form from -/

namespace Utg
open Py Spec

/-- Where m_0009 takes the form for a combination from. -/
def source9 : WordType → List Rec → List Rec
  | .PRONOUN, _ :: n :: c :: g => n :: c :: .PERSON_THIRD :: g
  | _, m => m

set_option maxHeartbeats 4000000 in
theorem plan9 (t : WordType) : (M0009.newCaches t).keys.mapM (getNearestOldIndex · (M0009.oldCaches t)) =
    .ok ((layoutNow t).map fun m => (layoutBefore9 t).idxOf (source9 t m)) := by cases t <;> decide +kernel


end Utg
