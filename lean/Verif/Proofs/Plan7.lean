import Verif.Spec.Migrations
import Verif.Model.Migrations.M0007
/-! # Where m_0007 takes each form from -/

namespace Utg
open Py Spec

/-- Where m_0007 takes the form for a combination from. -/
def source7 : WordType → List Rec → List Rec
  | .ADJECTIVE, m => if m = [.ADJECTIVE_FORM_FULL, .GRADE_COMPARATIVE] then [.ADJECTIVE_FORM_SHORT, .NUMBER_PLURAL] else m
  | .PARTICIPLE, m => if m.head? = some .PARTICIPLE_FORM_FULL then m ++ [.VOICE_REVERSE] else m
  | _, m => m

set_option maxHeartbeats 4000000 in
theorem plan7 (t : WordType) : (M0007.newCaches t).keys.mapM (getNearestOldIndex · (M0007.oldCaches t)) =
    .ok ((layoutBefore8 t).map fun m => (layoutBefore7 t).idxOf (source7 t m)) := by cases t <;> decide +kernel


end Utg
