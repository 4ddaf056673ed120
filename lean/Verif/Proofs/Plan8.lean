import Verif.Spec.Migrations
import Verif.Model.Migrations.M0008
import Verif.Proofs.Plan7 -- one after the other: each takes several GB of memory
/-! # Where m_0008 takes each form from -/

namespace Utg
open Py Spec

set_option maxHeartbeats 4000000 in
theorem plan8 (t : WordType) : (M0008.newCaches t).keys.mapM (getNearestOldIndex · (M0008.oldCaches t)) =
    .ok ((layoutBefore9 t).map fun m => (layoutBefore8 t).idxOf m) := by cases t <;> decide +kernel


end Utg
