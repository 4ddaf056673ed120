import Verif.Model.Migrations.Small
import Verif.Model.Migrations.M0007
import Verif.Model.Migrations.M0008
import Verif.Model.Migrations.M0009
/-!
# The frozen-table migrations
-/

namespace Utg

/-- `m_0007.migrate` (utg/migrations/m_0007_reduce_words_forms.py:7-9). -/
def M0007.migrate := migrateWith M0007.oldCaches M0007.newCaches

/-- `m_0008.migrate` (utg/migrations/m_0008_lower_animiality_nearest_priority.py:7-9). -/
def M0008.migrate := migrateWith M0008.oldCaches M0008.newCaches

/-- `m_0009.migrate` (utg/migrations/m_0009_pronoun_modernization.py:7-9). -/
def M0009.migrate := migrateWith M0009.oldCaches M0009.newCaches

end Utg
