import Verif.Model.MixedFilling
import Verif.Spec.MixedProperties
/-! # Word forms of which all objects are sound -/

namespace Utg.Spec
open Py

/-- All `Properties` objects of the word form are sound. -/
structure SoundForm (f : MixedForm) : Prop where
  word : Sound f.word.properties.data
  properties : Sound f.properties.data
  formProperties : Sound f.formProperties.data

/-- The externals with nothing but properties. -/
def knownExternals (ext : MixedExternals) : Externals := ext.map fun kv => (kv.1, knownForm kv.2)

end Utg.Spec
