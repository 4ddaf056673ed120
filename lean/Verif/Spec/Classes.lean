import Verif.Spec.Integers
import Verif.Spec.Expressive
/-! # Replacing a number by another one -/

namespace Utg.Spec
open Py

/-- The two numbers are treated alike: they are of one agreement class, and both are one or both are not. -/
def TreatedAlike (n m : Int) : Prop := agreementClass n = agreementClass m ∧ grammaticalNumber n = grammaticalNumber m

/-- The second externals have the number `m` where the first have `n`, and are the same otherwise. -/
structure NumberReplaced (name : Str) (n m : Int) (ext ext' : Externals) : Prop where
  before : ∃ f, constructIntegerFresh n = .ok f ∧ ext.get? name = some f
  after : ∃ f, constructIntegerFresh m = .ok f ∧ ext'.get? name = some f
  others : ∀ x, x ≠ name → ext.get? x = ext'.get? x

end Utg.Spec
