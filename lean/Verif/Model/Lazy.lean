/-!
# `utg/utils.py`
-/

namespace Utg

/-- An object with one lazy attribute: its ordinary state and the hidden attribute `_lazy__name`, absent at first
(utg/utils.py:7). -/
structure LazyObj (S V : Type) where
  state : S
  hidden : Option V

/-- The getter (utg/utils.py:9-13): returns the value and the object with the attribute set. -/
def LazyObj.read {S V : Type} (func : S → V) (o : LazyObj S V) : V × LazyObj S V :=
  match o.hidden with
  | some v => (v, o)
  | none => (func o.state, { o with hidden := some (func o.state) })

/-- The deleter (utg/utils.py:15-17). -/
def LazyObj.delete {S V : Type} (o : LazyObj S V) : LazyObj S V := { o with hidden := none }

/-- Any other mutation of the object; it does not know about the hidden attribute. -/
def LazyObj.mutate {S V : Type} (s : S) (o : LazyObj S V) : LazyObj S V := { o with state := s }

end Utg
