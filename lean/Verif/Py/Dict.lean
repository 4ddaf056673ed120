/-!
# Python `dict`

An insertion-ordered dictionary (Python 3.7+) is the list of its items in insertion order.
-/

namespace Py

/-- A Python dictionary: items in insertion order. Dictionaries built by `set` from the empty one have distinct keys. -/
abbrev Dict (K V : Type) := List (K × V)

namespace Dict
variable {K V : Type} [DecidableEq K]

/-- `d.get(k)`. -/
def get? : Dict K V → K → Option V
  | [], _ => none
  | (k', v) :: d, k => if k' = k then some v else get? d k

/-- `k in d`. -/
def contains (d : Dict K V) (k : K) : Bool := (get? d k).isSome

/-- `d[k] = v`: keeps the position of an existing key, appends a new one. -/
def set : Dict K V → K → V → Dict K V
  | [], k, v => [(k, v)]
  | (k', v') :: d, k, v => if k' = k then (k', v) :: d else (k', v') :: set d k v

/-- `d.update(e)`. -/
def update (d e : Dict K V) : Dict K V := e.foldl (fun d kv => set d kv.1 kv.2) d

/-- `d.keys()`. -/
def keys (d : Dict K V) : List K := d.map Prod.fst

/-- `d == e`: same keys with equal values, in any order. -/
def beq [DecidableEq V] (d e : Dict K V) : Bool :=
  d.length == e.length && d.all fun kv => get? e kv.1 == some kv.2

end Dict
end Py
