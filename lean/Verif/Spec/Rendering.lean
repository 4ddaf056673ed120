import Verif.Model.Rendering
/-! # What substitutions with shared objects should give -/

namespace Utg.Spec
open Py

/-- The word form named `f` as a value: its word, its properties and the properties of its text. -/
def formValue (σ : Store) (f : Nat) : Option WordForm := do
  let r ← σ.forms[f]?
  let w ← σ.words[r.word]?
  some { word := w, properties := r.properties, formProperties := r.formProperties }

/-- Named word forms as values. -/
def valuesOf (σ : Store) (refs : Dict Str Nat) : Dict Str WordForm := refs.filterMap fun e => (formValue σ e.2).map fun v => (e.1, v)

/-- All named word forms exist. -/
def Valid (σ : Store) (refs : Dict Str Nat) : Prop := ∀ e ∈ refs, formValue σ e.2 ≠ none

/-- What a call should give if words never change: the text computed from values. -/
def expected (U : PyUni) (σ : Store) : List RenderEvent → List (Except PyErr Str)
  | [] => []
  | .substitute t externals dictionary :: es => t.substitute U (valuesOf σ externals) (valuesOf σ dictionary) :: expected U σ es
  | .form f :: es => (match formValue σ f with
    | some v => v.form U
    | none => .error .AttributeError) :: expected U σ es
  | .run _ :: es => expected U σ es
  | .setForms _ _ :: es => expected U σ es

/-- The event is possible with these objects, and changes no word. -/
def Quiet (σ : Store) : RenderEvent → Prop
  | .substitute _ externals dictionary => Valid σ externals ∧ Valid σ dictionary
  | .form _ => True
  | .run _ => True
  | .setForms _ _ => False

/-- How many steps program `i` is given. -/
def turns (i : Nat) : List RenderEvent → Nat
  | [] => 0
  | .run j :: es => (if j = i then 1 else 0) + turns i es
  | _ :: es => turns i es

/-- What a finished call has returned or raised. -/
def resultOf (m : Machine) (i : Nat) : Option (Except PyErr Str) :=
  match m.threads[i]? with
  | some (.ret r) => some r
  | _ => none

/-- No substitution of the template is a preposition. -/
def NoPrepositions (σ : Store) (t : Template) (externals dictionary : Dict Str Nat) : Prop :=
  ∀ s ∈ t.substitutions, ∀ v, s.baseForm (valuesOf σ externals) (valuesOf σ dictionary) = .ok v → v.word.type ≠ .PREPOSITION

end Utg.Spec
