import Verif.Model.MixedProperties
/-! # What of an object is a property, and what is not -/

namespace Utg.Spec
open Py

/-- Under a property there is a record of it, under anything else there is no such record; no key occurs twice. Every object that was made by
`Properties` is like this, and so is a `Dictionary`. -/
structure Sound (d : MixedData) : Prop where
  nodup : (d.map Prod.fst).Nodup
  property : ∀ g v, (Sum.inl g, v) ∈ d → ∃ r : Rec, v = .inl r ∧ r.group = g
  foreign : ∀ k v, (Sum.inr k, v) ∈ d → ∃ x, v = .inr x

/-- There is something in it that is no property. -/
def Carries (d : MixedData) : Prop := ∃ k v, (Sum.inr k, v) ∈ d

/-- The properties in it, in the same order. -/
def knownPart (d : MixedData) : Properties :=
  ⟨d.filterMap fun kv => match kv with
    | (.inl g, .inl r) => some (g, r)
    | _ => none⟩

/-- The same arguments, without what is no property. -/
def knownArgs (argv : List MixedArg) : List Arg :=
  argv.filterMap fun a => match a with
    | .record r => some (.record r)
    | .holder d => some (.props (knownPart d))
    | _ => none

/-- The word with nothing but properties. -/
def knownWord (w : MixedWord) : Word := ⟨w.type, w.forms, knownPart w.properties.data⟩

/-- The word form with nothing but properties. -/
def knownForm (f : MixedForm) : WordForm := ⟨knownWord f.word, knownPart f.properties.data, knownPart f.formProperties.data⟩

/-- The dictionary with nothing but properties. -/
def knownDictionary (d : MixedDictionary) : Dictionary := d.map fun kv => (kv.1, knownForm kv.2)

/-- The word forms of a dictionary come from words with sound properties and are what `all_forms` gives. -/
def SoundDictionary (d : MixedDictionary) : Prop := ∀ kv ∈ d, Sound kv.2.word.properties.data ∧ ∃ i, kv.2.word.nthForm i = .ok kv.2

end Utg.Spec
