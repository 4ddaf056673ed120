import Verif.Spec.Reference
/-!
# Two ways to write a template

Nothing here is used by the model.
-/

namespace Utg.Spec
open Py

/-- The two texts have the same literal text, and their variables, from left to right, are in the relation `R`. There are no percent signs in
variables. -/
def SameBut (R : Str → Str → Prop) (text text' : Str) : Prop :=
  ∃ l ps ps', Pieces text l ps ∧ Pieces text' l ps' ∧
    List.Forall₂ (fun p p' => p.2 = p'.2 ∧ '%' ∉ p.1 ∧ '%' ∉ p'.1 ∧ R p.1 p'.1) ps ps'

/-! ## Renaming externals -/

/-- The parts of two variables after a bar are the same but for the names: each, lower-cased and stripped, is the old and the new name of an
external, or both are the same text that is no name. -/
def RenamedPart (U : PyUni) (names : List Str) (ρ : Str → Str) (slug slug' : Str) : Prop :=
  ∃ part part', Stripped U (U.lower slug) part ∧ Stripped U (U.lower slug') part' ∧
    (part ∈ names ∧ part' = ρ part ∨ part ∉ names ∧ part' ∉ names.map ρ ∧ part' = part)

/-- Two variables are the same but for the names of externals: so are their parts; both heads begin with a capital letter, or neither does. -/
def RenamedVariable (U : PyUni) (names : List Str) (ρ : Str → Str) (v v' : Str) : Prop :=
  ∃ head head' slugs slugs' c c' id id', v = bracketed head slugs ∧ v' = bracketed head' slugs' ∧
    ('|' ∉ head ∧ '|' ∉ head' ∧ (∀ s ∈ slugs, '|' ∉ s) ∧ ∀ s ∈ slugs', '|' ∉ s) ∧
    Stripped U head (c :: id) ∧ Stripped U head' (c' :: id') ∧ U.isUpper c = U.isUpper c' ∧
    (U.lower (c :: id) ∈ names ∧ U.lower (c' :: id') = ρ (U.lower (c :: id)) ∨
      U.lower (c :: id) ∉ names ∧ U.lower (c' :: id') ∉ names.map ρ ∧ U.lower (c' :: id') = U.lower (c :: id)) ∧
    List.Forall₂ (RenamedPart U names ρ) slugs slugs'

/-- The same word forms are given under the old and under the new names, and nothing else is given. -/
def RenamedCast (names : List Str) (ρ : Str → Str) (ext ext' : Externals) : Prop :=
  (∀ n ∈ names, ∃ f, ext.get? n = some f ∧ ext'.get? (ρ n) = some f) ∧
  (∀ n, n ∉ names → ext.get? n = none) ∧ ∀ n, n ∉ names.map ρ → ext'.get? n = none

/-! ## Mentions -/

/-- What is mentioned in a variable after the head: a value of a property, or the name of an external. -/
inductive Mention where
  | value (r : Rec)
  | name (n : Str)
  deriving DecidableEq

/-- What the parts of a variable mention, in order. Empty ids in a list of properties mention nothing. -/
inductive Mentions (U : PyUni) (names : List Str) : List Str → List Mention → Prop
  | nil : Mentions U names [] []
  | name (slug n : Str) (slugs : List Str) (ms : List Mention) : Stripped U (U.lower slug) n → n ∈ names → Mentions U names slugs ms →
      Mentions U names (slug :: slugs) (.name n :: ms)
  | values (slug list : Str) (ids : List Str) (rs : List Rec) (slugs : List Str) (ms : List Mention) : Stripped U (U.lower slug) list →
      list ∉ names → list = [','].intercalate ids → ids ≠ [] → (∀ id ∈ ids, ',' ∉ id) → ids.filter (· ≠ []) = rs.map Rec.verboseId →
      Mentions U names slugs ms → Mentions U names (slug :: slugs) (rs.map .value ++ ms)

/-- What a mention says about the property `g`: the value itself, or what the external specifies. -/
def Mention.says (ext : Externals) (g : Group) : Mention → Option Rec
  | .value r => if r.group = g then some r else none
  | .name n => match ext.get? n with
    | none => none
    | some f => if f.properties.isSpecified g then f.properties.get g else none

/-- The last thing said about the property `g`. -/
def lastSaid (ext : Externals) (g : Group) (ms : List Mention) : Option Rec := (ms.filterMap (Mention.says ext g)).getLast?

/-- The names mentioned, in order. -/
def namesIn (ms : List Mention) : List Str := ms.filterMap fun m => match m with | .name n => some n | .value _ => none

/-- The mentions amount to the same: the same names in the same order, and the same last word about each property. -/
def Equivalent (ext : Externals) (ms ms' : List Mention) : Prop :=
  namesIn ms = namesIn ms' ∧ ∀ g, lastSaid ext g ms = lastSaid ext g ms'

/-- The same head, and mentions that amount to the same. -/
def SaysTheSame (U : PyUni) (names : List Str) (ext : Externals) (v v' : Str) : Prop :=
  ∃ head slugs slugs' c id ms ms', v = bracketed head slugs ∧ v' = bracketed head slugs' ∧
    ('|' ∉ head ∧ (∀ s ∈ slugs, '|' ∉ s) ∧ ∀ s ∈ slugs', '|' ∉ s) ∧ Stripped U head (c :: id) ∧
    Mentions U names slugs ms ∧ Mentions U names slugs' ms' ∧ Equivalent ext ms ms'

end Utg.Spec
