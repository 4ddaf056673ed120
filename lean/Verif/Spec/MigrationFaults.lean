import Verif.Spec.AnyMigrations
/-! # What a migration raises, exactly -/

namespace Utg.Spec
open Py

/-- Reading the field `key` fails: `TypeError` if this is no object, `KeyError` if it is an object without that field. -/
inductive FieldFault (key : Str) : Json → LoadErr → Prop
  | noObject (j : Json) : (∀ items, j ≠ .obj items) → FieldFault key j .TypeError
  | missing (items : List (Str × Json)) : (∀ x, ¬ HasField (.obj items) key x) → FieldFault key (.obj items) (.KeyError key)

/-- The forms of a document cannot be taken by position: `first` is the number of the form that is wanted first, `need` forms are wanted. -/
inductive FormsFault (need first : Nat) (j : Json) : LoadErr → Prop
  | field (e : LoadErr) : FieldFault (str! "forms") j e → FormsFault need first j e
  | other (x : Json) : HasField j (str! "forms") x → ¬ IsCompound x → (∀ parts, ¬ Listed x parts) → FormsFault need first j .TypeError
  | keys (items : List (Str × Json)) : HasField j (str! "forms") (.obj items) → FormsFault need first j (.KeyError (pyStr first))
  | short (x : Json) (parts : List Json) : HasField j (str! "forms") x → Listed x parts → parts.length < need →
      FormsFault need first j (.other .IndexError)

/-- What m_0007, m_0008 and m_0009 cannot take. -/
inductive LayoutFault (need first : WordType → Nat) (j : Json) : LoadErr → Prop
  | type (e : LoadErr) : FieldFault (str! "type") j e → LayoutFault need first j e
  | compound (x : Json) : HasField j (str! "type") x → IsCompound x → LayoutFault need first j .TypeError
  | unknown (x : Json) : HasField j (str! "type") x → ¬ IsCompound x → (∀ t : WordType, ¬ IsNumber x t.value) → LayoutFault need first j (.Lookup x)
  | forms (x : Json) (t : WordType) (e : LoadErr) : HasField j (str! "type") x → IsNumber x t.value → FormsFault (need t) (first t) j e →
      LayoutFault need first j e

/-- The form that m_0007 wants first. -/
def first7 : WordType → Nat
  | .PARTICIPLE => 48
  | _ => 0

/-- The form that m_0008 wants first. -/
def first8 (_ : WordType) : Nat := 0

/-- The form that m_0009 wants first. -/
def first9 : WordType → Nat
  | .PRONOUN => 6
  | _ => 0

/-- What m_0001 cannot take: of an adjective form 132 is wanted first, of a participle form 49. -/
inductive Fault1 (j : Json) : LoadErr → Prop
  | type (e : LoadErr) : FieldFault (str! "type") j e → Fault1 j e
  | adjective (x : Json) (e : LoadErr) : HasField j (str! "type") x → IsNumber x 1 → FormsFault 133 132 j e → Fault1 j e
  | participle (x : Json) (e : LoadErr) : HasField j (str! "type") x → IsNumber x 4 → FormsFault 187 49 j e → Fault1 j e

/-- What m_0002 cannot take: only nouns can be wrong. -/
inductive Fault2 (plus : Json → Json → Json) (j : Json) : LoadErr → Prop
  | type (e : LoadErr) : FieldFault (str! "type") j e → Fault2 plus j e
  | patches (x : Json) (e : LoadErr) : HasField j (str! "type") x → IsNumber x 0 → FieldFault (str! "patches") j e → Fault2 plus j e
  | forms (x patches : Json) (e : LoadErr) : HasField j (str! "type") x → IsNumber x 0 → HasField j (str! "patches") patches →
      FieldFault (str! "forms") j e → Fault2 plus j e
  /-- without patches the forms must be a list -/
  | noList (x patches forms : Json) : HasField j (str! "type") x → IsNumber x 0 → HasField j (str! "patches") patches → Nothing patches →
      HasField j (str! "forms") forms → (∀ items, forms ≠ .arr items) → Fault2 plus j .TypeError
  /-- patches that are an object have texts as keys -/
  | keys (x forms : Json) (kv : Str × Json) (items : List (Str × Json)) : HasField j (str! "type") x → IsNumber x 0 →
      HasField j (str! "patches") (.obj (kv :: items)) → HasField j (str! "forms") forms → Fault2 plus j (.KeyError (str! "7"))
  /-- patches that are a number -/
  | number (x patches forms : Json) : HasField j (str! "type") x → IsNumber x 0 → HasField j (str! "patches") patches → ¬ Nothing patches →
      ¬ IsCompound patches → (∀ parts, ¬ Listed patches parts) → HasField j (str! "forms") forms → Fault2 plus j .TypeError
  /-- less than eight patches -/
  | short (x patches forms : Json) (parts : List Json) : HasField j (str! "type") x → IsNumber x 0 → HasField j (str! "patches") patches →
      ¬ Nothing patches → Listed patches parts → parts.length ≤ 7 → HasField j (str! "forms") forms → Fault2 plus j (.other .IndexError)
  /-- the eighth patch has no forms -/
  | patch (x patches forms patch : Json) (parts : List Json) (e : LoadErr) : HasField j (str! "type") x → IsNumber x 0 →
      HasField j (str! "patches") patches → Listed patches parts → parts[7]? = some patch → HasField j (str! "forms") forms →
      FieldFault (str! "forms") patch e → Fault2 plus j e
  /-- they cannot be added -/
  | sum (x patches forms patch more : Json) (parts : List Json) : HasField j (str! "type") x → IsNumber x 0 →
      HasField j (str! "patches") patches → Listed patches parts → parts[7]? = some patch → HasField j (str! "forms") forms →
      HasField patch (str! "forms") more → (∀ new, ¬ Joined plus forms more new) → Fault2 plus j .TypeError

/-- What m_0004 cannot take: only prepositions can be wrong. -/
inductive Fault4 (j : Json) : LoadErr → Prop
  | type (e : LoadErr) : FieldFault (str! "type") j e → Fault4 j e
  | forms (x : Json) (e : LoadErr) : HasField j (str! "type") x → IsNumber x 10 → FieldFault (str! "forms") j e → Fault4 j e
  | noList (x forms : Json) : HasField j (str! "type") x → IsNumber x 10 → HasField j (str! "forms") forms → (∀ items, forms ≠ .arr items) →
      Fault4 j .AttributeError
  | empty (x : Json) : HasField j (str! "type") x → IsNumber x 10 → HasField j (str! "forms") (.arr []) → Fault4 j (.other .IndexError)

/-- What m_0005 cannot take: only participles can be wrong. -/
inductive Fault5 (j : Json) : LoadErr → Prop
  | type (e : LoadErr) : FieldFault (str! "type") j e → Fault5 j e
  | properties (x : Json) (e : LoadErr) : HasField j (str! "type") x → IsNumber x 4 → FieldFault (str! "properties") j e → Fault5 j e
  | other (x properties : Json) : HasField j (str! "type") x → IsNumber x 4 → HasField j (str! "properties") properties →
      ¬ IsCompound properties → (∀ parts, ¬ Listed properties parts) → Fault5 j .TypeError
  /-- a list with the item `'5'`, or a text with a `5` -/
  | five (x properties : Json) (parts : List Json) : HasField j (str! "type") x → IsNumber x 4 → HasField j (str! "properties") properties →
      Listed properties parts → .str (str! "5") ∈ parts → Fault5 j .TypeError

end Utg.Spec
