import Verif.Props.Migrations
/-! # C02: the presets -/

namespace Utg
open Py Spec

/-- C02: what the table of presets says is true of every slot: wherever a slot has the first record of a preset, and the part of speech has the
property of the second one, the slot has the second one. It says that a countable form is a plural, and that is all it says. -/
theorem C02_presets : (∀ e ∈ PRESETS, ∀ t, ∀ m ∈ layoutNow t, e.1 ∈ m → e.2.group ∈ t.schema → e.2 ∈ m) ∧
    (∀ t m, m ∈ layoutNow t → .NOUN_FORM_COUNTABLE ∈ m → .NUMBER_PLURAL ∈ m) ∧ PRESETS = [(.NOUN_FORM_COUNTABLE, .NUMBER_PLURAL)] := by
  refine ⟨?_, ?_, rfl⟩
  · intro e he t
    revert e
    cases t <;> decide +kernel
  · intro t
    cases t <;> decide +kernel

/-- There are such slots. -/
example : ∃ m ∈ layoutNow .NOUN, .NOUN_FORM_COUNTABLE ∈ m := by decide +kernel

end Utg
