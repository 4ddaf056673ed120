import Verif.Props.Checked
/-! # The example of README.rst, lines 83-137, run in the model

It meets the hypotheses of the theorems about templates (C44, C46, C47, C49, C50), and shows the model computing the
documented result. -/

namespace Utg
open Py Spec

/-- README.rst: the noun "монета". -/
def rmCoin : Word := ⟨.NOUN,
  [str! "монета", str! "монеты", str! "монете", str! "монету", str! "монетой", str! "монете",
   str! "монеты", str! "монет", str! "монетам", str! "монеты", str! "монетами", str! "монетах",
   str! "монеты", str! "монет", str! "монетам", str! "монеты", str! "монетами", str! "монетах"],
  .new [.record .ANIMALITY_INANIMATE, .record .GENDER_FEMININE]⟩

/-- README.rst: the verb "подарить", with five forms given. -/
def rmAction : Word := ⟨.VERB,
  [str! "подарить", str! "подарил", str! "подарило", str! "подарила", str! "подарили"] ++ List.replicate 15 [],
  .new [.record .ASPECT_PERFECTIVE, .record .VOICE_DIRECT]⟩

/-- README.rst: the external "hero". -/
def rmHero : Word := ⟨.NOUN,
  [str! "герой", str! "героя", str! "герою", str! "героя", str! "героем", str! "герое",
   str! "герои", str! "героев", str! "героям", str! "героев", str! "героями", str! "героях",
   str! "герои", str! "героев", str! "героям", str! "героев", str! "героями", str! "героях"],
  .new [.record .ANIMALITY_ANIMATE, .record .GENDER_MASCULINE]⟩

/-- README.rst: the external "npc". -/
def rmNpc : Word := ⟨.NOUN,
  [str! "русалка", str! "русалки", str! "русалке", str! "русалку", str! "русалкой", str! "русалке",
   str! "русалки", str! "русалок", str! "русалкам", str! "русалок", str! "русалками", str! "русалках",
   str! "русалки", str! "русалок", str! "русалкам", str! "русалок", str! "русалками", str! "русалках"],
  .new [.record .ANIMALITY_ANIMATE, .record .GENDER_FEMININE]⟩

/-- The externals of the README. -/
def rmExternals : Externals :=
  [(str! "hero", WordForm.new rmHero), (str! "npc", WordForm.new rmNpc), (str! "coins", integerForm 125)]

/-- The verb after `autofill_missed_forms()`. (The present singular is filled from the past plural: the positions left open
count as agreeing.) -/
def rmFilled : Word := { rmAction with
  forms := [str! "подарить", str! "подарил", str! "подарило", str! "подарила", str! "подарили"] ++
    List.replicate 12 (str! "подарили") ++ [str! "подарить", str! "подарили", str! "подарили"] }

/-- The text of the README template. -/
def rmText : Str := str! "[Npc] [подарил|npc] [hero|дт] [coins] [монета|coins|вн]."

/-- `action_word.autofill_missed_forms()` -/
example : rmAction.autofillMissedForms = .ok rmFilled := by decide +kernel

theorem rmCoin_accepted : Accepted rmCoin := ⟨rmCoin.type, rmCoin.forms, rmCoin.properties, built_wf (.new _ (by simp)), by decide +kernel⟩
theorem rmFilled_accepted : Accepted rmFilled := ⟨rmFilled.type, rmFilled.forms, rmFilled.properties, built_wf (.new _ (by simp)), by decide +kernel⟩
theorem rmHero_accepted : Accepted rmHero := ⟨rmHero.type, rmHero.forms, rmHero.properties, built_wf (.new _ (by simp)), by decide +kernel⟩
theorem rmNpc_accepted : Accepted rmNpc := ⟨rmNpc.type, rmNpc.forms, rmNpc.properties, built_wf (.new _ (by simp)), by decide +kernel⟩

/-- The README example, from the words to the sentence. -/
example : ∃ d t, Dictionary.new exPy [rmCoin, rmFilled] = .ok d ∧
    Template.empty.parse exPy rmText [str! "hero", str! "npc", str! "coins"] = .ok t ∧
    t.getUndictionariedWords [str! "hero", str! "npc", str! "coins"] d = [] ∧
    t.substitute exPy rmExternals d = .ok (str! "Русалка подарила герою 125 монет.") := by
  have h : (do
      let d ← Dictionary.new exPy [rmCoin, rmFilled]
      let t ← Template.empty.parse exPy rmText [str! "hero", str! "npc", str! "coins"]
      let r ← t.substitute exPy rmExternals d
      .ok (t.getUndictionariedWords [str! "hero", str! "npc", str! "coins"] d, r) : Except PyErr (List Str × Str)) =
      .ok ([], str! "Русалка подарила герою 125 монет.") := by decide +kernel
  cases hd : Dictionary.new exPy [rmCoin, rmFilled] with
  | error e => rw [hd] at h; cases h
  | ok d =>
    cases ht : Template.empty.parse exPy rmText [str! "hero", str! "npc", str! "coins"] with
    | error e => rw [hd, ht] at h; cases h
    | ok t =>
      rw [hd, ht] at h
      refine ⟨d, t, rfl, rfl, ?_⟩
      cases hr : t.substitute exPy rmExternals d with
      | error e => simp [bind, Except.bind, hr] at h
      | ok r =>
        simp [bind, Except.bind, hr] at h
        exact ⟨h.1, by rw [h.2]⟩

/-- The README externals and dictionary meet the hypotheses of C49 and C50. -/
example : GoodExternals rmExternals ∧ GoodDictionary (history exPy [rmCoin, rmFilled]) ∧
    (∀ n f, rmExternals.get? n = some f → NonEmptyForms f) ∧
    (∀ n, n ∈ [str! "hero", str! "npc", str! "coins"] ↔ ∃ f, rmExternals.get? n = some f) ∧ ∀ c, exPy.upperC c ≠ [] := by
  refine ⟨?_, goodDictionary_history _ _ ?_, ?_, ?_, ?_⟩
  · intro n f hf
    simp only [rmExternals, Dict.get?] at hf
    split at hf
    · injection hf with hf; subst hf; exact goodForm_new rmHero_accepted (by simp) (by simp)
    · split at hf
      · injection hf with hf; subst hf; exact goodForm_new rmNpc_accepted (by simp) (by simp)
      · split at hf
        · injection hf with hf; subst hf; exact integerForm_good 125
        · cases hf
  · intro w hw; simp at hw; rcases hw with rfl | rfl
    · exact rmCoin_accepted
    · exact rmFilled_accepted
  · intro n f hf
    simp only [rmExternals, Dict.get?] at hf
    split at hf
    · injection hf with hf; subst hf; exact (by decide +kernel : ∀ x ∈ rmHero.forms, x ≠ [])
    · split at hf
      · injection hf with hf; subst hf; exact (by decide +kernel : ∀ x ∈ rmNpc.forms, x ≠ [])
      · split at hf
        · injection hf with hf; subst hf; exact (by decide +kernel : ∀ x ∈ (integerForm 125).word.forms, x ≠ [])
        · cases hf
  · intro n
    simp only [rmExternals, Dict.get?, List.mem_cons, List.not_mem_nil, or_false]
    constructor
    · rintro (rfl | rfl | rfl)
      · exact ⟨_, rfl⟩
      · exact ⟨_, rfl⟩
      · exact ⟨_, rfl⟩
    · rintro ⟨f, hf⟩
      split at hf
      · rename_i h; exact .inl h.symm
      · split at hf
        · rename_i h; exact .inr (.inl h.symm)
        · split at hf
          · rename_i h; exact .inr (.inr h.symm)
          · cases hf
  · intro c; simp only [exPy]; split <;> simp

end Utg
