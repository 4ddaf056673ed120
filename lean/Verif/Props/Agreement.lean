import Verif.Props.Readme
/-! # C80: a word agrees with a variable -/

namespace Utg.Spec
open Py

/-- The property `g` of a word `base` put in agreement with the variable `hero`: the word's own if it has one, else the
variable's if it specifies one, else the one recognised in the text. -/
def agreed (base hero : WordForm) (g : Group) : Option Rec :=
  if base.word.properties.isSpecified g then base.word.properties.get g
  else if hero.properties.isSpecified g then hero.properties.get g
  else base.properties.get g

end Utg.Spec

namespace Utg
open Py Spec

/-- C80: in `[word|variable]`, where the variable is no number and the word no preposition, the word takes the form of the slot
that the agreed properties determine, with a capital if they say so. -/
theorem C80_agreement (U : PyUni) (ext : Externals) (d : Dictionary) (id name : Str) (base hero : WordForm)
    (he : GoodExternals ext) (hd : GoodDictionary d) (hr : Resolves ext d id base) (hh : ext.get? name = some hero)
    (hprep : base.word.type ≠ .PREPOSITION) (hint : hero.word.type ≠ .INTEGER)
    (ks : List (Option Key)) (hks : Word.getKeys base.word.type = .ok ks) (i : Nat) (k : Key) (hk : ks[i]? = some (some k))
    (h : ∀ (j : Nat) (g : Group) (r : Rec), base.word.type.schema[j]? = some g → k[j]? = some (some r) → agreed base hero g = some r) :
    ∃ s, base.word.forms[i]? = some s ∧
      Substitution.getText U ⟨id, [.ext name]⟩ ext d =
        if agreed base hero .WORD_CASE = some .WORD_CASE_UPPER then
          match s with
          | [] => .error .IndexError
          | c :: cs => .ok (U.upperC c ++ cs)
        else .ok s := by
  have hsub : GoodSubstitution ⟨id, [.ext name]⟩ := by intro p hp; simp at hp
  have hsup : ∀ n, Dep.ext n ∈ [Dep.ext name] → ∃ f, ext.get? n = some f := by
    intro n hn; simp at hn; subst hn; exact ⟨hero, hh⟩
  have hno : NoAgreement ext base [Dep.ext name] := by
    refine ⟨hprep, fun n f hn hf => ?_⟩
    simp at hn; subst hn
    rw [hh] at hf; injection hf with hf; subst hf
    exact .inl hint
  have hb := resolves_good he hd hr
  have hw := hb.1
  have hag : ∀ g, (collected ext base [Dep.ext name]).get g = agreed base hero g := by
    intro g
    obtain ⟨c1, c2, c3⟩ := collects (deps := [Dep.ext name]) he hb hsub
    unfold agreed
    cases h1 : base.word.properties.isSpecified g with
    | true => simp only [if_true]; exact c1 g h1
    | false =>
      simp only [Bool.false_eq_true, if_false]
      cases h2 : hero.properties.isSpecified g with
      | true =>
        simp only [if_true]
        have hs : ∃ r, hero.properties.get g = some r := by
          unfold Properties.isSpecified Dict.contains at h2
          unfold Properties.get
          cases e : hero.properties.data.get? g with
          | none => rw [e] at h2; simp at h2
          | some r => exact ⟨r, rfl⟩
        obtain ⟨r, hs⟩ := hs
        rw [hs]
        exact c2 g [] (.ext name) [] r h1 rfl (by simp [depSays, hh, h2, hs]) (by simp)
      | false =>
        simp only [Bool.false_eq_true, if_false]
        exact c3 g h1 (by intro dep hdep; simp at hdep; subst hdep; simp [depSays, hh, h2])
  have hwf := collected_wf (deps := [Dep.ext name]) he hb hsub
  obtain ⟨_, hlen⟩ := accepted_iff.mp hw
  rw [getText_noAgreement hr hsup hno]
  rw [getKeys_eq] at hks
  injection hks with hks; subst hks
  have hk' : (invertedCache base.word.type)[i]? = some k := by
    rw [List.getElem?_map] at hk
    cases hx : (invertedCache base.word.type)[i]? <;> simp [hx] at hk
    rw [hk]
  obtain ⟨j, s, hs, hj, huniq⟩ := formRaw_spec hlen hwf
  have hfit := invertedCache_fits (List.mem_of_getElem? hk')
  have hij : j = i := by
    apply huniq i k hk'
    rw [List.forall₂_iff_get]
    refine ⟨hfit.length_eq, ?_⟩
    intro m hm1 hm2
    simp only [List.get_eq_getElem]
    cases hkm : k[m] with
    | none => exact .inl rfl
    | some r =>
      right
      rw [hag, h m _ r (List.getElem?_eq_getElem hm2) (by rw [List.getElem?_eq_getElem hm1, hkm])]
  subst hij
  refine ⟨s, hj, ?_⟩
  have hcase := hag .WORD_CASE
  unfold WordForm.getForm Properties.getRec
  rw [hs, hcase]
  have hsome : ∃ r, agreed base hero .WORD_CASE = some r := by
    rw [← hcase]
    unfold Properties.get
    cases (collected ext base [Dep.ext name]).data.get? .WORD_CASE with
    | some r => exact ⟨r, rfl⟩
    | none => exact ⟨_, rfl⟩
  obtain ⟨r, hr'⟩ := hsome
  rw [hr']
  simp only [bind, Except.bind, Option.some.injEq]
  split
  · cases s <;> rfl
  · rfl

/-- C80, for verbs: a verb written in the past tense takes the form of the gender of a singular variable, or the plural form. -/
theorem C80_past_verb (U : PyUni) (ext : Externals) (d : Dictionary) (id name : Str) (base hero : WordForm)
    (he : GoodExternals ext) (hd : GoodDictionary d) (hr : Resolves ext d id base) (hh : ext.get? name = some hero)
    (ht : base.word.type = .VERB) (hint : hero.word.type ≠ .INTEGER)
    (hform : agreed base hero .VERB_FORM = some .VERB_FORM_INDICATIVE) (htime : agreed base hero .TIME = some .TIME_PAST)
    (hlower : agreed base hero .WORD_CASE ≠ some .WORD_CASE_UPPER) (n g : Rec)
    (hn : agreed base hero .NUMBER = some n) (hg : agreed base hero .GENDER = some g) (i : Nat)
    (hi : (i = 1 ∧ n = .NUMBER_SINGULAR ∧ g = .GENDER_MASCULINE) ∨ (i = 2 ∧ n = .NUMBER_SINGULAR ∧ g = .GENDER_NEUTER) ∨
      (i = 3 ∧ n = .NUMBER_SINGULAR ∧ g = .GENDER_FEMININE) ∨ (i = 4 ∧ n = .NUMBER_PLURAL)) :
    ∃ s, base.word.forms[i]? = some s ∧ Substitution.getText U ⟨id, [.ext name]⟩ ext d = .ok s := by
  have hks : Word.getKeys base.word.type = .ok (verbSlots.map some) := by rw [ht]; decide +kernel
  have fin : ∀ k : Key, verbSlots[i]? = some k →
      (∀ (j : Nat) (g : Group) (r : Rec), WordType.VERB.schema[j]? = some g → k[j]? = some (some r) → agreed base hero g = some r) →
      ∃ s, base.word.forms[i]? = some s ∧ Substitution.getText U ⟨id, [.ext name]⟩ ext d = .ok s := by
    intro k hk h
    obtain ⟨s, h1, h2⟩ := C80_agreement U ext d id name base hero he hd hr hh (by rw [ht]; simp) hint _ hks i k
      (by rw [List.getElem?_map, hk]; rfl) (by rw [ht]; exact h)
    rw [if_neg hlower] at h2
    exact ⟨s, h1, h2⟩
  rcases hi with ⟨rfl, rfl, rfl⟩ | ⟨rfl, rfl, rfl⟩ | ⟨rfl, rfl, rfl⟩ | ⟨rfl, rfl⟩ <;>
  · refine fin _ rfl ?_
    intro j g r hj hk
    match j with
    | 0 | 1 | 2 | 3 | 4 => simp [WordType.schema] at hj hk; try (subst hj; subst hk; assumption)
    | j + 5 => simp [WordType.schema] at hj

/-- `[подарил|npc]` of the README: the hypotheses hold, and the form is the feminine one. -/
example : ∃ base, (history exPy [rmCoin, rmFilled]).getWord (str! "подарил") = .ok base ∧ base.word.type = .VERB ∧
    agreed base (WordForm.new rmNpc) .VERB_FORM = some .VERB_FORM_INDICATIVE ∧ agreed base (WordForm.new rmNpc) .TIME = some .TIME_PAST ∧
    agreed base (WordForm.new rmNpc) .WORD_CASE ≠ some .WORD_CASE_UPPER ∧ agreed base (WordForm.new rmNpc) .NUMBER = some .NUMBER_SINGULAR ∧
    agreed base (WordForm.new rmNpc) .GENDER = some .GENDER_FEMININE ∧ base.word.forms[3]? = some (str! "подарила") := by
  have h : ((history exPy [rmCoin, rmFilled]).getWord (str! "подарил")).toOption.isSome = true := by decide +kernel
  cases hw : (history exPy [rmCoin, rmFilled]).getWord (str! "подарил") with
  | error e => rw [hw] at h; cases h
  | ok base =>
    have hb : ∀ b, (history exPy [rmCoin, rmFilled]).getWord (str! "подарил") = .ok b → (b.word.type = .VERB ∧
      agreed b (WordForm.new rmNpc) .VERB_FORM = some .VERB_FORM_INDICATIVE ∧ agreed b (WordForm.new rmNpc) .TIME = some .TIME_PAST ∧
      agreed b (WordForm.new rmNpc) .WORD_CASE ≠ some .WORD_CASE_UPPER ∧ agreed b (WordForm.new rmNpc) .NUMBER = some .NUMBER_SINGULAR ∧
      agreed b (WordForm.new rmNpc) .GENDER = some .GENDER_FEMININE ∧ b.word.forms[3]? = some (str! "подарила")) := by
      intro b hb
      have : b = (match (history exPy [rmCoin, rmFilled]).getWord (str! "подарил") with | .ok b => b | .error _ => WordForm.new rmNpc) := by rw [hb]
      rw [this]
      decide +kernel
    exact ⟨base, rfl, hb base hw⟩

end Utg
