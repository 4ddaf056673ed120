import Verif.Spec.Grammar
import Verif.Spec.Expressive
import Verif.Props.Reference
import Verif.Props.Integers
import Verif.Props.Interchange
/-!
# C113: which form is taken does not depend on how words are spelled

Only prepositions look at the spelling of other words.
-/

namespace Utg
open Py Spec

theorem sameValues_refl (p : Properties) : SameValues p p := fun _ => ⟨rfl, rfl⟩

theorem sameGrammar_refl (f : WordForm) : SameGrammar f f := ⟨rfl, sameValues_refl _, sameValues_refl _⟩

theorem lastSay_same {ext ext' : Externals} (h : SameCast ext ext') (g : Group) (deps : List Dep) : lastSay ext g deps = lastSay ext' g deps := by
  induction deps with
  | nil => rfl
  | cons dep deps ih =>
    have : depSays ext dep g = depSays ext' dep g := by
      cases dep with
      | props p => rfl
      | ext n =>
        unfold depSays
        rcases h n with ⟨h1, h2⟩ | ⟨f, f', h1, h2, h3⟩
        · simp only [h1, h2]
        · simp only [h1, h2, (h3.2.2 g).1, (h3.2.2 g).2]
    rw [lastSay, lastSay, ih, this]

theorem initialReading_same {ext ext' : Externals} {base base' : WordForm} (h : SameCast ext ext') (hb : SameGrammar base base')
    (deps : List Dep) : initialReading ext base deps = initialReading ext' base' deps := by
  funext g
  unfold initialReading
  rw [lastSay_same h, (hb.2.1 g).1, (hb.2.1 g).2, (hb.2.2 g).2]

theorem masters_same {ext ext' : Externals} (h : SameCast ext ext') (deps : List Dep) :
    (∃ n, masters ext deps = .error (.ExternalDependecyNotFoundError n) ∧ masters ext' deps = .error (.ExternalDependecyNotFoundError n)) ∨
    ∃ fs fs', masters ext deps = .ok fs ∧ masters ext' deps = .ok fs' ∧ List.Forall₂ (fun f f' => f.word.type = f'.word.type) fs fs' ∧
      (∀ f ∈ fs, ∃ n, ext.get? n = some f) := by
  induction deps with
  | nil => exact .inr ⟨[], [], rfl, rfl, .nil, by simp⟩
  | cons dep deps ih =>
    cases dep with
    | props p => exact ih
    | ext n =>
      unfold masters
      rcases h n with ⟨h1, h2⟩ | ⟨f, f', h1, h2, h3⟩
      · left; exact ⟨n, by rw [h1], by rw [h2]⟩
      · rw [h1, h2]
        rcases ih with ⟨m, i1, i2⟩ | ⟨fs, fs', i1, i2, i3, i4⟩
        · left; exact ⟨m, by simp [i1, bind, Except.bind], by simp [i2, bind, Except.bind]⟩
        · right
          refine ⟨f :: fs, f' :: fs', by simp [i1, bind, Except.bind], by simp [i2, bind, Except.bind], .cons h3.1 i3, ?_⟩
          exact List.forall_mem_cons.mpr ⟨⟨n, h1⟩, i4⟩

theorem demand_same (U : PyUni) {w w' : Word} (ht : w.type = w'.type) (hp : w.type ≠ .PREPOSITION) {f f' : WordForm}
    (hf : f.word.type = f'.word.type) (ρ : Reading) : demand U w ρ f = demand U w' ρ f' := by
  unfold demand
  rw [← ht, ← hf]
  cases h : w.type <;> simp_all

theorem agreeAll_same (U : PyUni) {w w' : Word} (ht : w.type = w'.type) (hp : w.type ≠ .PREPOSITION) {fs fs' : List WordForm}
    (hf : List.Forall₂ (fun f f' => f.word.type = f'.word.type) fs fs') (ρ : Reading) : agreeAll U w ρ fs = agreeAll U w' ρ fs' := by
  induction hf generalizing ρ with
  | nil => rfl
  | cons h _ ih =>
    rw [agreeAll, agreeAll, demand_same U ht hp h]
    congr 1
    funext rs
    exact ih _

theorem agreeAll_reading (U : PyUni) {w : Word} (hw : Accepted w) (hp : w.type ≠ .PREPOSITION) {fs : List WordForm}
    (hf : ∀ f ∈ fs, GoodForm f) {p : Properties} (hwf : WFProps p) : ∃ q, WFProps q ∧ agreeAll U w p.get fs = .ok q.get := by
  induction fs generalizing p with
  | nil => exact ⟨p, hwf, rfl⟩
  | cons f fs ih =>
    rcases transform_demand (U := U) hw (hf f (by simp)) hwf with ⟨e, h1, h2⟩ | ⟨rs, q, h1, h2, h3, h4⟩
    · exfalso
      rcases transform_cases w f with h | ⟨_, h⟩ | ⟨h, h'⟩ | ⟨h, h'⟩
      · exact hp h
      · rw [C40_other_pairs U w p f hp h] at h2; cases h2
      · obtain ⟨_, _, _, _, q, _, _, _, _, hq, _⟩ := C38_never_fails U w p f hwf h h'
        rw [hq] at h2; cases h2
      · obtain ⟨_, _, _, _, q, _, _, _, _, hq, _⟩ := C39_never_fails U w p f hwf h h'
        rw [hq] at h2; cases h2
    · obtain ⟨q', g1, g2⟩ := ih (fun x hx => hf x (List.mem_cons_of_mem _ hx)) h3
      refine ⟨q', g1, ?_⟩
      rw [agreeAll, h1]
      simp only [bind, Except.bind]
      rw [← h4]
      exact g2

/-- C113: a variable that is no preposition is replaced by the form in the same place, and with the same capital, for any two casts that differ
in the spelling of the words only. -/
theorem C113_same_place (U : PyUni) (ext ext' : Externals) (d d' : Dictionary) (s : Substitution) (base base' : WordForm)
    (he : GoodExternals ext) (he' : GoodExternals ext') (hd : GoodDictionary d) (hd' : GoodDictionary d') (hs : GoodSubstitution s)
    (hcast : SameCast ext ext') (hr : Resolves ext d s.id base) (hr' : Resolves ext' d' s.id base') (hb : SameGrammar base base')
    (hp : base.word.type ≠ .PREPOSITION) :
    (∃ n, s.getText U ext d = .error (.ExternalDependecyNotFoundError n) ∧ s.getText U ext' d' = .error (.ExternalDependecyNotFoundError n)) ∨
    ∃ (i : Nat) (upper : Bool) (form form' : Str), base.word.forms[i]? = some form ∧ base'.word.forms[i]? = some form' ∧
      s.getText U ext d = inCase U upper form ∧ s.getText U ext' d' = inCase U upper form' := by
  have hbg := resolves_good he hd hr
  have hbg' := resolves_good he' hd' hr'
  have key : ∀ (ext : Externals) (d : Dictionary) (base : WordForm), GoodExternals ext → GoodDictionary d → Resolves ext d s.id base →
      s.getText U ext d = (do
        let fs ← masters ext s.dependencies
        let ρ ← agreeAll U base.word (initialReading ext base s.dependencies) fs
        spoken U base.word ρ) := by
    intro ext d base he hd hr
    rw [C86_substitution U ext d (fun t => (d.getWord t).toOption) s he hd hs (by
      intro t f
      cases d.getWord t <;> simp [Except.toOption])]
    unfold meaning
    have : (ext.get? s.id).or ((d.getWord s.id).toOption) = some base := by
      unfold Resolves at hr
      cases h : ext.get? s.id with
      | some f => simpa [h] using hr
      | none =>
        have : d.getWord s.id = .ok base := by simpa [h] using hr
        simp [this, Except.toOption]
    rw [this]
  rw [key ext d base he hd hr, key ext' d' base' he' hd' hr', ← initialReading_same hcast hb]
  rcases masters_same hcast s.dependencies with ⟨n, h1, h2⟩ | ⟨fs, fs', h1, h2, h3, h4⟩
  · left; exact ⟨n, by rw [h1]; rfl, by rw [h2]; rfl⟩
  · right
    have hgood : ∀ f ∈ fs, GoodForm f := by
      intro f hf
      obtain ⟨n, hn⟩ := h4 f hf
      exact he n f hn
    rw [← collected_initial he hbg hs]
    obtain ⟨q, hq, hag⟩ := agreeAll_reading U hbg.1 hp hgood (collected_wf he hbg hs)
    have hl := (formRaw_formIn (accepted_iff.mp hbg.1).2 hq).2
    have hl' := (formRaw_formIn (accepted_iff.mp hbg'.1).2 hq).2
    rw [h1, h2]
    simp only [bind, Except.bind]
    rw [← agreeAll_same U hb.1 hp h3, hag]
    simp only
    refine ⟨slotOf base.word.type q.get, decide (q.get .WORD_CASE = some .WORD_CASE_UPPER), formIn base.word q.get, formIn base'.word q.get,
      ?_, ?_, ?_, ?_⟩
    · unfold formIn
      rw [List.getElem?_eq_getElem hl, List.getD_eq_getElem?_getD, List.getElem?_eq_getElem hl]; rfl
    · unfold formIn
      rw [hb.1, List.getElem?_eq_getElem hl', List.getD_eq_getElem?_getD, List.getElem?_eq_getElem hl']; rfl
    all_goals
      unfold spoken
      by_cases hu : q.get .WORD_CASE = some .WORD_CASE_UPPER
      · simp only [hu, if_true, decide_true]
        split <;> simp_all [inCase]
      · simp [hu, inCase]

/-- C113: giving another word of the same grammar for a name (a hero with another name) changes nothing but the places where it stands, and
prepositions before it. -/
theorem C113_other_places (U : PyUni) (ext ext' : Externals) (d : Dictionary) (s : Substitution) (name : Str) (f f' : WordForm)
    (he : GoodExternals ext) (he' : GoodExternals ext') (hd : GoodDictionary d) (hs : GoodSubstitution s)
    (h1 : ext.get? name = some f) (h2 : ext'.get? name = some f') (hf : SameGrammar f f') (hsame : ∀ x, x ≠ name → ext.get? x = ext'.get? x)
    (hid : s.id ≠ name)
    (hp : ∀ base, Resolves ext d s.id base → base.word.type = .PREPOSITION → Dep.ext name ∉ s.dependencies) :
    s.getText U ext d = s.getText U ext' d := by
  have hcast : SameCast ext ext' := by
    intro x
    by_cases hx : x = name
    · subst hx; exact .inr ⟨f, f', h1, h2, hf⟩
    · rw [← hsame x hx]
      cases ext.get? x with
      | none => exact .inl ⟨rfl, rfl⟩
      | some g => exact .inr ⟨g, g, rfl, rfl, sameGrammar_refl g⟩
  by_cases hno : Dep.ext name ∈ s.dependencies
  · by_cases hex : ∃ base, Resolves ext d s.id base
    · obtain ⟨base, hr⟩ := hex
      have hr' : Resolves ext' d s.id base := by unfold Resolves at hr ⊢; rwa [← hsame _ hid]
      have hprep : base.word.type ≠ .PREPOSITION := fun h => hp base hr h hno
      rcases C113_same_place U ext ext' d d s base base he he' hd hd hs hcast hr hr' (sameGrammar_refl base) hprep with
        ⟨n, e1, e2⟩ | ⟨i, upper, form, form', e1, e2, e3, e4⟩
      · rw [e1, e2]
      · rw [e1] at e2
        injection e2 with e2
        rw [e3, e4, e2]
    · have hex' : ¬ ∃ base, Resolves ext' d s.id base := by
        rintro ⟨base, hr⟩
        exact hex ⟨base, by unfold Resolves at hr ⊢; rwa [hsame _ hid]⟩
      rw [(C49_errors U ext d s he hd hs).1 hex, (C49_errors U ext' d s he' hd hs).1 hex']
  · exact C48_irrelevant_externals U ext ext' d s (hsame _ hid) fun n hn => hsame n (by rintro rfl; exact hno hn)

/-- C113: so does a number of the same class: all other words but prepositions are the same for any two numbers that have the same agreement
class and are both one (or minus one) or both not. -/
theorem C113_numbers (U : PyUni) (ext ext' : Externals) (d : Dictionary) (s : Substitution) (name : Str) (n m : Int) (f f' : WordForm)
    (he : GoodExternals ext) (he' : GoodExternals ext') (hd : GoodDictionary d) (hs : GoodSubstitution s)
    (hn : constructIntegerFresh n = .ok f) (hm : constructIntegerFresh m = .ok f')
    (h1 : ext.get? name = some f) (h2 : ext'.get? name = some f') (hsame : ∀ x, x ≠ name → ext.get? x = ext'.get? x)
    (hclass : agreementClass n = agreementClass m) (hnum : grammaticalNumber n = grammaticalNumber m) (hid : s.id ≠ name)
    (hp : ∀ base, Resolves ext d s.id base → base.word.type = .PREPOSITION → Dep.ext name ∉ s.dependencies) :
    s.getText U ext d = s.getText U ext' d := by
  refine C113_other_places U ext ext' d s name f f' he he' hd hs h1 h2 ?_ hsame hid hp
  rw [constructIntegerFresh_eq] at hn hm
  injection hn with hn; injection hm with hm
  subst hn hm
  have e : (classifyInteger n.natAbs).properties = (classifyInteger m.natAbs).properties := by
    rw [classify_properties, classify_properties, hclass, hnum]
  refine ⟨rfl, ?_, ?_⟩
  · show SameValues (classifyInteger n.natAbs).properties (classifyInteger m.natAbs).properties
    rw [e]; exact sameValues_refl _
  · show SameValues (classifyInteger n.natAbs).properties (classifyInteger m.natAbs).properties
    rw [e]; exact sameValues_refl _

/-- Two heroes. -/
def exHeroes : WordForm × WordForm := (WordForm.new (exText (str! "дом")), WordForm.new (exText (str! "осень")))

/-- C113: a preposition does look at the spelling: two words of the same grammar, two forms of it. -/
theorem C113_preposition_looks :
    SameGrammar exHeroes.1 exHeroes.2 ∧
    Substitution.getText exPy ⟨str! "p", [.ext (str! "x")]⟩ [(str! "p", WordForm.new exAbout), (str! "x", exHeroes.1)] [] = .ok (str! "о") ∧
    Substitution.getText exPy ⟨str! "p", [.ext (str! "x")]⟩ [(str! "p", WordForm.new exAbout), (str! "x", exHeroes.2)] [] = .ok (str! "об") := by
  refine ⟨⟨rfl, sameValues_refl _, sameValues_refl _⟩, ?_, ?_⟩ <;> decide +kernel

/-- Two casts of the same grammar in which a noun is spelled differently, in the same place. -/
example : SameCast [(str! "x", exHeroes.1), (str! "n", integerForm 5)] [(str! "x", exHeroes.2), (str! "n", integerForm 100)] := by
  have hs : SameGrammar (integerForm 5) (integerForm 100) := ⟨rfl, sameValues_refl _, sameValues_refl _⟩
  intro k
  by_cases h1 : str! "x" = k
  · subst h1; exact .inr ⟨exHeroes.1, exHeroes.2, by decide +kernel, by decide +kernel, C113_preposition_looks.1⟩
  · by_cases h2 : str! "n" = k
    · subst h2; exact .inr ⟨_, _, by rw [Dict.get?, if_neg h1, Dict.get?, if_pos rfl], by rw [Dict.get?, if_neg h1, Dict.get?, if_pos rfl], hs⟩
    · exact .inl ⟨by simp [Dict.get?, h1, h2], by simp [Dict.get?, h1, h2]⟩

example : agreementClass 5 = agreementClass 100 ∧ grammaticalNumber 5 = grammaticalNumber 100 ∧
    agreementClass 22 = agreementClass (-1003) ∧ grammaticalNumber 22 = grammaticalNumber (-1003) := by decide +kernel

end Utg
