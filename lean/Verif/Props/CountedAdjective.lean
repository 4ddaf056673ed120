import Verif.Spec.CountedAdjective
import Verif.Props.Phrase
import Verif.Props.Sentence
/-! # C160: the adjective of a counted noun -/

namespace Utg
open Py Spec

theorem full_layout : ∀ m ∈ layoutNow .ADJECTIVE, (∀ r ∈ m, (r.group = .ADJECTIVE_FORM → r = .ADJECTIVE_FORM_FULL) ∧
      (r.group = .GRADE → r ≠ .GRADE_COMPARATIVE)) →
    (∃ r ∈ m, r.group = .NUMBER) ∧ (∃ r ∈ m, r.group = .CASE) ∧ (∃ r ∈ m, r.group = .ANIMALITY) ∧
      (Rec.NUMBER_SINGULAR ∈ m → ∃ r ∈ m, r.group = .GENDER) := by decide +kernel

/-- What the modifier is to be, its number and its case. -/
theorem modifier_number_case (base : WordForm) (n : Int) {case gender anim : Rec} (hc : case ∈ cases) (hg : gender.group = .GENDER)
    (ha : anim.group = .ANIMALITY) :
    ∃ number' case', modifierReading base n case gender anim .NUMBER = some number' ∧ modifierReading base n case gender anim .CASE = some case' ∧
      modifierReading base n case gender anim .ANIMALITY = some anim ∧ modifierReading base n case gender anim .GENDER = some gender ∧
      ((number', case') ∈ admitted (agreementClass n) case gender anim ↔ ¬ Slips (agreementClass n) case gender anim) := by
  have hgm : gender ∈ [Rec.GENDER_MASCULINE, .GENDER_NEUTER, .GENDER_FEMININE] := by
    have : gender ∈ Group.GENDER.records := mem_records_iff.mpr hg
    revert this; cases gender <;> decide
  have ham : anim ∈ [Rec.ANIMALITY_ANIMATE, .ANIMALITY_INANIMATE] := by
    have : anim ∈ Group.ANIMALITY.records := mem_records_iff.mpr ha
    revert this; cases anim <;> decide
  have hcl : agreementClass n ∈ [Rec.INTEGER_FORM_MIL_BIL, .INTEGER_FORM_SINGULAR, .INTEGER_FORM_DUAL, .INTEGER_FORM_COMPOSITE_DUAL,
      .INTEGER_FORM_PLURAL] := by
    unfold agreementClass; split_ifs <;> simp
  unfold modifierReading
  simp only [upd_apply]
  generalize agreementClass n = cl at hcl
  have key : ∀ cl ∈ [Rec.INTEGER_FORM_MIL_BIL, .INTEGER_FORM_SINGULAR, .INTEGER_FORM_DUAL, .INTEGER_FORM_COMPOSITE_DUAL, .INTEGER_FORM_PLURAL],
      ∀ case ∈ cases, ∀ gender ∈ [Rec.GENDER_MASCULINE, .GENDER_NEUTER, .GENDER_FEMININE], ∀ anim ∈ [Rec.ANIMALITY_ANIMATE, .ANIMALITY_INANIMATE],
      ∃ a b, (adjectiveAgreement .DEPENDENCY_MODE_FULL cl case gender ++ [case, gender, anim, cl]).find? (fun r => decide (r.group = .NUMBER)) = some a ∧
        (adjectiveAgreement .DEPENDENCY_MODE_FULL cl case gender ++ [case, gender, anim, cl]).find? (fun r => decide (r.group = .CASE)) = some b ∧
        (adjectiveAgreement .DEPENDENCY_MODE_FULL cl case gender ++ [case, gender, anim, cl]).find? (fun r => decide (r.group = .ANIMALITY)) = some anim ∧
        (adjectiveAgreement .DEPENDENCY_MODE_FULL cl case gender ++ [case, gender, anim, cl]).find? (fun r => decide (r.group = .GENDER)) = some gender ∧
        ((a, b) ∈ admitted cl case gender anim ↔ ¬ Slips cl case gender anim) := by
    intro cl h1 case h2 gender h3 anim h4
    simp only [List.mem_cons, List.not_mem_nil, or_false, cases] at h1 h2 h3 h4
    rcases h1 with rfl | rfl | rfl | rfl | rfl <;> rcases h2 with rfl | rfl | rfl | rfl | rfl | rfl <;> rcases h3 with rfl | rfl | rfl <;>
      rcases h4 with rfl | rfl <;> exact ⟨_, _, rfl, rfl, rfl, rfl, by unfold admitted Slips; decide⟩
  obtain ⟨a, b, k1, k2, k3, k4, k5⟩ := key cl hcl case hc gender hgm anim ham
  exact ⟨a, b, by rw [k1]; rfl, by rw [k2]; rfl, by rw [k3]; rfl, by rw [k4]; rfl, k5⟩

/-- C160: `[число] [новый|товар|число|рд] [товар|число|рд]`: the adjective has the gender and the animality of the noun, and a number and case that
grammar admits except where `Slips` says so. -/
theorem C160_phrase (U : PyUni) (ws : List Word) (hws : ∀ w ∈ ws, Accepted w) (ext : Externals) (names : List Str)
    (number modifier noun : Str) (n : Int) (base f : WordForm) (w : Word) (case gender anim : Rec)
    (h1 : Written U number) (h2 : Written U modifier) (h3 : Written U noun) (h4 : Written U case.verboseId)
    (hcase : case ∈ cases) (hx : number ∈ names) (hy : noun ∈ names) (hz : case.verboseId ∉ names)
    (he : GoodExternals ext) (hn : constructIntegerFresh n = .ok f) (hnumber : ext.get? number = some f)
    (hnoun : ext.get? noun = some (WordForm.new w)) (hwt : w.type = .NOUN)
    (hg : w.properties.get .GENDER = some gender) (ha : w.properties.get .ANIMALITY = some anim)
    (hspec : ∀ g, w.properties.isSpecified g = true ↔ g = .GENDER ∨ g = .ANIMALITY)
    (hmod : ext.get? modifier = none) (hbase : (history U ws).getWord modifier = .ok base)
    (hbt : base.word.type = .ADJECTIVE)
    (hfree : ∀ g ∈ [Group.CASE, .GENDER, .ANIMALITY, .INTEGER_FORM], base.word.properties.isSpecified g = false)
    (hmode : effective base.word base.properties .DEPENDENCY_MODE = some .DEPENDENCY_MODE_FULL)
    (hlow : effective base.word base.properties .WORD_CASE = some .WORD_CASE_LOWER)
    (hfull : effective base.word base.properties .ADJECTIVE_FORM = some .ADJECTIVE_FORM_FULL)
    (hgrade : effective base.word base.properties .GRADE ≠ some .GRADE_COMPARATIVE) :
    ∃ (t : Template) (i j : Nat) (m : List Rec) (a b : Str) (number' case' : Rec),
      Template.empty.parse U (phraseText number modifier noun case.verboseId) names = .ok t ∧
      (layoutNow .ADJECTIVE)[i]? = some m ∧ base.word.forms[i]? = some a ∧
      number' ∈ m ∧ case' ∈ m ∧ anim ∈ m ∧ (number' = .NUMBER_SINGULAR → gender ∈ m) ∧
      ((number', case') ∈ admitted (agreementClass n) case gender anim ↔ ¬ Slips (agreementClass n) case gender anim) ∧
      nounSlots[j]? = some (countedSlot n case anim) ∧ w.forms[j]? = some b ∧
      t.substitute U ext (history U ws) = .ok (pyStr n ++ ' ' :: a ++ ' ' :: b) := by
  obtain ⟨t, i, j, m, a, b, e1, e2, e3, e4, e5, e6, e7⟩ := C125_phrase U ws hws ext names number modifier noun n base f w case gender anim h1 h2 h3 h4
    hcase hx hy hz he hn hnumber hnoun hwt hg ha hspec hmod hbase (.inl hbt) hfree hmode hlow
  have gg := got_group (he _ _ hnoun).2.1 (by decide) hg
  have ga := got_group (he _ _ hnoun).2.1 (by decide) ha
  obtain ⟨number', case', k1, k2, k3, k4, k5⟩ := modifier_number_case base n hcase gg ga
  rw [hbt] at e2
  have hkeep : ∀ g ∈ [Group.ADJECTIVE_FORM, .GRADE], modifierReading base n case gender anim g = effective base.word base.properties g := by
    intro g hgm
    unfold modifierReading
    rw [upd_apply, List.find?_append]
    have gc := cases_group hcase
    have gi : (agreementClass n).group = .INTEGER_FORM := mem_records_iff.mp (agreementClass_mem n)
    have : (adjectiveAgreement .DEPENDENCY_MODE_FULL (agreementClass n) case gender).find? (fun r => decide (r.group = g)) = none := by
      simp only [List.mem_cons, List.not_mem_nil, or_false] at hgm
      unfold adjectiveAgreement
      rcases hgm with rfl | rfl <;> (repeat' split) <;> decide
    rw [this]
    simp only [List.mem_cons, List.not_mem_nil, or_false] at hgm
    rcases hgm with rfl | rfl <;> simp [gc, gg, ga, gi]
  obtain ⟨⟨r1, q1, s1⟩, ⟨r2, q2, s2⟩, ⟨r3, q3, s3⟩, q4⟩ := full_layout m (List.mem_of_getElem? e2) (by
    intro r hr
    have hfit := e3 r hr
    refine ⟨fun e => ?_, fun e => ?_⟩
    · rw [e, hkeep _ (by simp), hfull] at hfit; injection hfit with h; exact h.symm
    · rw [e, hkeep _ (by simp)] at hfit; rintro rfl; exact hgrade hfit)
  have x1 : r1 = number' := by have := e3 r1 q1; rw [s1, k1] at this; injection this with h; exact h.symm
  have x2 : r2 = case' := by have := e3 r2 q2; rw [s2, k2] at this; injection this with h; exact h.symm
  have x3 : r3 = anim := by have := e3 r3 q3; rw [s3, k3] at this; injection this with h; exact h.symm
  subst x1 x2 x3
  refine ⟨t, i, j, m, a, b, r1, r2, e1, e2, e4, q1, q2, q3, ?_, k5, e5, e6, e7⟩
  rintro rfl
  obtain ⟨r, hr, hrg⟩ := q4 q1
  have := e3 r hr
  rw [hrg, k4] at this
  injection this with h
  rw [h]; exact hr

/-- The ending of новый (`hard`) or новейший in the form `m`. -/
def novyEnding (hard : Bool) (m : List Rec) : Str :=
  let pick (a b : Str) : Str := if hard then a else b
  if .NUMBER_PLURAL ∈ m then
    if .CASE_NOMINATIVE ∈ m then pick (str! "ые") (str! "ие")
    else if .CASE_DATIVE ∈ m then pick (str! "ым") (str! "им")
    else if .CASE_INSTRUMENTAL ∈ m then pick (str! "ыми") (str! "ими")
    else if .CASE_ACCUSATIVE ∈ m ∧ .ANIMALITY_INANIMATE ∈ m then pick (str! "ые") (str! "ие")
    else pick (str! "ых") (str! "их")
  else if .GENDER_FEMININE ∈ m then
    if .CASE_NOMINATIVE ∈ m then pick (str! "ая") (str! "ая")
    else if .CASE_ACCUSATIVE ∈ m then pick (str! "ую") (str! "ую")
    else pick (str! "ой") (str! "ей")
  else
    if .CASE_DATIVE ∈ m then pick (str! "ому") (str! "ему")
    else if .CASE_INSTRUMENTAL ∈ m then pick (str! "ым") (str! "им")
    else if .CASE_PREPOSITIONAL ∈ m then pick (str! "ом") (str! "ем")
    else if .CASE_GENITIVE ∈ m then pick (str! "ого") (str! "его")
    else if .GENDER_NEUTER ∈ m then pick (str! "ое") (str! "ее")
    else if .CASE_ACCUSATIVE ∈ m ∧ .ANIMALITY_ANIMATE ∈ m then pick (str! "ого") (str! "его")
    else pick (str! "ый") (str! "ий")

/-- The forms of новый. -/
def novyText (m : List Rec) : Str :=
  if .ADJECTIVE_FORM_SHORT ∈ m then
    if .NUMBER_PLURAL ∈ m then str! "новы" else if .GENDER_FEMININE ∈ m then str! "нова" else if .GENDER_NEUTER ∈ m then str! "ново" else str! "нов"
  else if .GRADE_COMPARATIVE ∈ m then str! "новее"
  else if .GRADE_SUPERLATIVE ∈ m then str! "новейш" ++ novyEnding false m
  else str! "нов" ++ novyEnding true m

/-- The adjective новый. -/
def exNew : Word := ⟨.ADJECTIVE, (layoutNow .ADJECTIVE).map novyText, .new []⟩

theorem exNew_accepted : ∀ w ∈ [exNew], Accepted w := by
  intro w hw; rw [List.mem_singleton.mp hw]
  exact accepted_iff.mpr ⟨wf_new (wfargs_records []), by decide +kernel⟩

/-- How it is recognised. -/
def exNewBase : WordForm :=
  .new exNew (some (.new [.record .ADJECTIVE_FORM_FULL, .record .GRADE_POSITIVE, .record .ANIMALITY_ANIMATE, .record .NUMBER_SINGULAR,
    .record .CASE_NOMINATIVE, .record .GENDER_MASCULINE]))

theorem exNew_getWord : (history exPy [exNew]).getWord (str! "новый") = .ok exNewBase := by
  rw [C86_dictionary exPy [exNew] exNew_accepted]
  have : entryFor exPy [exNew] (str! "новый") = some exNewBase := by decide +kernel
  rw [this]

/-- C160: «вижу 1 новую русалку», «5 новых русалок», but «2 новые русалок» and «22 новой русалки». -/
theorem C160_mermaids (n : Int) :
    ∃ (t : Template) (a b : Str),
      Template.empty.parse exPy (str! "[n] [новый|npc|n|вн] [npc|n|вн]") [str! "n", str! "npc"] = .ok t ∧
      (a, b) = (match agreementClass n with
        | .INTEGER_FORM_SINGULAR => (str! "новую", str! "русалку")
        | .INTEGER_FORM_DUAL => (str! "новые", str! "русалок")
        | .INTEGER_FORM_COMPOSITE_DUAL => (str! "новой", str! "русалки")
        | _ => (str! "новых", str! "русалок")) ∧
      t.substitute exPy [(str! "npc", WordForm.new rmNpc), (str! "n", integerForm n)] (history exPy [exNew]) =
        .ok (pyStr n ++ ' ' :: a ++ ' ' :: b) := by
  have hw : ∀ x ∈ [str! "n", str! "npc", str! "новый", Rec.CASE_ACCUSATIVE.verboseId], Written exPy x := by unfold Written; decide +kernel
  have hgood : GoodExternals [(str! "npc", WordForm.new rmNpc), (str! "n", integerForm n)] := by
    intro x f hf
    simp only [Dict.get?] at hf
    split at hf
    · injection hf with hf; subst hf; exact goodForm_new rmNpc_accepted (by simp) (by simp)
    · split at hf
      · injection hf with hf; subst hf; exact integerForm_good n
      · cases hf
  obtain ⟨t, i, j, m, a, b, e1, e2, e3, e4, e5, e6, e7⟩ := C125_phrase exPy [exNew] exNew_accepted
    [(str! "npc", WordForm.new rmNpc), (str! "n", integerForm n)] [str! "n", str! "npc"] (str! "n") (str! "новый") (str! "npc") n exNewBase
    (integerForm n) rmNpc .CASE_ACCUSATIVE .GENDER_FEMININE .ANIMALITY_ANIMATE (hw _ (by simp)) (hw _ (by simp)) (hw _ (by simp)) (hw _ (by simp))
    (by decide) (by decide) (by decide) (by decide) hgood (constructIntegerFresh_eq n) rfl rfl rfl (by decide +kernel) (by decide +kernel)
    (by intro g; cases g <;> decide +kernel) rfl exNew_getWord (.inl rfl) (by decide +kernel) (by decide +kernel) (by decide +kernel)
  refine ⟨t, a, b, ?_, ?_, e7⟩
  · rw [show phraseText (str! "n") (str! "новый") (str! "npc") Rec.CASE_ACCUSATIVE.verboseId = str! "[n] [новый|npc|n|вн] [npc|n|вн]" from by
      decide +kernel] at e1
    exact e1
  have hcl : agreementClass n ∈ [Rec.INTEGER_FORM_MIL_BIL, .INTEGER_FORM_SINGULAR, .INTEGER_FORM_DUAL, .INTEGER_FORM_COMPOSITE_DUAL,
      .INTEGER_FORM_PLURAL] := by
    unfold agreementClass; split_ifs <;> simp
  have hread : ∀ r ∈ m, (Reading.upd (effective exNewBase.word exNewBase.properties) (adjectiveAgreement .DEPENDENCY_MODE_FULL (agreementClass n)
      .CASE_ACCUSATIVE .GENDER_FEMININE ++ [.CASE_ACCUSATIVE, .GENDER_FEMININE, .ANIMALITY_ANIMATE, agreementClass n])) r.group = some r := e3
  replace e2 : (layoutNow .ADJECTIVE)[i]? = some m := e2
  have hforms : exNewBase.word.forms[i]? = some (novyText m) := by
    show ((layoutNow .ADJECTIVE).map novyText)[i]? = _
    rw [List.getElem?_map, e2]; rfl
  rw [hforms] at e4
  injection e4 with e4; subst e4
  have hm : m ∈ layoutNow .ADJECTIVE := List.mem_of_getElem? e2
  have hjj : ∀ slot text, (slot, text) ∈ [([some Rec.NOUN_FORM_NORMAL, some Rec.NUMBER_SINGULAR, some Rec.CASE_ACCUSATIVE], str! "русалку"),
      ([some .NOUN_FORM_COUNTABLE, some .NUMBER_PLURAL, some .CASE_ACCUSATIVE], str! "русалок"),
      ([some .NOUN_FORM_NORMAL, some .NUMBER_SINGULAR, some .CASE_GENITIVE], str! "русалки"),
      ([some .NOUN_FORM_COUNTABLE, some .NUMBER_PLURAL, some .CASE_GENITIVE], str! "русалок")] → nounSlots[j]? = some slot → b = text := by
    intro slot text hmem hs
    have hj : ∀ st ∈ [([some Rec.NOUN_FORM_NORMAL, some Rec.NUMBER_SINGULAR, some Rec.CASE_ACCUSATIVE], str! "русалку"),
      ([some .NOUN_FORM_COUNTABLE, some .NUMBER_PLURAL, some .CASE_ACCUSATIVE], str! "русалок"),
      ([some .NOUN_FORM_NORMAL, some .NUMBER_SINGULAR, some .CASE_GENITIVE], str! "русалки"),
      ([some .NOUN_FORM_COUNTABLE, some .NUMBER_PLURAL, some .CASE_GENITIVE], str! "русалок")], ∀ j < nounSlots.length,
      nounSlots[j]? = some st.1 → rmNpc.forms[j]? = some st.2 := by decide +kernel
    have := hj _ hmem j (List.getElem?_eq_some_iff.mp hs).1 hs
    rw [e6] at this; injection this
  have key : ∀ cl ∈ [Rec.INTEGER_FORM_MIL_BIL, .INTEGER_FORM_SINGULAR, .INTEGER_FORM_DUAL, .INTEGER_FORM_COMPOSITE_DUAL, .INTEGER_FORM_PLURAL],
      ∀ m ∈ layoutNow .ADJECTIVE, (∀ r ∈ m, (Reading.upd (effective exNewBase.word exNewBase.properties) (adjectiveAgreement .DEPENDENCY_MODE_FULL cl
        .CASE_ACCUSATIVE .GENDER_FEMININE ++ [.CASE_ACCUSATIVE, .GENDER_FEMININE, .ANIMALITY_ANIMATE, cl])) r.group = some r) →
      novyText m = (match cl with
        | .INTEGER_FORM_SINGULAR => str! "новую"
        | .INTEGER_FORM_DUAL => str! "новые"
        | .INTEGER_FORM_COMPOSITE_DUAL => str! "новой"
        | _ => str! "новых") := by decide +kernel
  have ha := key _ hcl m hm hread
  unfold countedSlot at e5
  generalize agreementClass n = cl at *
  simp only [List.mem_cons, List.not_mem_nil, or_false] at hcl
  rcases hcl with rfl | rfl | rfl | rfl | rfl <;> simp at e5 ha ⊢ <;> exact ⟨ha, hjj _ _ (by simp) e5⟩

/-- `[n] [новый|npc|n|вн] [npc|n|вн]` with the words новый and русалка meets the hypotheses of C160_phrase; 2 and 22 slip, 5 does not. -/
example : (∀ w ∈ [exNew], Accepted w) ∧ (∀ x ∈ [str! "n", str! "npc", str! "новый", Rec.CASE_ACCUSATIVE.verboseId], Written exPy x) ∧
    rmNpc.properties.get .GENDER = some .GENDER_FEMININE ∧ rmNpc.properties.get .ANIMALITY = some .ANIMALITY_ANIMATE ∧
    (∀ g, rmNpc.properties.isSpecified g = true ↔ g = .GENDER ∨ g = .ANIMALITY) ∧
    (history exPy [exNew]).getWord (str! "новый") = .ok exNewBase ∧
    (∀ g ∈ [Group.CASE, .GENDER, .ANIMALITY, .INTEGER_FORM], exNewBase.word.properties.isSpecified g = false) ∧
    effective exNewBase.word exNewBase.properties .DEPENDENCY_MODE = some .DEPENDENCY_MODE_FULL ∧
    effective exNewBase.word exNewBase.properties .WORD_CASE = some .WORD_CASE_LOWER ∧
    effective exNewBase.word exNewBase.properties .ADJECTIVE_FORM = some .ADJECTIVE_FORM_FULL ∧
    effective exNewBase.word exNewBase.properties .GRADE ≠ some .GRADE_COMPARATIVE ∧
    Slips (agreementClass 2) .CASE_ACCUSATIVE .GENDER_FEMININE .ANIMALITY_ANIMATE ∧
    Slips (agreementClass 22) .CASE_NOMINATIVE .GENDER_MASCULINE .ANIMALITY_INANIMATE ∧
    ¬ Slips (agreementClass 5) .CASE_ACCUSATIVE .GENDER_FEMININE .ANIMALITY_ANIMATE :=
  ⟨exNew_accepted, by unfold Written; decide +kernel, by decide +kernel, by decide +kernel, by intro g; cases g <;> decide +kernel, exNew_getWord,
    by decide +kernel, by decide +kernel, by decide +kernel, by decide +kernel, by decide +kernel, by unfold Slips; decide +kernel,
    by unfold Slips; decide +kernel, by unfold Slips; decide +kernel⟩

end Utg
