import Verif.Spec.CountedPresent
import Verif.Props.CountedSubject
/-! # C162: a counted subject and its verb in the present or the future -/

namespace Utg
open Py Spec

theorem finite_layout : ∀ time, (time = Rec.TIME_PRESENT ∨ time = .TIME_FUTURE) → ∀ person ∈ Group.PERSON.records,
    ∀ number ∈ [Rec.NUMBER_SINGULAR, .NUMBER_PLURAL],
    ∀ m ∈ layoutNow .VERB, (∀ r ∈ m, (r.group = .VERB_FORM → r = .VERB_FORM_INDICATIVE) ∧ (r.group = .TIME → r = time) ∧
      (r.group = .NUMBER → r = number) ∧ (r.group = .PERSON → r = person)) →
    m = [.VERB_FORM_INDICATIVE, time, number, person] := by
  rintro time (rfl | rfl) <;> decide +kernel

/-- C162: the verb of a counted subject, in the present or the future. -/
theorem C162_verb (U : PyUni) (ext : Externals) (d : Dictionary) (s : Substitution) (base nf f : WordForm) (noun number : Str) (n : Int)
    (gender time person : Rec) (he : GoodExternals ext) (hd : GoodDictionary d) (hr : Resolves ext d s.id base)
    (hs : s.dependencies = [.ext noun, .ext number])
    (hn : constructIntegerFresh n = .ok f) (hnumber : ext.get? number = some f)
    (hnoun : ext.get? noun = some nf) (hnt : nf.word.type ≠ .INTEGER)
    (hng : nf.properties.isSpecified .GENDER = true) (hg : nf.properties.get .GENDER = some gender)
    (hspec : ∀ g ∈ [Group.CASE, .VERB_FORM, .TIME, .PERSON, .WORD_CASE, .DEPENDENCY_MODE], nf.properties.isSpecified g = false)
    (hw : base.word.type = .VERB)
    (hfree : ∀ g ∈ [Group.NUMBER, .GENDER, .INTEGER_FORM], base.word.properties.isSpecified g = false)
    (hform : effective base.word base.properties .VERB_FORM = some .VERB_FORM_INDICATIVE)
    (ht : time = .TIME_PRESENT ∨ time = .TIME_FUTURE)
    (htime : effective base.word base.properties .TIME = some time)
    (hperson : effective base.word base.properties .PERSON = some person)
    (hcase : effective base.word base.properties .CASE = some .CASE_NOMINATIVE)
    (hmode : effective base.word base.properties .DEPENDENCY_MODE = some .DEPENDENCY_MODE_FULL)
    (hlow : effective base.word base.properties .WORD_CASE = some .WORD_CASE_LOWER) :
    ∃ (i : Nat) (form : Str), (layoutNow .VERB)[i]? = some (countedPresent n time person) ∧ base.word.forms[i]? = some form ∧ s.getText U ext d = .ok form := by
  obtain ⟨f', hf, hf1, hf2, hf3, hf4⟩ := C35_agreement_class n
  have hff := hf.symm.trans hn
  injection hff with hff; subst hff
  rw [constructIntegerFresh_eq] at hn
  injection hn with hn; subst hn
  have hsg : GoodSubstitution s := by intro p hp; rw [hs] at hp; simp at hp
  have hb := resolves_good he hd hr
  have hwp := (accepted_iff.mp hb.1).1
  have gg := got_group (he _ _ hnoun).2.1 (by decide) hg
  have gi : (agreementClass n).group = .INTEGER_FORM := mem_records_iff.mp (agreementClass_mem n)
  have hother : ∀ g, g ≠ .INTEGER_FORM → g ≠ .NUMBER → nf.properties.isSpecified g = false →
      initialReading ext base s.dependencies g = effective base.word base.properties g := by
    intro g e1 e2 h
    have hx : (integerForm n).properties.isSpecified g = false := by
      rw [Bool.eq_false_iff]; intro h; rw [hf4] at h; tauto
    rw [← effective_eq hwp hb.2.1, new2_get hb.2.1 hwp, hs]
    simp only [initialReading, lastSay, depSays, hnoun, hnumber, h, hx, Bool.false_eq_true, if_false]
  have k1 : initialReading ext base s.dependencies .DEPENDENCY_MODE = some .DEPENDENCY_MODE_FULL := by
    rw [hother _ (by decide) (by decide) (hspec _ (by simp)), hmode]
  have k2 : initialReading ext base s.dependencies .INTEGER_FORM = some (agreementClass n) := by
    rw [hs]
    simp [initialReading, lastSay, depSays, hnumber, hfree .INTEGER_FORM (by simp), (hf4 .INTEGER_FORM).mpr (.inl rfl), hf2]
  have k3 : initialReading ext base s.dependencies .CASE = some .CASE_NOMINATIVE := by
    rw [hother _ (by decide) (by decide) (hspec _ (by simp)), hcase]
  have k4 : initialReading ext base s.dependencies .GENDER = some gender := by
    have hx : (integerForm n).properties.isSpecified .GENDER = false := by
      rw [Bool.eq_false_iff]; intro h; rw [hf4] at h; simp at h
    rw [hs]
    simp [initialReading, lastSay, depSays, hnumber, hnoun, hfree .GENDER (by simp), hx, hng, hg]
  have hpr : Proper (initialReading ext base s.dependencies) := initial_proper he hb hsg
  have hm : masters ext s.dependencies = .ok [nf, integerForm n] := by simp [hs, masters, hnumber, hnoun]; rfl
  have hd1 : ∀ ρ, demand U base.word ρ nf = .ok [] := by intro ρ; simp [demand, hw, hnt]
  obtain ⟨more, hmore, hdem⟩ := verb_demand n gender
  have hd2 : demand U base.word (initialReading ext base s.dependencies) (integerForm n) = .ok (verbNumber n :: more) := by
    have hi : (integerForm n).word.type = .INTEGER := rfl
    simp [demand, hw, hi, k1, k2, k3, k4, hdem]
  have hvn : (verbNumber n).group = .NUMBER := by unfold verbNumber; split_ifs <;> rfl
  have hu : Reading.upd (initialReading ext base s.dependencies) [] = initialReading ext base s.dependencies := rfl
  rw [getText_reading he hd hsg hr, hm]
  simp only [Except.bind, agreeAll, hd1, hd2, bind, hu]
  generalize hρ : (initialReading ext base s.dependencies).upd (verbNumber n :: more) = ρ
  have hpr2 : Proper ρ := by rw [← hρ]; exact proper_upds hpr _
  have hnum : ρ .NUMBER = some (verbNumber n) := by
    rw [← hρ, upd_apply]; simp [List.find?, hvn]
  have hkeep : ∀ g, g ≠ .NUMBER → g ≠ .CASE → ρ g = initialReading ext base s.dependencies g := by
    intro g e1 e2
    rw [← hρ, upd_apply]
    have : (verbNumber n :: more).find? (fun r => decide (r.group = g)) = none := by
      rw [List.find?_eq_none]
      intro r hr
      rcases List.mem_cons.mp hr with rfl | hr
      · simp [hvn, Ne.symm e1]
      · simp [hmore r hr, Ne.symm e2]
    rw [this]
    rfl
  have hvf : ρ .VERB_FORM = some .VERB_FORM_INDICATIVE := by
    rw [hkeep _ (by decide) (by decide), hother _ (by decide) (by decide) (hspec _ (by simp)), hform]
  have hst : standIn base.word.type ρ = ρ := by simp [standIn, hw, hvf]
  obtain ⟨m, h1, h2, -⟩ := C86_slot base.word.type _ hpr2
  rw [hst] at h2
  have hlen : (layoutNow base.word.type).length = base.word.forms.length := by
    rw [(accepted_iff.mp hb.1).2, layoutNow_eq, List.length_map]
  have hlt : slotOf base.word.type ρ < base.word.forms.length := by
    rw [← hlen]; exact (List.getElem?_eq_some_iff.mp h1).1
  have hmm : m = countedPresent n time person := by
    have hvm : m ∈ layoutNow .VERB := by rw [← hw]; exact List.mem_of_getElem? h1
    have hpm : person.group = .PERSON := by
      have he := hperson
      rw [← hother _ (by decide) (by decide) (hspec _ (by simp))] at he
      obtain ⟨r, hr, hre⟩ := hpr .PERSON (by decide)
      rw [he] at hre; injection hre with hre
      rw [hre]; exact mem_records_iff.mp hr
    exact finite_layout time ht person (mem_records_iff.mpr hpm) (verbNumber n) (by unfold verbNumber; split_ifs <;> simp) m hvm (by
      intro r hr
      have hfit := h2 r hr
      refine ⟨fun e => ?_, fun e => ?_, fun e => ?_, fun e => ?_⟩
      · rw [e, hvf] at hfit; injection hfit with h; exact h.symm
      · rw [e, hkeep _ (by decide) (by decide), hother _ (by decide) (by decide) (hspec _ (by simp)), htime] at hfit
        injection hfit with h; exact h.symm
      · rw [e, hnum] at hfit; injection hfit with h; exact h.symm
      · rw [e, hkeep _ (by decide) (by decide), hother _ (by decide) (by decide) (hspec _ (by simp)), hperson] at hfit
        injection hfit with h; exact h.symm)
  subst hmm
  refine ⟨_, _, by rw [← hw]; exact h1, List.getElem?_eq_getElem hlt, ?_⟩
  have hwc : ρ .WORD_CASE = some .WORD_CASE_LOWER := by
    rw [hkeep _ (by decide) (by decide), hother _ (by decide) (by decide) (hspec _ (by simp)), hlow]
  simp [spoken, hwc, formIn, List.getD, hlt]

/-- C162: `[число] [воин|число|им] [идёт|воин|число]`. -/
theorem C162_sentence (U : PyUni) (ws : List Word) (hws : ∀ w ∈ ws, Accepted w) (ext : Externals) (names : List Str)
    (number noun verb : Str) (n : Int) (vb f : WordForm) (w : Word) (gender anim time person : Rec)
    (h1 : Written U number) (h2 : Written U noun) (h3 : Written U verb) (h4 : Written U Rec.CASE_NOMINATIVE.verboseId)
    (hx : number ∈ names) (hy : noun ∈ names) (hz : Rec.CASE_NOMINATIVE.verboseId ∉ names)
    (he : GoodExternals ext) (hn : constructIntegerFresh n = .ok f) (hnumber : ext.get? number = some f)
    (hnoun : ext.get? noun = some (WordForm.new w)) (hwt : w.type = .NOUN)
    (hng : w.properties.isSpecified .GENDER = true) (hg : w.properties.get .GENDER = some gender) (ha : w.properties.get .ANIMALITY = some anim)
    (hspec : ∀ g ∈ [Group.NOUN_FORM, .NUMBER, .CASE, .INTEGER_FORM, .VERB_FORM, .TIME, .PERSON, .WORD_CASE, .DEPENDENCY_MODE], w.properties.isSpecified g = false)
    (hverb : ext.get? verb = none) (hvb : (history U ws).getWord verb = .ok vb) (hvt : vb.word.type = .VERB)
    (hfree : ∀ g ∈ [Group.NUMBER, .GENDER, .INTEGER_FORM], vb.word.properties.isSpecified g = false)
    (hform : effective vb.word vb.properties .VERB_FORM = some .VERB_FORM_INDICATIVE)
    (ht : time = .TIME_PRESENT ∨ time = .TIME_FUTURE)
    (htime : effective vb.word vb.properties .TIME = some time)
    (hperson : effective vb.word vb.properties .PERSON = some person)
    (hcase : effective vb.word vb.properties .CASE = some .CASE_NOMINATIVE)
    (hmode : effective vb.word vb.properties .DEPENDENCY_MODE = some .DEPENDENCY_MODE_FULL)
    (hlow : effective vb.word vb.properties .WORD_CASE = some .WORD_CASE_LOWER) :
    ∃ (t : Template) (i j : Nat) (a v : Str),
      Template.empty.parse U (countedSubjectText number noun Rec.CASE_NOMINATIVE.verboseId verb) names = .ok t ∧
      nounSlots[j]? = some (countedSlot n .CASE_NOMINATIVE anim) ∧ w.forms[j]? = some a ∧
      (layoutNow .VERB)[i]? = some (countedPresent n time person) ∧ vb.word.forms[i]? = some v ∧
      t.substitute U ext (history U ws) = .ok (pyStr n ++ ' ' :: a ++ ' ' :: v) := by
  have hd := goodDictionary_history U ws hws
  obtain ⟨v1, p1⟩ := parse_written (names := names) (slugs := []) h1 (by simp) .nil
  obtain ⟨v2, p2⟩ := parse_written (names := names) (slugs := [number, Rec.CASE_NOMINATIVE.verboseId]) h2 (by simp [h1, h4])
    (.cons (reads_name h1 hx) (.cons (reads_case h4 hz) .nil))
  obtain ⟨v3, p3⟩ := parse_written (names := names) (slugs := [noun, number]) h3 (by simp [h1, h2])
    (.cons (reads_name h2 hy) (.cons (reads_name h1 hx) .nil))
  have hsp : IsLiteral [' '] := isLiteral_cons.mpr ⟨fun h => absurd h (by decide), isLiteral_nil⟩
  have hp : Pieces (countedSubjectText number noun Rec.CASE_NOMINATIVE.verboseId verb) []
      [(bracketed number [], [' ']), (bracketed noun [number, Rec.CASE_NOMINATIVE.verboseId], [' ']), (bracketed verb [noun, number], [])] := by
    have q3 := Pieces.var [' '] _ [] [] [] hsp v3 (.last [] (isFinal_of_isLiteral isLiteral_nil))
    have q2 := Pieces.var [' '] _ _ _ _ hsp v2 q3
    have q1 := Pieces.var [] _ _ _ _ isLiteral_nil v1 q2
    simpa [countedSubjectText] using q1
  obtain ⟨i, v, r1, r2, r3⟩ := C162_verb U ext (history U ws) ⟨verb, _⟩ vb (WordForm.new w) f noun number n gender time person he hd (.inr ⟨hverb, hvb⟩) rfl
    hn hnumber hnoun (by show w.type ≠ _; rw [hwt]; decide) hng hg (fun g hg => hspec g (by simp at hg ⊢; tauto)) hvt hfree hform ht htime hperson hcase hmode hlow
  have heff : ∀ g ∈ [Group.NOUN_FORM, .NUMBER, .CASE, .INTEGER_FORM, .VERB_FORM, .TIME, .PERSON, .WORD_CASE, .DEPENDENCY_MODE],
      effective w w.properties g = documentedDefault g := by
    intro g hg
    simp [effective, hspec g hg]
  obtain ⟨j, a, s1, s2, s3⟩ := C41_counted_noun U ext (history U ws) ⟨noun, _⟩ (WordForm.new w) f number n .CASE_NOMINATIVE anim he hd (.inl hnoun) rfl
    (by decide) hn hnumber hwt (fun g hg => hspec g (by simp at hg ⊢; tauto))
    (by
      show effective w w.properties _ = _
      by_cases hq : w.properties.isSpecified .ANIMALITY = true
      · rw [effective, if_pos hq]; exact ha
      · rw [effective_free (Bool.eq_false_iff.mpr hq)]; exact ha)
    (by show effective w w.properties _ = _; rw [heff _ (by simp)]; rfl)
    (by show effective w w.properties _ = _; rw [heff _ (by simp)]; rfl)
  refine ⟨_, i, j, a, v, parse_ok_of hp (.cons p1 (.cons p2 (.cons p3 .nil))), s1, s2, r1, r2, ?_⟩
  rw [show ∀ l : List Substitution, Template.empty.substitutions ++ l = l from fun _ => rfl]
  rw [substitute_parsed rfl]
  rw [constructIntegerFresh_eq] at hn
  injection hn with hn; subst hn
  have t1 := number_text (U := U) he hd hnumber
  simp only [List.mapM_cons, List.mapM_nil, bind, Except.bind, pure, Except.pure, t1, s3, r3]
  simp [filled]

/-- The verb идти. -/
def exGo : Word := ⟨.VERB, [str! "идти", str! "шёл", str! "шло", str! "шла", str! "шли", str! "иду", str! "идёшь", str! "идёт", str! "идём", str! "идёте",
  str! "идут", str! "пойду", str! "пойдёшь", str! "пойдёт", str! "пойдём", str! "пойдёте", str! "пойдут", str! "иди", str! "идёмте", str! "идите"], .new []⟩

theorem exGo_accepted : ∀ w ∈ [exGo], Accepted w := by
  intro w hw; rw [List.mem_singleton.mp hw]
  exact accepted_iff.mpr ⟨wf_new (wfargs_records []), by decide +kernel⟩

/-- How идёт is recognised. -/
def exGoes : WordForm :=
  .new exGo (some (.new [.record .VERB_FORM_INDICATIVE, .record .TIME_PRESENT, .record .NUMBER_SINGULAR, .record .PERSON_THIRD]))

theorem exGoes_getWord : (history exPy [exGo]).getWord (str! "идёт") = .ok exGoes := by
  rw [C86_dictionary exPy [exGo] exGo_accepted]
  have : entryFor exPy [exGo] (str! "идёт") = some exGoes := by decide +kernel
  rw [this]

/-- C162: «1 русалка идёт», «5 русалок идут», but «22 русалки идёт». -/
theorem C162_mermaids (n : Int) :
    ∃ (t : Template) (a v : Str),
      Template.empty.parse exPy (str! "[n] [npc|n|им] [идёт|npc|n]") [str! "n", str! "npc"] = .ok t ∧
      (a, v) = (match agreementClass n with
        | .INTEGER_FORM_SINGULAR => (str! "русалка", str! "идёт")
        | .INTEGER_FORM_DUAL => (str! "русалки", str! "идут")
        | .INTEGER_FORM_COMPOSITE_DUAL => (str! "русалки", str! "идёт")
        | _ => (str! "русалок", str! "идут")) ∧
      t.substitute exPy [(str! "npc", WordForm.new rmNpc), (str! "n", integerForm n)] (history exPy [exGo]) =
        .ok (pyStr n ++ ' ' :: a ++ ' ' :: v) := by
  have hw : ∀ x ∈ [str! "n", str! "npc", str! "идёт", Rec.CASE_NOMINATIVE.verboseId], Written exPy x := by unfold Written; decide +kernel
  have hgood : GoodExternals [(str! "npc", WordForm.new rmNpc), (str! "n", integerForm n)] := by
    intro x f hf
    simp only [Dict.get?] at hf
    split at hf
    · injection hf with hf; subst hf; exact goodForm_new rmNpc_accepted (by simp) (by simp)
    · split at hf
      · injection hf with hf; subst hf; exact integerForm_good n
      · cases hf
  obtain ⟨t, i, j, a, v, e1, e2, e3, e4, e5, e6⟩ := C162_sentence exPy [exGo] exGo_accepted
    [(str! "npc", WordForm.new rmNpc), (str! "n", integerForm n)] [str! "n", str! "npc"] (str! "n") (str! "npc") (str! "идёт") n exGoes
    (integerForm n) rmNpc .GENDER_FEMININE .ANIMALITY_ANIMATE .TIME_PRESENT .PERSON_THIRD (hw _ (by simp)) (hw _ (by simp)) (hw _ (by simp))
    (hw _ (by simp)) (by decide) (by decide) (by decide) hgood (constructIntegerFresh_eq n) rfl rfl rfl (by decide +kernel) (by decide +kernel)
    (by decide +kernel) (by decide +kernel) rfl exGoes_getWord rfl (by decide +kernel) (by decide +kernel) (.inl rfl) (by decide +kernel)
    (by decide +kernel) (by decide +kernel) (by decide +kernel) (by decide +kernel)
  rw [show countedSubjectText (str! "n") (str! "npc") Rec.CASE_NOMINATIVE.verboseId (str! "идёт") = str! "[n] [npc|n|им] [идёт|npc|n]" from by
    decide +kernel] at e1
  refine ⟨t, a, v, e1, ?_, e6⟩
  have keyv : ∀ st ∈ [([Rec.VERB_FORM_INDICATIVE, .TIME_PRESENT, .NUMBER_SINGULAR, .PERSON_THIRD], str! "идёт"),
      ([.VERB_FORM_INDICATIVE, .TIME_PRESENT, .NUMBER_PLURAL, .PERSON_THIRD], str! "идут")], ∀ i < (layoutNow .VERB).length,
      (layoutNow .VERB)[i]? = some st.1 → exGoes.word.forms[i]? = some st.2 := by decide +kernel
  have keyn : ∀ st ∈ [([some Rec.NOUN_FORM_NORMAL, some Rec.NUMBER_SINGULAR, some Rec.CASE_NOMINATIVE], str! "русалка"),
      ([some .NOUN_FORM_NORMAL, some .NUMBER_SINGULAR, some .CASE_GENITIVE], str! "русалки"),
      ([some .NOUN_FORM_COUNTABLE, some .NUMBER_PLURAL, some .CASE_GENITIVE], str! "русалок")], ∀ j < nounSlots.length,
      nounSlots[j]? = some st.1 → rmNpc.forms[j]? = some st.2 := by decide +kernel
  have hv : ∀ slot text, (slot, text) ∈ [([Rec.VERB_FORM_INDICATIVE, .TIME_PRESENT, .NUMBER_SINGULAR, .PERSON_THIRD], str! "идёт"),
      ([.VERB_FORM_INDICATIVE, .TIME_PRESENT, .NUMBER_PLURAL, .PERSON_THIRD], str! "идут")] → (layoutNow .VERB)[i]? = some slot → v = text := by
    intro slot text hm hs
    have := keyv _ hm i (List.getElem?_eq_some_iff.mp hs).1 hs
    rw [e5] at this; injection this
  have ha : ∀ slot text, (slot, text) ∈ [([some Rec.NOUN_FORM_NORMAL, some Rec.NUMBER_SINGULAR, some Rec.CASE_NOMINATIVE], str! "русалка"),
      ([some .NOUN_FORM_NORMAL, some .NUMBER_SINGULAR, some .CASE_GENITIVE], str! "русалки"),
      ([some .NOUN_FORM_COUNTABLE, some .NUMBER_PLURAL, some .CASE_GENITIVE], str! "русалок")] → nounSlots[j]? = some slot → a = text := by
    intro slot text hm hs
    have := keyn _ hm j (List.getElem?_eq_some_iff.mp hs).1 hs
    rw [e3] at this; injection this
  have hcl : agreementClass n ∈ [Rec.INTEGER_FORM_MIL_BIL, .INTEGER_FORM_SINGULAR, .INTEGER_FORM_DUAL, .INTEGER_FORM_COMPOSITE_DUAL,
      .INTEGER_FORM_PLURAL] := by
    unfold agreementClass; split_ifs <;> simp
  unfold countedSlot at e2
  unfold countedPresent at e4
  generalize agreementClass n = cl at *
  simp only [List.mem_cons, List.not_mem_nil, or_false] at hcl
  rcases hcl with rfl | rfl | rfl | rfl | rfl <;> simp at e2 e4 ⊢ <;> exact ⟨ha _ _ (by simp) e2, hv _ _ (by simp) e4⟩

end Utg
