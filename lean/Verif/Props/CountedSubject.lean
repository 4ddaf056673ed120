import Verif.Spec.CountedSubject
import Verif.Props.Phrase
import Verif.Props.Sentence
/-! # C159: a counted subject and its verb -/

namespace Utg
open Py Spec

theorem past_layout : ∀ gender ∈ [Rec.GENDER_MASCULINE, .GENDER_NEUTER, .GENDER_FEMININE], ∀ number ∈ [Rec.NUMBER_SINGULAR, .NUMBER_PLURAL],
    ∀ m ∈ layoutNow .VERB, (∀ r ∈ m, (r.group = .VERB_FORM → r = .VERB_FORM_INDICATIVE) ∧ (r.group = .TIME → r = .TIME_PAST) ∧
      (r.group = .NUMBER → r = number) ∧ (r.group = .GENDER → r = gender)) →
    m = if number = .NUMBER_SINGULAR then [.VERB_FORM_INDICATIVE, .TIME_PAST, .NUMBER_SINGULAR, gender]
      else [.VERB_FORM_INDICATIVE, .TIME_PAST, .NUMBER_PLURAL] := by decide +kernel

/-- The number of the verb. -/
def verbNumber (n : Int) : Rec :=
  if agreementClass n = .INTEGER_FORM_SINGULAR ∨ agreementClass n = .INTEGER_FORM_COMPOSITE_DUAL then .NUMBER_SINGULAR else .NUMBER_PLURAL

theorem verb_demand (n : Int) (gender : Rec) : ∃ more, (∀ r ∈ more, r.group = .CASE) ∧
    adjectiveAgreement .DEPENDENCY_MODE_FULL (agreementClass n) .CASE_NOMINATIVE gender = verbNumber n :: more := by
  have hc : agreementClass n ∈ [Rec.INTEGER_FORM_MIL_BIL, .INTEGER_FORM_SINGULAR, .INTEGER_FORM_DUAL, .INTEGER_FORM_COMPOSITE_DUAL,
      .INTEGER_FORM_PLURAL] := by
    unfold agreementClass; split_ifs <;> simp
  unfold verbNumber
  simp only [List.mem_cons, List.not_mem_nil, or_false] at hc
  rcases hc with h | h | h | h | h <;> rw [h]
  · exact ⟨[.CASE_GENITIVE], by decide, rfl⟩
  · exact ⟨[], by decide, rfl⟩
  · by_cases hg : gender = .GENDER_FEMININE
    · subst hg; exact ⟨[.CASE_NOMINATIVE], by decide, rfl⟩
    · exact ⟨[.CASE_GENITIVE], by decide, by simp [adjectiveAgreement, hg]⟩
  · exact ⟨[.CASE_GENITIVE], by decide, rfl⟩
  · exact ⟨[.CASE_GENITIVE], by decide, rfl⟩

/-- C159: the verb of a counted subject. -/
theorem C159_verb (U : PyUni) (ext : Externals) (d : Dictionary) (s : Substitution) (base nf f : WordForm) (noun number : Str) (n : Int)
    (gender : Rec) (he : GoodExternals ext) (hd : GoodDictionary d) (hr : Resolves ext d s.id base)
    (hs : s.dependencies = [.ext noun, .ext number])
    (hn : constructIntegerFresh n = .ok f) (hnumber : ext.get? number = some f)
    (hnoun : ext.get? noun = some nf) (hnt : nf.word.type ≠ .INTEGER)
    (hng : nf.properties.isSpecified .GENDER = true) (hg : nf.properties.get .GENDER = some gender)
    (hspec : ∀ g ∈ [Group.CASE, .VERB_FORM, .TIME, .WORD_CASE, .DEPENDENCY_MODE], nf.properties.isSpecified g = false)
    (hw : base.word.type = .VERB)
    (hfree : ∀ g ∈ [Group.NUMBER, .GENDER, .INTEGER_FORM], base.word.properties.isSpecified g = false)
    (hform : effective base.word base.properties .VERB_FORM = some .VERB_FORM_INDICATIVE)
    (htime : effective base.word base.properties .TIME = some .TIME_PAST)
    (hcase : effective base.word base.properties .CASE = some .CASE_NOMINATIVE)
    (hmode : effective base.word base.properties .DEPENDENCY_MODE = some .DEPENDENCY_MODE_FULL)
    (hlow : effective base.word base.properties .WORD_CASE = some .WORD_CASE_LOWER) :
    ∃ (i : Nat) (form : Str), (layoutNow .VERB)[i]? = some (countedPast n gender) ∧ base.word.forms[i]? = some form ∧ s.getText U ext d = .ok form := by
  obtain ⟨f', hf, hf1, hf2, hf3, hf4⟩ := C35_agreement_class n
  have hff := hf.symm.trans hn
  injection hff with hff; subst hff
  rw [constructIntegerFresh_eq] at hn
  injection hn with hn; subst hn
  have hsg : GoodSubstitution s := by intro p hp; rw [hs] at hp; simp at hp
  have hb := resolves_good he hd hr
  have hwp := (accepted_iff.mp hb.1).1
  have gg := got_group (he _ _ hnoun).2.1 (by decide) hg
  have gi : (agreementClass n).group = .INTEGER_FORM := mem_records_iff.mp (agreementClass_mem n)
  have hother : ∀ g, g ≠ .INTEGER_FORM → g ≠ .NUMBER → nf.properties.isSpecified g = false →
      initialReading ext base s.dependencies g = effective base.word base.properties g := by
    intro g e1 e2 h
    have hx : (integerForm n).properties.isSpecified g = false := by
      rw [Bool.eq_false_iff]; intro h; rw [hf4] at h; tauto
    rw [← effective_eq hwp hb.2.1, new2_get hb.2.1 hwp, hs]
    simp only [initialReading, lastSay, depSays, hnoun, hnumber, h, hx, Bool.false_eq_true, if_false]
  have k1 : initialReading ext base s.dependencies .DEPENDENCY_MODE = some .DEPENDENCY_MODE_FULL := by
    rw [hother _ (by decide) (by decide) (hspec _ (by simp)), hmode]
  have k2 : initialReading ext base s.dependencies .INTEGER_FORM = some (agreementClass n) := by
    rw [hs]
    simp [initialReading, lastSay, depSays, hnumber, hfree .INTEGER_FORM (by simp), (hf4 .INTEGER_FORM).mpr (.inl rfl), hf2]
  have k3 : initialReading ext base s.dependencies .CASE = some .CASE_NOMINATIVE := by
    rw [hother _ (by decide) (by decide) (hspec _ (by simp)), hcase]
  have k4 : initialReading ext base s.dependencies .GENDER = some gender := by
    have hx : (integerForm n).properties.isSpecified .GENDER = false := by
      rw [Bool.eq_false_iff]; intro h; rw [hf4] at h; simp at h
    rw [hs]
    simp [initialReading, lastSay, depSays, hnumber, hnoun, hfree .GENDER (by simp), hx, hng, hg]
  have hpr : Proper (initialReading ext base s.dependencies) := initial_proper he hb hsg
  have hm : masters ext s.dependencies = .ok [nf, integerForm n] := by simp [hs, masters, hnumber, hnoun]; rfl
  have hd1 : ∀ ρ, demand U base.word ρ nf = .ok [] := by intro ρ; simp [demand, hw, hnt]
  obtain ⟨more, hmore, hdem⟩ := verb_demand n gender
  have hd2 : demand U base.word (initialReading ext base s.dependencies) (integerForm n) = .ok (verbNumber n :: more) := by
    have hi : (integerForm n).word.type = .INTEGER := rfl
    simp [demand, hw, hi, k1, k2, k3, k4, hdem]
  have hvn : (verbNumber n).group = .NUMBER := by unfold verbNumber; split_ifs <;> rfl
  have hu : Reading.upd (initialReading ext base s.dependencies) [] = initialReading ext base s.dependencies := rfl
  rw [getText_reading he hd hsg hr, hm]
  simp only [Except.bind, agreeAll, hd1, hd2, bind, hu]
  generalize hρ : (initialReading ext base s.dependencies).upd (verbNumber n :: more) = ρ
  have hpr2 : Proper ρ := by rw [← hρ]; exact proper_upds hpr _
  have hnum : ρ .NUMBER = some (verbNumber n) := by
    rw [← hρ, upd_apply]; simp [List.find?, hvn]
  have hkeep : ∀ g, g ≠ .NUMBER → g ≠ .CASE → ρ g = initialReading ext base s.dependencies g := by
    intro g e1 e2
    rw [← hρ, upd_apply]
    have : (verbNumber n :: more).find? (fun r => decide (r.group = g)) = none := by
      rw [List.find?_eq_none]
      intro r hr
      rcases List.mem_cons.mp hr with rfl | hr
      · simp [hvn, Ne.symm e1]
      · simp [hmore r hr, Ne.symm e2]
    rw [this]
    rfl
  have hvf : ρ .VERB_FORM = some .VERB_FORM_INDICATIVE := by
    rw [hkeep _ (by decide) (by decide), hother _ (by decide) (by decide) (hspec _ (by simp)), hform]
  have hst : standIn base.word.type ρ = ρ := by simp [standIn, hw, hvf]
  obtain ⟨m, h1, h2, -⟩ := C86_slot base.word.type _ hpr2
  rw [hst] at h2
  have hlen : (layoutNow base.word.type).length = base.word.forms.length := by
    rw [(accepted_iff.mp hb.1).2, layoutNow_eq, List.length_map]
  have hlt : slotOf base.word.type ρ < base.word.forms.length := by
    rw [← hlen]; exact (List.getElem?_eq_some_iff.mp h1).1
  have hmm : m = countedPast n gender := by
    have hvm : m ∈ layoutNow .VERB := by rw [← hw]; exact List.mem_of_getElem? h1
    have hgm : gender ∈ [Rec.GENDER_MASCULINE, .GENDER_NEUTER, .GENDER_FEMININE] := by
      have : gender ∈ Group.GENDER.records := mem_records_iff.mpr gg
      revert this; cases gender <;> decide
    have := past_layout gender hgm (verbNumber n) (by unfold verbNumber; split_ifs <;> simp) m hvm (by
      intro r hr
      have hfit := h2 r hr
      refine ⟨fun e => ?_, fun e => ?_, fun e => ?_, fun e => ?_⟩
      · rw [e, hvf] at hfit; injection hfit with h; exact h.symm
      · rw [e, hkeep _ (by decide) (by decide), hother _ (by decide) (by decide) (hspec _ (by simp)), htime] at hfit
        injection hfit with h; exact h.symm
      · rw [e, hnum] at hfit; injection hfit with h; exact h.symm
      · rw [e, hkeep _ (by decide) (by decide), k4] at hfit; injection hfit with h; exact h.symm)
    rw [this]
    unfold countedPast verbNumber
    split_ifs <;> simp_all
  subst hmm
  refine ⟨_, _, by rw [← hw]; exact h1, List.getElem?_eq_getElem hlt, ?_⟩
  have hwc : ρ .WORD_CASE = some .WORD_CASE_LOWER := by
    rw [hkeep _ (by decide) (by decide), hother _ (by decide) (by decide) (hspec _ (by simp)), hlow]
  simp [spoken, hwc, formIn, List.getD, hlt]

/-- C159: `[число] [воин|число|им] [пришёл|воин|число]`. -/
theorem C159_sentence (U : PyUni) (ws : List Word) (hws : ∀ w ∈ ws, Accepted w) (ext : Externals) (names : List Str)
    (number noun verb : Str) (n : Int) (vb f : WordForm) (w : Word) (gender anim : Rec)
    (h1 : Written U number) (h2 : Written U noun) (h3 : Written U verb) (h4 : Written U Rec.CASE_NOMINATIVE.verboseId)
    (hx : number ∈ names) (hy : noun ∈ names) (hz : Rec.CASE_NOMINATIVE.verboseId ∉ names)
    (he : GoodExternals ext) (hn : constructIntegerFresh n = .ok f) (hnumber : ext.get? number = some f)
    (hnoun : ext.get? noun = some (WordForm.new w)) (hwt : w.type = .NOUN)
    (hng : w.properties.isSpecified .GENDER = true) (hg : w.properties.get .GENDER = some gender) (ha : w.properties.get .ANIMALITY = some anim)
    (hspec : ∀ g ∈ [Group.NOUN_FORM, .NUMBER, .CASE, .INTEGER_FORM, .VERB_FORM, .TIME, .WORD_CASE, .DEPENDENCY_MODE], w.properties.isSpecified g = false)
    (hverb : ext.get? verb = none) (hvb : (history U ws).getWord verb = .ok vb) (hvt : vb.word.type = .VERB)
    (hfree : ∀ g ∈ [Group.NUMBER, .GENDER, .INTEGER_FORM], vb.word.properties.isSpecified g = false)
    (hform : effective vb.word vb.properties .VERB_FORM = some .VERB_FORM_INDICATIVE)
    (htime : effective vb.word vb.properties .TIME = some .TIME_PAST)
    (hcase : effective vb.word vb.properties .CASE = some .CASE_NOMINATIVE)
    (hmode : effective vb.word vb.properties .DEPENDENCY_MODE = some .DEPENDENCY_MODE_FULL)
    (hlow : effective vb.word vb.properties .WORD_CASE = some .WORD_CASE_LOWER) :
    ∃ (t : Template) (i j : Nat) (a v : Str),
      Template.empty.parse U (countedSubjectText number noun Rec.CASE_NOMINATIVE.verboseId verb) names = .ok t ∧
      nounSlots[j]? = some (countedSlot n .CASE_NOMINATIVE anim) ∧ w.forms[j]? = some a ∧
      (layoutNow .VERB)[i]? = some (countedPast n gender) ∧ vb.word.forms[i]? = some v ∧
      t.substitute U ext (history U ws) = .ok (pyStr n ++ ' ' :: a ++ ' ' :: v) := by
  have hd := goodDictionary_history U ws hws
  obtain ⟨v1, p1⟩ := parse_written (names := names) (slugs := []) h1 (by simp) .nil
  obtain ⟨v2, p2⟩ := parse_written (names := names) (slugs := [number, Rec.CASE_NOMINATIVE.verboseId]) h2 (by simp [h1, h4])
    (.cons (reads_name h1 hx) (.cons (reads_case h4 hz) .nil))
  obtain ⟨v3, p3⟩ := parse_written (names := names) (slugs := [noun, number]) h3 (by simp [h1, h2])
    (.cons (reads_name h2 hy) (.cons (reads_name h1 hx) .nil))
  have hsp : IsLiteral [' '] := isLiteral_cons.mpr ⟨fun h => absurd h (by decide), isLiteral_nil⟩
  have hp : Pieces (countedSubjectText number noun Rec.CASE_NOMINATIVE.verboseId verb) []
      [(bracketed number [], [' ']), (bracketed noun [number, Rec.CASE_NOMINATIVE.verboseId], [' ']), (bracketed verb [noun, number], [])] := by
    have q3 := Pieces.var [' '] _ [] [] [] hsp v3 (.last [] (isFinal_of_isLiteral isLiteral_nil))
    have q2 := Pieces.var [' '] _ _ _ _ hsp v2 q3
    have q1 := Pieces.var [] _ _ _ _ isLiteral_nil v1 q2
    simpa [countedSubjectText] using q1
  obtain ⟨i, v, r1, r2, r3⟩ := C159_verb U ext (history U ws) ⟨verb, _⟩ vb (WordForm.new w) f noun number n gender he hd (.inr ⟨hverb, hvb⟩) rfl
    hn hnumber hnoun (by show w.type ≠ _; rw [hwt]; decide) hng hg (fun g hg => hspec g (by simp at hg ⊢; tauto)) hvt hfree hform htime hcase hmode hlow
  have heff : ∀ g ∈ [Group.NOUN_FORM, .NUMBER, .CASE, .INTEGER_FORM, .VERB_FORM, .TIME, .WORD_CASE, .DEPENDENCY_MODE],
      effective w w.properties g = documentedDefault g := by
    intro g hg
    simp [effective, hspec g hg]
  obtain ⟨j, a, s1, s2, s3⟩ := C41_counted_noun U ext (history U ws) ⟨noun, _⟩ (WordForm.new w) f number n .CASE_NOMINATIVE anim he hd (.inl hnoun) rfl
    (by decide) hn hnumber hwt (fun g hg => hspec g (by simp at hg ⊢; tauto))
    (by
      show effective w w.properties _ = _
      by_cases hq : w.properties.isSpecified .ANIMALITY = true
      · rw [effective, if_pos hq]; exact ha
      · rw [effective_free (Bool.eq_false_iff.mpr hq)]; exact ha)
    (by show effective w w.properties _ = _; rw [heff _ (by simp)]; rfl)
    (by show effective w w.properties _ = _; rw [heff _ (by simp)]; rfl)
  refine ⟨_, i, j, a, v, parse_ok_of hp (.cons p1 (.cons p2 (.cons p3 .nil))), s1, s2, r1, r2, ?_⟩
  rw [show ∀ l : List Substitution, Template.empty.substitutions ++ l = l from fun _ => rfl]
  rw [substitute_parsed rfl]
  rw [constructIntegerFresh_eq] at hn
  injection hn with hn; subst hn
  have t1 := number_text (U := U) he hd hnumber
  simp only [List.mapM_cons, List.mapM_nil, bind, Except.bind, pure, Except.pure, t1, s3, r3]
  simp [filled]

/-- C159: with the words of the README: «1 русалка подарила», «5 русалок подарили», but «22 русалки подарила». -/
theorem C159_mermaids (n : Int) :
    ∃ (t : Template) (j : Nat) (a v : Str),
      Template.empty.parse exPy (str! "[n] [npc|n|им] [подарил|npc|n]") [str! "n", str! "npc"] = .ok t ∧
      nounSlots[j]? = some (countedSlot n .CASE_NOMINATIVE .ANIMALITY_ANIMATE) ∧ rmNpc.forms[j]? = some a ∧
      v = (if agreementClass n = .INTEGER_FORM_SINGULAR ∨ agreementClass n = .INTEGER_FORM_COMPOSITE_DUAL then str! "подарила" else str! "подарили") ∧
      t.substitute exPy [(str! "npc", WordForm.new rmNpc), (str! "n", integerForm n)] (history exPy [rmCoin, rmFilled]) =
        .ok (pyStr n ++ ' ' :: a ++ ' ' :: v) := by
  have hw : ∀ x ∈ [str! "n", str! "npc", str! "подарил", Rec.CASE_NOMINATIVE.verboseId], Written exPy x := by unfold Written; decide +kernel
  have hgood : GoodExternals [(str! "npc", WordForm.new rmNpc), (str! "n", integerForm n)] := by
    intro x f hf
    simp only [Dict.get?] at hf
    split at hf
    · injection hf with hf; subst hf; exact goodForm_new rmNpc_accepted (by simp) (by simp)
    · split at hf
      · injection hf with hf; subst hf; exact integerForm_good n
      · cases hf
  obtain ⟨t, i, j, a, v, e1, e2, e3, e4, e5, e6⟩ := C159_sentence exPy [rmCoin, rmFilled]
    (by intro w hw; simp at hw; rcases hw with rfl | rfl; exacts [rmCoin_accepted, rmFilled_accepted])
    [(str! "npc", WordForm.new rmNpc), (str! "n", integerForm n)] [str! "n", str! "npc"] (str! "n") (str! "npc") (str! "подарил") n rmVerbBase
    (integerForm n) rmNpc .GENDER_FEMININE .ANIMALITY_ANIMATE (hw _ (by simp)) (hw _ (by simp)) (hw _ (by simp)) (hw _ (by simp))
    (by decide) (by decide) (by decide) hgood (constructIntegerFresh_eq n) rfl rfl rfl (by decide +kernel) (by decide +kernel) (by decide +kernel)
    (by decide +kernel) rfl rmBases.1 rfl (by decide +kernel) (by decide +kernel) (by decide +kernel) (by decide +kernel) (by decide +kernel)
    (by decide +kernel)
  rw [show countedSubjectText (str! "n") (str! "npc") Rec.CASE_NOMINATIVE.verboseId (str! "подарил") = str! "[n] [npc|n|им] [подарил|npc|n]" from by
    decide +kernel] at e1
  refine ⟨t, j, a, v, e1, e2, e3, ?_, e6⟩
  have key : ∀ i < (layoutNow .VERB).length,
      ((layoutNow .VERB)[i]? = some [.VERB_FORM_INDICATIVE, .TIME_PAST, .NUMBER_SINGULAR, .GENDER_FEMININE] → rmVerbBase.word.forms[i]? = some (str! "подарила")) ∧
      ((layoutNow .VERB)[i]? = some [.VERB_FORM_INDICATIVE, .TIME_PAST, .NUMBER_PLURAL] → rmVerbBase.word.forms[i]? = some (str! "подарили")) := by
    decide +kernel
  have hi := key i (List.getElem?_eq_some_iff.mp e4).1
  unfold countedPast at e4
  split_ifs at e4 ⊢ with hc
  · rw [hi.1 e4] at e5; injection e5 with e5; exact e5.symm
  · rw [hi.2 e4] at e5; injection e5 with e5; exact e5.symm

end Utg
