import Verif.Spec.Sentence
import Verif.Props.Phrase
import Verif.Props.Capital
import Verif.Props.Readme
/-!
# C153: the sentence of the README
-/

namespace Utg
open Py Spec

theorem parse_capital_written {U : PyUni} {names : List Str} {capital x : Str} (h : WrittenCapital U capital x) :
    IsVariable (bracketed capital []) ∧ Substitution.parse U (doubled (bracketed capital [])) names =
      .ok ⟨x, [.props (.new [.record .WORD_CASE_UPPER])]⟩ := by
  obtain ⟨h1, h2, ⟨c, cs, rfl, h3, h4⟩, h5⟩ := h
  have hdb : doubled (bracketed (c :: cs) []) = bracketed (c :: cs) [] := by
    apply doubled_of_not_mem
    unfold bracketed
    intro hx
    simp only [List.flatMap_nil, List.append_nil] at hx
    rw [List.mem_append, List.mem_cons] at hx
    rcases hx with (hx | hx) | hx
    · exact absurd hx (by decide)
    · exact (h2 '%' hx).2.2 rfl
    · exact absurd hx (by decide)
  have hst : Stripped U (c :: cs) (c :: cs) :=
    ⟨[], [], by simp, by simp, by simp, fun d hd => by simp at hd; subst hd; exact h4, fun d hd => h5 d hd⟩
  constructor
  · exact ⟨(c :: cs), by simp [bracketed], by simp, fun hx => (h2 ']' hx).2.1 rfl⟩
  · rw [hdb, parse_bracketed (fun hx => (h2 '|' hx).1 rfl) (by simp) (by simp), strip_eq hst]
    simp [first, h3, h1, bind, Except.bind, pure, Except.pure]

theorem singular_form {w : Word} {p : Properties} {case : Rec} (hw : Accepted w) (ht : w.type = .NOUN) (hp : WFProps p) (hcase : case ∈ cases)
    (h1 : effective w p .NOUN_FORM = some .NOUN_FORM_NORMAL) (h2 : effective w p .NUMBER = some .NUMBER_SINGULAR)
    (h3 : effective w p .CASE = some case) :
    ∃ (j : Nat) (f : Str), nounSlots[j]? = some [some .NOUN_FORM_NORMAL, some .NUMBER_SINGULAR, some case] ∧ w.forms[j]? = some f ∧
      w.form p = .ok f := by
  obtain ⟨j, hj⟩ : ∃ j : Nat, nounSlots[j]? = some [some .NOUN_FORM_NORMAL, some .NUMBER_SINGULAR, some case] := by
    apply List.mem_iff_getElem?.mp
    simp only [nounSlots, List.mem_append, List.mem_map]
    exact .inl (.inl ⟨case, hcase, rfl⟩)
  have hk := C02_documented_slots.1
  rw [← ht] at hk
  obtain ⟨f, h4, h5⟩ := C02_form_in_slot w p _ j [some .NOUN_FORM_NORMAL, some .NUMBER_SINGULAR, some case] hw hp hk (by simp [hj]) (by
    intro i g r hg hr
    rw [ht] at hg
    rcases i with _ | _ | _ | i
    · simp [WordType.schema] at hg hr; subst hg hr; exact h1
    · simp [WordType.schema] at hg hr; subst hg hr; exact h2
    · simp [WordType.schema] at hg hr; subst hg hr; exact h3
    · simp at hr)
  exact ⟨j, f, hj, h4, h5⟩

theorem case_get : ∀ case ∈ cases, (Properties.new [.record case]).get .NOUN_FORM = some .NOUN_FORM_NORMAL ∧
    (Properties.new [.record case]).get .NUMBER = some .NUMBER_SINGULAR ∧ (Properties.new [.record case]).get .CASE = some case ∧
    (Properties.new [.record case]).get .WORD_CASE = some .WORD_CASE_LOWER := by decide +kernel

theorem effective_free {w : Word} {p : Properties} {g : Group} (hw : w.properties.isSpecified g = false) : effective w p g = p.get g := by
  rw [effective, hw, ← get_eq_ite_default]
  simp

theorem past_singular : ∀ g ∈ [Rec.GENDER_MASCULINE, .GENDER_NEUTER, .GENDER_FEMININE], ∀ m ∈ layoutNow .VERB,
    (∀ r ∈ m, (r.group = .VERB_FORM → r = .VERB_FORM_INDICATIVE) ∧ (r.group = .TIME → r = .TIME_PAST) ∧
      (r.group = .NUMBER → r = .NUMBER_SINGULAR) ∧ (r.group = .GENDER → r = g)) →
    m = [.VERB_FORM_INDICATIVE, .TIME_PAST, .NUMBER_SINGULAR, g] := by decide +kernel

/-- C153: the sentence of the README, `[Npc] [подарил|npc] [hero|дт] [coins] [монета|coins|вн].`, for all words and numbers. -/
theorem C153_readme_sentence (U : PyUni) (ws : List Word) (hws : ∀ w ∈ ws, Accepted w) (ext : Externals) (names : List Str)
    (capital npc verb hero coins noun : Str) (verbBase nounBase number : WordForm) (npcWord heroWord : Word) (n : Int)
    (case case' gender anim : Rec)
    -- the texts of the template
    (w1 : WrittenCapital U capital npc) (w2 : Written U npc) (w3 : Written U verb) (w4 : Written U hero) (w5 : Written U coins)
    (w6 : Written U noun) (w7 : Written U case.verboseId) (w8 : Written U case'.verboseId)
    (hcase : case ∈ cases) (hcase' : case' ∈ cases) (hx1 : npc ∈ names) (hx2 : coins ∈ names)
    (hx3 : case.verboseId ∉ names) (hx4 : case'.verboseId ∉ names)
    -- the variables: two nouns and a number
    (he : GoodExternals ext)
    (hnpc : ext.get? npc = some (WordForm.new npcWord)) (hnt : npcWord.type = .NOUN) (hng : gender.group = .GENDER)
    (hnf : npcWord.properties.isSpecified .GENDER = true) (hnv : npcWord.properties.get .GENDER = some gender)
    (hns : ∀ g ∈ [Group.NOUN_FORM, .NUMBER, .CASE, .WORD_CASE, .VERB_FORM, .TIME], npcWord.properties.isSpecified g = false)
    (hhero : ext.get? hero = some (WordForm.new heroWord)) (hht : heroWord.type = .NOUN)
    (hhs : ∀ g ∈ [Group.NOUN_FORM, .NUMBER, .CASE, .WORD_CASE], heroWord.properties.isSpecified g = false)
    (hn : constructIntegerFresh n = .ok number) (hcoins : ext.get? coins = some number)
    -- the words of the dictionary: a verb, recognised as a past singular, and a noun
    (hverb : ext.get? verb = none) (hvb : (history U ws).getWord verb = .ok verbBase) (hvt : verbBase.word.type = .VERB)
    (hvf : ∀ g ∈ [Group.VERB_FORM, .TIME, .NUMBER, .GENDER, .WORD_CASE], verbBase.word.properties.isSpecified g = false)
    (hv1 : verbBase.properties.get .VERB_FORM = some .VERB_FORM_INDICATIVE) (hv2 : verbBase.properties.get .TIME = some .TIME_PAST)
    (hv3 : verbBase.properties.get .NUMBER = some .NUMBER_SINGULAR)
    (hv4 : effective verbBase.word verbBase.properties .WORD_CASE = some .WORD_CASE_LOWER)
    (hnoun : ext.get? noun = none) (hnb : (history U ws).getWord noun = .ok nounBase) (hbt : nounBase.word.type = .NOUN)
    (hbf : ∀ g ∈ [Group.NOUN_FORM, .NUMBER, .CASE, .INTEGER_FORM], nounBase.word.properties.isSpecified g = false)
    (hanim : effective nounBase.word nounBase.properties .ANIMALITY = some anim)
    (hmode : effective nounBase.word nounBase.properties .DEPENDENCY_MODE = some .DEPENDENCY_MODE_FULL)
    (hlow : effective nounBase.word nounBase.properties .WORD_CASE = some .WORD_CASE_LOWER) :
    ∃ (t : Template) (i j k l : Nat) (a v h b : Str),
      Template.empty.parse U (sentenceText capital npc verb hero case.verboseId coins noun case'.verboseId) names = .ok t ∧
      nounSlots[l]? = some [some .NOUN_FORM_NORMAL, some .NUMBER_SINGULAR, some .CASE_NOMINATIVE] ∧ npcWord.forms[l]? = some a ∧
      (layoutNow .VERB)[i]? = some [.VERB_FORM_INDICATIVE, .TIME_PAST, .NUMBER_SINGULAR, gender] ∧ verbBase.word.forms[i]? = some v ∧
      nounSlots[j]? = some [some .NOUN_FORM_NORMAL, some .NUMBER_SINGULAR, some case] ∧ heroWord.forms[j]? = some h ∧
      nounSlots[k]? = some (countedSlot n case' anim) ∧ nounBase.word.forms[k]? = some b ∧
      (∀ c cs, a = c :: cs → t.substitute U ext (history U ws) =
        .ok (U.upperC c ++ cs ++ ' ' :: v ++ ' ' :: h ++ ' ' :: pyStr n ++ ' ' :: b ++ ['.'])) := by
  have hd := goodDictionary_history U ws hws
  have hna : Accepted npcWord := (he _ _ hnpc).1
  have hha : Accepted heroWord := (he _ _ hhero).1
  obtain ⟨v1, p1⟩ := parse_capital_written (names := names) w1
  obtain ⟨v2, p2⟩ := parse_written (names := names) (slugs := [npc]) w3 (by simp [w2]) (.cons (reads_name w2 hx1) .nil)
  obtain ⟨v3, p3⟩ := parse_written (names := names) (slugs := [case.verboseId]) w4 (by simp [w7]) (.cons (reads_case w7 hx3) .nil)
  obtain ⟨v4, p4⟩ := parse_written (names := names) (slugs := []) w5 (by simp) .nil
  obtain ⟨v5, p5⟩ := parse_written (names := names) (slugs := [coins, case'.verboseId]) w6 (by simp [w5, w8])
    (.cons (reads_name w5 hx2) (.cons (reads_case w8 hx4) .nil))
  have hsp : IsLiteral [' '] := isLiteral_cons.mpr ⟨fun h => absurd h (by decide), isLiteral_nil⟩
  have hdot : IsLiteral ['.'] := isLiteral_cons.mpr ⟨fun h => absurd h (by decide), isLiteral_nil⟩
  have hp : Pieces (sentenceText capital npc verb hero case.verboseId coins noun case'.verboseId) []
      [(bracketed capital [], [' ']), (bracketed verb [npc], [' ']), (bracketed hero [case.verboseId], [' ']), (bracketed coins [], [' ']),
        (bracketed noun [coins, case'.verboseId], ['.'])] := by
    have q5 := Pieces.var [' '] _ ['.'] ['.'] [] hsp v5 (.last ['.'] (isFinal_of_isLiteral hdot))
    have q4 := Pieces.var [' '] _ _ _ _ hsp v4 q5
    have q3 := Pieces.var [' '] _ _ _ _ hsp v3 q4
    have q2 := Pieces.var [' '] _ _ _ _ hsp v2 q3
    have q1 := Pieces.var [] _ _ _ _ isLiteral_nil v1 q2
    simpa [sentenceText] using q1
  -- the subject
  have wu : WFProps (.new [.record .WORD_CASE_UPPER]) := wf_new (by intro p hp; simp at hp)
  have eu : ∀ g, npcWord.properties.isSpecified g = false →
      effective npcWord (.new [.record .WORD_CASE_UPPER]) g = (Properties.new [.record .WORD_CASE_UPPER]).get g := by
    intro g hg; exact effective_free hg
  obtain ⟨l, a, l1, l2, l3⟩ := singular_form (case := .CASE_NOMINATIVE) hna hnt wu (by decide) (by rw [eu _ (hns _ (by simp))]; rfl)
    (by rw [eu _ (hns _ (by simp))]; rfl) (by rw [eu _ (hns _ (by simp))]; rfl)
  -- the object
  have wc : WFProps (.new [.record case]) := wf_new (by intro p hp; simp at hp)
  have gc := cases_group hcase
  have ec : ∀ g, heroWord.properties.isSpecified g = false →
      effective heroWord (.new [.record case]) g = (Properties.new [.record case]).get g := by
    intro g hg; exact effective_free hg
  obtain ⟨j, h, j1, j2, j3⟩ := singular_form (case := case) hha hht wc hcase (by rw [ec _ (hhs _ (by simp))]; exact (case_get _ hcase).1)
    (by rw [ec _ (hhs _ (by simp))]; exact (case_get _ hcase).2.1) (by rw [ec _ (hhs _ (by simp))]; exact (case_get _ hcase).2.2.1)
  have t3 : Substitution.getText U ⟨hero, [.props (.new [.record case])]⟩ ext (history U ws) = .ok h := by
    rw [(C93_readme U ext _ hero heroWord _ he hd wc hhero).2.1, j3]
    rw [ec _ (hhs _ (by simp))]
    rw [(case_get _ hcase).2.2.2]; decide
  -- the counted noun
  obtain ⟨k, b, k1, k2, k3⟩ := C41_counted_noun U ext (history U ws) ⟨noun, _⟩ nounBase number coins n case' anim he hd (.inr ⟨hnoun, hnb⟩) rfl hcase' hn
    hcoins hbt hbf hanim hmode hlow
  -- the verb
  have hr : Resolves ext (history U ws) verb verbBase := .inr ⟨hverb, hvb⟩
  have hb := resolves_good he hd hr
  have hs2 : GoodSubstitution ⟨verb, [.ext npc]⟩ := by intro p hp; simp at hp
  have hi : ∀ g, verbBase.word.properties.isSpecified g = false → initialReading ext verbBase [.ext npc] g =
      if npcWord.properties.isSpecified g then npcWord.properties.get g else verbBase.properties.get g := by
    intro g hg
    simp only [initialReading, lastSay, depSays, hnpc, hg, Bool.false_eq_true, if_false]
    show (match (if npcWord.properties.isSpecified g = true then npcWord.properties.get g else none) with
      | some r => some r
      | none => verbBase.properties.get g) = _
    by_cases hg : npcWord.properties.isSpecified g = true
    · obtain ⟨r, hr⟩ := isSpecified_iff.mp hg
      have hr' : npcWord.properties.get g = some r := by simp [Properties.get, hr]
      simp [hg, hr']
    · simp [hg]
  obtain ⟨i, m, v, r1, r2, r3, r4⟩ := spoken_slot (U := U) hb.1 (initial_proper he hb hs2) (by
    rw [hi _ (hvf _ (by simp)), hns _ (by simp)]
    simp only [Bool.false_eq_true, if_false]
    rw [← hv4, effective_free (hvf _ (by simp))])
  have t2 : Substitution.getText U ⟨verb, [.ext npc]⟩ ext (history U ws) = .ok v := by
    rw [getText_reading he hd hs2 hr]
    have hm : masters ext [.ext npc] = .ok [WordForm.new npcWord] := by simp [masters, hnpc]; rfl
    have hdem : ∀ ρ, demand U verbBase.word ρ (WordForm.new npcWord) = .ok [] := by
      intro ρ
      have : (WordForm.new npcWord).word.type ≠ .INTEGER := by show npcWord.type ≠ _; rw [hnt]; decide
      simp [demand, hvt, this]
    simp only [hm, Except.bind, agreeAll, hdem, bind]
    exact r4
  have hm : m = [.VERB_FORM_INDICATIVE, .TIME_PAST, .NUMBER_SINGULAR, gender] := by
    have e1 : initialReading ext verbBase [.ext npc] .VERB_FORM = some .VERB_FORM_INDICATIVE := by
      rw [hi _ (hvf _ (by simp)), hns _ (by simp)]; simpa using hv1
    have e2 : initialReading ext verbBase [.ext npc] .TIME = some .TIME_PAST := by
      rw [hi _ (hvf _ (by simp)), hns _ (by simp)]; simpa using hv2
    have e3 : initialReading ext verbBase [.ext npc] .NUMBER = some .NUMBER_SINGULAR := by
      rw [hi _ (hvf _ (by simp)), hns _ (by simp)]; simpa using hv3
    have e4 : initialReading ext verbBase [.ext npc] .GENDER = some gender := by
      rw [hi _ (hvf _ (by simp)), hnf]; simpa using hnv
    have hst : standIn verbBase.word.type (initialReading ext verbBase [.ext npc]) = initialReading ext verbBase [.ext npc] := by
      unfold standIn; simp [hvt, e1]
    rw [hst] at r2
    rw [hvt] at r1
    have hgm : gender ∈ [Rec.GENDER_MASCULINE, .GENDER_NEUTER, .GENDER_FEMININE] := by
      revert hng; cases gender <;> decide
    refine past_singular gender hgm m (List.mem_of_getElem? r1) fun r hr => ⟨fun h => ?_, fun h => ?_, fun h => ?_, fun h => ?_⟩
    all_goals
      have := r2 r hr
      rw [h] at this
      simp only [e1, e2, e3, e4, Option.some.injEq] at this
      exact this.symm
  refine ⟨_, i, j, k, l, a, v, h, b, parse_ok_of hp (.cons p1 (.cons p2 (.cons p3 (.cons p4 (.cons p5 .nil))))), l1, l2, ?_, r3, j1, j2, k1, k2, ?_⟩
  · rw [← hm, ← hvt]; exact r1
  intro c cs hac
  subst hac
  have t1 := (C93_readme U ext (history U ws) npc npcWord _ he hd wu hnpc).2.2 (by rw [eu _ (hns _ (by simp))]; rfl) c cs l3
  rw [show ∀ l : List Substitution, Template.empty.substitutions ++ l = l from fun _ => rfl]
  rw [substitute_parsed rfl]
  rw [constructIntegerFresh_eq] at hn
  injection hn with hn; subst hn
  have t4 := number_text (U := U) he hd hcoins
  simp only [List.mapM_cons, List.mapM_nil, bind, Except.bind, pure, Except.pure, t1, t2, t3, t4, k3]
  simp [filled]

/-! ## The words of the README meet the hypotheses -/

/-- How `подарил` is recognised. -/
def rmVerbBase : WordForm := WordForm.new rmFilled (some (propertiesOfKey ((invertedCache .VERB).getD 1 [])))

/-- How `монета` is recognised. -/
def rmNounBase : WordForm := WordForm.new rmCoin (some (propertiesOfKey ((invertedCache .NOUN).getD 0 [])))

theorem rmBases : (history exPy [rmCoin, rmFilled]).getWord (str! "подарил") = .ok rmVerbBase ∧
    (history exPy [rmCoin, rmFilled]).getWord (str! "монета") = .ok rmNounBase := by decide +kernel

theorem rmSentence : sentenceText (str! "Npc") (str! "npc") (str! "подарил") (str! "hero") Rec.CASE_DATIVE.verboseId (str! "coins") (str! "монета")
    Rec.CASE_ACCUSATIVE.verboseId = rmText := by decide +kernel

theorem rmGood (n : Int) : GoodExternals [(str! "hero", WordForm.new rmHero), (str! "npc", WordForm.new rmNpc), (str! "coins", integerForm n)] := by
  intro x f hf
  simp only [Dict.get?] at hf
  split at hf
  · injection hf with hf; subst hf; exact goodForm_new rmHero_accepted (by simp) (by simp)
  · split at hf
    · injection hf with hf; subst hf; exact goodForm_new rmNpc_accepted (by simp) (by simp)
    · split at hf
      · injection hf with hf; subst hf; exact integerForm_good n
      · cases hf

theorem rmWritten : WrittenCapital exPy (str! "Npc") (str! "npc") ∧ ∀ x ∈ [str! "npc", str! "подарил", str! "hero", str! "coins", str! "монета",
    Rec.CASE_DATIVE.verboseId, Rec.CASE_ACCUSATIVE.verboseId], Written exPy x := by
  refine ⟨⟨by decide +kernel, by decide +kernel, ⟨'N', str! "pc", by decide +kernel, by decide +kernel, by decide +kernel⟩, by decide +kernel⟩, ?_⟩
  unfold Written; decide +kernel

/-- C153: with the words of the README, every number of coins is right. -/
theorem C153_readme_words (n : Int) :
    ∃ (t : Template) (k : Nat) (b : Str),
      Template.empty.parse exPy (str! "[Npc] [подарил|npc] [hero|дт] [coins] [монета|coins|вн].") [str! "hero", str! "npc", str! "coins"] = .ok t ∧
      nounSlots[k]? = some (countedSlot n .CASE_ACCUSATIVE .ANIMALITY_INANIMATE) ∧ rmCoin.forms[k]? = some b ∧
      t.substitute exPy [(str! "hero", WordForm.new rmHero), (str! "npc", WordForm.new rmNpc), (str! "coins", integerForm n)]
        (history exPy [rmCoin, rmFilled]) = .ok (str! "Русалка подарила герою " ++ pyStr n ++ ' ' :: b ++ ['.']) := by
  have hw := rmWritten
  obtain ⟨t, i, j, k, l, a, v, h, b, e1, e2, e3, e4, e5, e6, e7, e8, e9, e10⟩ :=
    C153_readme_sentence exPy [rmCoin, rmFilled] (by intro w hw; simp at hw; rcases hw with rfl | rfl; exacts [rmCoin_accepted, rmFilled_accepted])
      [(str! "hero", WordForm.new rmHero), (str! "npc", WordForm.new rmNpc), (str! "coins", integerForm n)]
      [str! "hero", str! "npc", str! "coins"] (str! "Npc") (str! "npc") (str! "подарил") (str! "hero") (str! "coins") (str! "монета")
      rmVerbBase rmNounBase (integerForm n) rmNpc rmHero n .CASE_DATIVE .CASE_ACCUSATIVE .GENDER_FEMININE .ANIMALITY_INANIMATE
      hw.1 (hw.2 _ (by simp)) (hw.2 _ (by simp)) (hw.2 _ (by simp)) (hw.2 _ (by simp)) (hw.2 _ (by simp)) (hw.2 _ (by simp)) (hw.2 _ (by simp))
      (by decide) (by decide) (by decide) (by decide) (by decide) (by decide)
      (rmGood n) rfl rfl rfl (by decide +kernel) (by decide +kernel) (by decide +kernel) rfl rfl (by decide +kernel) (constructIntegerFresh_eq n) rfl
      rfl rmBases.1 rfl (by decide +kernel) (by decide +kernel) (by decide +kernel) (by decide +kernel) (by decide +kernel)
      rfl rmBases.2 rfl (by decide +kernel) (by decide +kernel) (by decide +kernel) (by decide +kernel)
  have a1 : a = str! "русалка" := by
    have : l = 0 := by
      have hl : l < 18 := (List.getElem?_eq_some_iff.mp e2).1
      have key : ∀ l < 18, nounSlots[l]? = some [some Rec.NOUN_FORM_NORMAL, some .NUMBER_SINGULAR, some .CASE_NOMINATIVE] → l = 0 := by decide +kernel
      exact key l hl e2
    subst this; injection e3 with e3; exact e3.symm
  have a2 : v = str! "подарила" := by
    have : i = 3 := by
      have hl : i < 20 := (List.getElem?_eq_some_iff.mp e4).1
      have key : ∀ i < 20, (layoutNow .VERB)[i]? = some [Rec.VERB_FORM_INDICATIVE, .TIME_PAST, .NUMBER_SINGULAR, .GENDER_FEMININE] → i = 3 := by decide +kernel
      exact key i hl e4
    subst this; injection e5 with e5; exact e5.symm
  have a3 : h = str! "герою" := by
    have : j = 2 := by
      have hl : j < 18 := (List.getElem?_eq_some_iff.mp e6).1
      have key : ∀ j < 18, nounSlots[j]? = some [some Rec.NOUN_FORM_NORMAL, some .NUMBER_SINGULAR, some .CASE_DATIVE] → j = 2 := by decide +kernel
      exact key j hl e6
    subst this; injection e7 with e7; exact e7.symm
  rw [rmSentence] at e1
  refine ⟨t, k, b, e1, e8, e9, ?_⟩
  rw [e10 'р' (str! "усалка") a1, a2, a3]
  rw [show exPy.upperC 'р' = ['Р'] from by decide +kernel]
  simp

end Utg
