import Verif.Spec.Phrase
import Verif.Props.Expressive
import Verif.Props.Semantic
/-!
# C125 - C128: phrases
-/

namespace Utg
open Py Spec

theorem written_stripped {U : PyUni} {x : Str} (h : Written U x) : Stripped U x x :=
  ⟨[], [], by simp, by simp, by simp, fun c hc => (h.2.2.2.1 c hc).2, fun c hc => h.2.2.2.2 c hc⟩

theorem written_cons {U : PyUni} {x : Str} (h : Written U x) : ∃ c cs, x = c :: cs ∧ U.isUpper c = false := by
  obtain ⟨h1, -, -, h4, -⟩ := h
  cases x with
  | nil => exact absurd rfl h1
  | cons c cs => exact ⟨c, cs, rfl, (h4 c (by simp)).1⟩

theorem reads_name {U : PyUni} {names : List Str} {x : Str} (h : Written U x) (hx : x ∈ names) : Reads U names x (.ext x) :=
  ⟨x, by rw [h.2.2.1]; exact (written_stripped h), .inl ⟨hx, rfl⟩⟩

theorem reads_case {U : PyUni} {names : List Str} {case : Rec} (h : Written U case.verboseId) (hx : case.verboseId ∉ names) :
    Reads U names case.verboseId (.props (.new [.record case])) :=
  reads_ids (rs := [case]) (by simp) (by rw [h.2.2.1]; simpa using (written_stripped h)) (by simpa using hx)

/-- A variable of written words. -/
theorem parse_written {U : PyUni} {names : List Str} {head : Str} {slugs : List Str} {deps : List Dep} (h : Written U head)
    (hs : ∀ s ∈ slugs, Written U s) (hd : List.Forall₂ (Reads U names) slugs deps) :
    IsVariable (bracketed head slugs) ∧ Substitution.parse U (doubled (bracketed head slugs)) names = .ok ⟨head, deps⟩ := by
  obtain ⟨c, cs, rfl, hc⟩ := written_cons h
  have hmem : ∀ x ∈ (c :: cs) ++ slugs.flatMap ('|' :: ·), x ≠ ']' ∧ x ≠ '%' := by
    intro x hx
    rcases List.mem_append.mp hx with hx | hx
    · exact (h.2.1 x hx).2
    · obtain ⟨s, hs1, hs2⟩ := List.mem_flatMap.mp hx
      rcases List.mem_cons.mp hs2 with rfl | hs2
      · decide
      · exact ((hs s hs1).2.1 x hs2).2
  have hdb : doubled (bracketed (c :: cs) slugs) = bracketed (c :: cs) slugs := by
    apply doubled_of_not_mem
    unfold bracketed
    intro hx
    rw [List.mem_append, List.mem_cons] at hx
    rcases hx with (hx | hx) | hx
    · exact absurd hx (by decide)
    · exact (hmem '%' hx).2 rfl
    · exact absurd hx (by decide)
  constructor
  · exact ⟨(c :: cs) ++ slugs.flatMap ('|' :: ·), rfl, by simp, fun hx => (hmem ']' hx).1 rfl⟩
  · rw [hdb, C46_parse U names (c :: cs) slugs deps c cs (fun hx => (h.2.1 _ hx).1 rfl) (fun s hs1 hx => ((hs s hs1).2.1 _ hx).1 rfl) (written_stripped h) hd]
    simp [hc, h.2.2.1]

/-- The number itself. -/
theorem number_text {U : PyUni} {ext : Externals} {d : Dictionary} {number : Str} {n : Int} (he : GoodExternals ext) (hd : GoodDictionary d)
    (hn : ext.get? number = some (integerForm n)) : Substitution.getText U ⟨number, []⟩ ext d = .ok (pyStr n) := by
  rw [getText_reading he hd (by intro p hp; simp at hp) (.inl hn)]
  simp only [masters, Except.bind, agreeAll]
  rw [← integerForm_form U n, C86_word_form U _ (he _ _ hn)]
  congr 1
  funext g
  simp only [initialReading, lastSay]
  split <;> rfl

theorem got_group {p : Properties} {g : Group} {r : Rec} (hp : WFProps p) (hg : g ≠ .WORD_TYPE) (h : p.get g = some r) : r.group = g := by
  obtain ⟨r', hr, h'⟩ := get_mem_records hp hg
  rw [h'] at h; injection h with h; subst h; exact mem_records_iff.mp hr

/-- The modifier before agreement. -/
theorem modifier_initial {ext : Externals} {base nf : WordForm} {noun number : Str} {n : Int} {case gender anim : Rec} (hb : GoodForm base)
    (gg : gender.group = .GENDER) (ga : anim.group = .ANIMALITY)
    (hnoun : ext.get? noun = some nf) (hnumber : ext.get? number = some (integerForm n)) (hcase : case ∈ cases)
    (hg : nf.properties.get .GENDER = some gender) (ha : nf.properties.get .ANIMALITY = some anim)
    (hspec : ∀ g, nf.properties.isSpecified g = true ↔ g = .GENDER ∨ g = .ANIMALITY)
    (hfree : ∀ g ∈ [Group.CASE, .GENDER, .ANIMALITY, .INTEGER_FORM], base.word.properties.isSpecified g = false) (g : Group) (hng : g ≠ .NUMBER) :
    initialReading ext base [.ext noun, .ext number, .props (.new [.record case])] g =
      Reading.upd (effective base.word base.properties) [case, gender, anim, agreementClass n] g := by
  obtain ⟨f, hf, hf1, hf2, hf3, hf4⟩ := C35_agreement_class n
  rw [constructIntegerFresh_eq] at hf
  injection hf with hf; subst hf
  have hwp := (accepted_iff.mp hb.1).1
  have hsay0 : ∀ g, depSays ext (.ext noun) g = if nf.properties.isSpecified g then nf.properties.get g else none := by
    intro g; simp only [depSays, hnoun]
  have hsay : ∀ g, depSays ext (.ext number) g = if (integerForm n).properties.isSpecified g then (integerForm n).properties.get g else none := by
    intro g; simp only [depSays, hnumber]
  have hsay2 : ∀ g, depSays ext (.props (.new [.record case])) g = if g = .CASE then some case else none := by
    intro g
    rw [depSays_eq]
    simp only [depProps]
    rw [new_get? (by intro p hp; simp at hp)]
    simp only [List.reverse_cons, List.reverse_nil, List.nil_append, List.findSome?_cons, List.findSome?_nil, argGet, cases_group hcase]
    by_cases hg : g = .CASE
    · subst hg; simp
    · simp [hg, Ne.symm hg]
  have gi : (agreementClass n).group = .INTEGER_FORM := mem_records_iff.mp (agreementClass_mem n)
  have gc := cases_group hcase
  rw [upd_apply]
  by_cases e1 : g = .CASE
  · subst e1
    simp [initialReading, lastSay, hfree .CASE (by decide), hsay2, gc]
  by_cases e2 : g = .GENDER
  · subst e2
    have hx : (integerForm n).properties.isSpecified .GENDER = false := by
      rw [Bool.eq_false_iff]; intro h; rw [hf4] at h; simp at h
    simp [initialReading, lastSay, hfree .GENDER (by decide), hsay2, hsay, hsay0, gc, gg, hx, (hspec .GENDER).mpr (.inl rfl), hg]
  by_cases e3 : g = .ANIMALITY
  · subst e3
    have hx : (integerForm n).properties.isSpecified .ANIMALITY = false := by
      rw [Bool.eq_false_iff]; intro h; rw [hf4] at h; simp at h
    simp [initialReading, lastSay, hfree .ANIMALITY (by decide), hsay2, hsay, hsay0, gc, gg, ga, hx, (hspec .ANIMALITY).mpr (.inr rfl), ha]
  by_cases e4 : g = .INTEGER_FORM
  · subst e4
    simp [initialReading, lastSay, hfree .INTEGER_FORM (by decide), hsay2, hsay, gc, gg, ga, gi, (hf4 .INTEGER_FORM).mpr (.inl rfl), hf2]
  have hx : (integerForm n).properties.isSpecified g = false := by
    rw [Bool.eq_false_iff]; intro h; rw [hf4] at h; tauto
  have hy : nf.properties.isSpecified g = false := by
    rw [Bool.eq_false_iff]; intro h; rw [hspec] at h; tauto
  rw [← effective_eq hwp hb.2.1, new2_get hb.2.1 hwp]
  simp [initialReading, lastSay, hsay2, hsay, hsay0, e1, hx, hy, gc, gg, ga, gi, Ne.symm e1, Ne.symm e2, Ne.symm e3, Ne.symm e4]

/-- C125: the modifier of a counted noun. -/
theorem C125_modifier (U : PyUni) (ext : Externals) (d : Dictionary) (s : Substitution) (base nf f : WordForm) (noun number : Str) (n : Int)
    (case gender anim : Rec) (he : GoodExternals ext) (hd : GoodDictionary d) (hr : Resolves ext d s.id base)
    (hs : s.dependencies = [.ext noun, .ext number, .props (.new [.record case])]) (hcase : case ∈ cases)
    (hn : constructIntegerFresh n = .ok f) (hnumber : ext.get? number = some f)
    (hnoun : ext.get? noun = some nf) (hnt : nf.word.type ≠ .INTEGER)
    (hg : nf.properties.get .GENDER = some gender) (ha : nf.properties.get .ANIMALITY = some anim)
    (hspec : ∀ g, nf.properties.isSpecified g = true ↔ g = .GENDER ∨ g = .ANIMALITY)
    (hw : base.word.type = .ADJECTIVE ∨ base.word.type = .PARTICIPLE)
    (hfree : ∀ g ∈ [Group.CASE, .GENDER, .ANIMALITY, .INTEGER_FORM], base.word.properties.isSpecified g = false)
    (hmode : effective base.word base.properties .DEPENDENCY_MODE = some .DEPENDENCY_MODE_FULL)
    (hlow : effective base.word base.properties .WORD_CASE = some .WORD_CASE_LOWER) :
    ∃ (i : Nat) (m : List Rec) (form : Str), (layoutNow base.word.type)[i]? = some m ∧ Fits (modifierReading base n case gender anim) m ∧
      base.word.forms[i]? = some form ∧ s.getText U ext d = .ok form := by
  rw [constructIntegerFresh_eq] at hn
  injection hn with hn; subst hn
  have hsg : GoodSubstitution s := by
    intro p hp; rw [hs] at hp; simp at hp; subst hp; exact wf_new (by intro p hp; simp at hp)
  have hb := resolves_good he hd hr
  have gg := got_group (he _ _ hnoun).2.1 (by decide) hg
  have ga := got_group (he _ _ hnoun).2.1 (by decide) ha
  have hinit := modifier_initial hb gg ga hnoun hnumber hcase hg ha hspec hfree
  have gi : (agreementClass n).group = .INTEGER_FORM := mem_records_iff.mp (agreementClass_mem n)
  have gc := cases_group hcase
  have hpr : Proper (initialReading ext base s.dependencies) := initial_proper he hb hsg
  have hm : masters ext s.dependencies = .ok [nf, integerForm n] := by simp [hs, masters, hnumber, hnoun]; rfl
  have hd1 : ∀ ρ, demand U base.word ρ nf = .ok [] := by
    intro ρ
    rcases hw with hw | hw <;> simp [demand, hw, hnt]
  have hd2 : demand U base.word (initialReading ext base s.dependencies) (integerForm n) =
      .ok (adjectiveAgreement .DEPENDENCY_MODE_FULL (agreementClass n) case gender) := by
    have hi : (integerForm n).word.type = .INTEGER := rfl
    have k1 : initialReading ext base s.dependencies .DEPENDENCY_MODE = some .DEPENDENCY_MODE_FULL := by
      rw [hs, hinit _ (by decide), upd_apply, hmode]; simp [gc, gg, ga, gi]
    have k2 : initialReading ext base s.dependencies .INTEGER_FORM = some (agreementClass n) := by
      rw [hs, hinit _ (by decide), upd_apply]; simp [*]
    have k3 : initialReading ext base s.dependencies .CASE = some case := by
      rw [hs, hinit _ (by decide), upd_apply]; simp [*]
    have k4 : initialReading ext base s.dependencies .GENDER = some gender := by
      rw [hs, hinit _ (by decide), upd_apply]; simp [*]
    rcases hw with hw | hw <;> simp [demand, hw, hi, k1, k2, k3, k4]
  have hu : Reading.upd (initialReading ext base s.dependencies) [] = initialReading ext base s.dependencies := rfl
  have hfin : (initialReading ext base s.dependencies).upd (adjectiveAgreement .DEPENDENCY_MODE_FULL (agreementClass n) case gender) =
      modifierReading base n case gender anim := by
    funext g
    unfold modifierReading
    rw [upd_apply, upd_apply, List.find?_append]
    by_cases hng : g = .NUMBER
    · subst hng
      have := adjectiveAgreement_number .DEPENDENCY_MODE_FULL (agreementClass n) case gender
      obtain ⟨r, hr⟩ := Option.isSome_iff_exists.mp this
      rw [hr]; rfl
    · rw [hs, hinit _ hng, upd_apply]
      cases (adjectiveAgreement .DEPENDENCY_MODE_FULL (agreementClass n) case gender).find? fun r => decide (r.group = g) <;> rfl
  rw [getText_reading he hd hsg hr, hm]
  simp only [Except.bind, agreeAll, hd1, hd2, bind, hu, hfin]
  have hpr2 : Proper (modifierReading base n case gender anim) := by rw [← hfin]; exact proper_upds hpr _
  have hst : standIn base.word.type (modifierReading base n case gender anim) = modifierReading base n case gender anim := by
    rcases hw with hw | hw <;> simp [standIn, hw]
  obtain ⟨m, h1, h2, -⟩ := C86_slot base.word.type _ hpr2
  rw [hst] at h2
  have hlen : (layoutNow base.word.type).length = base.word.forms.length := by
    rw [(accepted_iff.mp hb.1).2, layoutNow_eq, List.length_map]
  have hlt : slotOf base.word.type (modifierReading base n case gender anim) < base.word.forms.length := by
    rw [← hlen]; exact (List.getElem?_eq_some_iff.mp h1).1
  refine ⟨_, m, _, h1, h2, List.getElem?_eq_getElem hlt, ?_⟩
  have hwc : modifierReading base n case gender anim .WORD_CASE = some .WORD_CASE_LOWER := by
    unfold modifierReading
    rw [upd_apply, List.find?_append, hlow]
    have : (adjectiveAgreement .DEPENDENCY_MODE_FULL (agreementClass n) case gender).find? (fun r => decide (r.group = .WORD_CASE)) = none := by
      unfold adjectiveAgreement
      repeat' split
      all_goals decide
    rw [this]
    simp [gc, gg, ga, gi]
  simp [spoken, hwc, formIn, List.getD, hlt]

/-- C125: `[число] [новый|товар|число|рд] [товар|число|рд]`, the number and the noun given, the modifier known to the dictionary. -/
theorem C125_phrase (U : PyUni) (ws : List Word) (hws : ∀ w ∈ ws, Accepted w) (ext : Externals) (names : List Str)
    (number modifier noun : Str) (n : Int) (base f : WordForm) (w : Word) (case gender anim : Rec)
    (h1 : Written U number) (h2 : Written U modifier) (h3 : Written U noun) (h4 : Written U case.verboseId)
    (hcase : case ∈ cases) (hx : number ∈ names) (hy : noun ∈ names) (hz : case.verboseId ∉ names)
    (he : GoodExternals ext) (hn : constructIntegerFresh n = .ok f) (hnumber : ext.get? number = some f)
    (hnoun : ext.get? noun = some (WordForm.new w)) (hwt : w.type = .NOUN)
    (hg : w.properties.get .GENDER = some gender) (ha : w.properties.get .ANIMALITY = some anim)
    (hspec : ∀ g, w.properties.isSpecified g = true ↔ g = .GENDER ∨ g = .ANIMALITY)
    (hmod : ext.get? modifier = none) (hbase : (history U ws).getWord modifier = .ok base)
    (hbt : base.word.type = .ADJECTIVE ∨ base.word.type = .PARTICIPLE)
    (hfree : ∀ g ∈ [Group.CASE, .GENDER, .ANIMALITY, .INTEGER_FORM], base.word.properties.isSpecified g = false)
    (hmode : effective base.word base.properties .DEPENDENCY_MODE = some .DEPENDENCY_MODE_FULL)
    (hlow : effective base.word base.properties .WORD_CASE = some .WORD_CASE_LOWER) :
    ∃ (t : Template) (i j : Nat) (m : List Rec) (a b : Str),
      Template.empty.parse U (phraseText number modifier noun case.verboseId) names = .ok t ∧
      (layoutNow base.word.type)[i]? = some m ∧ Fits (modifierReading base n case gender anim) m ∧ base.word.forms[i]? = some a ∧
      nounSlots[j]? = some (countedSlot n case anim) ∧ w.forms[j]? = some b ∧
      t.substitute U ext (history U ws) = .ok (pyStr n ++ ' ' :: a ++ ' ' :: b) := by
  have hd := goodDictionary_history U ws hws
  obtain ⟨v1, p1⟩ := parse_written (names := names) (slugs := []) h1 (by simp) .nil
  obtain ⟨v2, p2⟩ := parse_written (names := names) (slugs := [noun, number, case.verboseId]) h2 (by simp [h1, h3, h4])
    (.cons (reads_name h3 hy) (.cons (reads_name h1 hx) (.cons (reads_case h4 hz) .nil)))
  obtain ⟨v3, p3⟩ := parse_written (names := names) (slugs := [number, case.verboseId]) h3 (by simp [h1, h4])
    (.cons (reads_name h1 hx) (.cons (reads_case h4 hz) .nil))
  have hsp : IsLiteral [' '] := isLiteral_cons.mpr ⟨fun h => absurd h (by decide), isLiteral_nil⟩
  have hp : Pieces (phraseText number modifier noun case.verboseId) []
      [(bracketed number [], [' ']), (bracketed modifier [noun, number, case.verboseId], [' ']), (bracketed noun [number, case.verboseId], [])] := by
    have q3 := Pieces.var [' '] _ [] [] [] hsp v3 (.last [] (isFinal_of_isLiteral isLiteral_nil))
    have q2 := Pieces.var [' '] _ _ _ _ hsp v2 q3
    have q1 := Pieces.var [] _ _ _ _ isLiteral_nil v1 q2
    simpa [phraseText] using q1
  obtain ⟨i, m, a, r1, r2, r3, r4⟩ := C125_modifier U ext (history U ws) ⟨modifier, _⟩ base (WordForm.new w) f noun number n case gender anim he hd
    (.inr ⟨hmod, hbase⟩) rfl hcase hn hnumber hnoun (by show w.type ≠ _; rw [hwt]; decide) hg ha hspec hbt hfree hmode hlow
  have hun : ∀ g, g ≠ .GENDER → g ≠ .ANIMALITY → w.properties.isSpecified g = false := by
    intro g e1 e2
    rw [Bool.eq_false_iff]; intro h; rw [hspec] at h; tauto
  have heff : ∀ g, g ≠ .GENDER → g ≠ .ANIMALITY → effective w w.properties g = documentedDefault g := by
    intro g e1 e2
    simp [effective, hun g e1 e2]
  obtain ⟨j, b, s1, s2, s3⟩ := C41_counted_noun U ext (history U ws) ⟨noun, _⟩ (WordForm.new w) f number n case anim he hd (.inl hnoun) rfl hcase hn
    hnumber hwt (by intro g hg; apply hun <;> (rintro rfl; simp at hg))
    (by show effective w w.properties _ = _; rw [effective, if_pos ((hspec _).mpr (.inr rfl))]; exact ha)
    (by show effective w w.properties _ = _; rw [heff _ (by decide) (by decide)]; rfl)
    (by show effective w w.properties _ = _; rw [heff _ (by decide) (by decide)]; rfl)
  refine ⟨_, i, j, m, a, b, parse_ok_of hp (.cons p1 (.cons p2 (.cons p3 .nil))), r1, r2, r3, s1, s2, ?_⟩
  rw [show ∀ l : List Substitution, Template.empty.substitutions ++ l = l from fun _ => rfl]
  rw [substitute_parsed rfl]
  rw [constructIntegerFresh_eq] at hn
  injection hn with hn; subst hn
  have t1 := number_text (U := U) he hd hnumber
  simp only [List.mapM_cons, List.mapM_nil, bind, Except.bind, pure, Except.pure, t1, r4, s3]
  simp [filled]

/-- An adjective (with six different texts as forms). -/
def exAdjective : Word := ⟨.ADJECTIVE, (List.range 101).map (fun i => ['a', Char.ofNat (97 + i / 20)]), .new []⟩

theorem exAdjective_accepted : ∀ w ∈ [exAdjective], Accepted w := by
  intro w hw; rw [List.mem_singleton.mp hw]
  exact accepted_iff.mpr ⟨wf_new (wfargs_records []), by decide +kernel⟩

/-- How it is recognised. -/
def exAdjectiveBase : WordForm :=
  .new exAdjective (some (.new [.record .ADJECTIVE_FORM_FULL, .record .GRADE_POSITIVE, .record .ANIMALITY_ANIMATE, .record .NUMBER_SINGULAR,
    .record .CASE_NOMINATIVE, .record .GENDER_MASCULINE]))

theorem exAdjective_getWord : (history exPy [exAdjective]).getWord (str! "aa") = .ok exAdjectiveBase := by
  rw [C86_dictionary exPy [exAdjective] exAdjective_accepted]
  have : entryFor exPy [exAdjective] (str! "aa") = some exAdjectiveBase := by decide +kernel
  rw [this]

/-- `[n] [aa|b|n|рд] [b|n|рд]` with the number 22 meets the hypotheses. -/
example : (∀ w ∈ [exAdjective], Accepted w) ∧ (∀ x ∈ [str! "n", str! "aa", str! "b", Rec.CASE_GENITIVE.verboseId], Written exPy x) ∧
    Rec.CASE_GENITIVE.verboseId ∉ [str! "n", str! "b"] ∧ Accepted exNoun ∧ exNoun.type = .NOUN ∧
    exNoun.properties.get .GENDER = some .GENDER_FEMININE ∧ exNoun.properties.get .ANIMALITY = some .ANIMALITY_INANIMATE ∧
    (∀ g, exNoun.properties.isSpecified g = true ↔ g = .GENDER ∨ g = .ANIMALITY) ∧
    constructIntegerFresh 22 = .ok (integerForm 22) ∧ GoodExternals [(str! "n", integerForm 22), (str! "b", WordForm.new exNoun)] ∧
    (history exPy [exAdjective]).getWord (str! "aa") = .ok exAdjectiveBase ∧ exAdjectiveBase.word.type = .ADJECTIVE ∧
    (∀ g ∈ [Group.CASE, .GENDER, .ANIMALITY, .INTEGER_FORM], exAdjectiveBase.word.properties.isSpecified g = false) ∧
    effective exAdjectiveBase.word exAdjectiveBase.properties .DEPENDENCY_MODE = some .DEPENDENCY_MODE_FULL ∧
    effective exAdjectiveBase.word exAdjectiveBase.properties .WORD_CASE = some .WORD_CASE_LOWER := by
  refine ⟨exAdjective_accepted, by unfold Written; decide +kernel, by decide +kernel, exNoun_accepted, rfl, by decide +kernel, by decide +kernel,
    by intro g; cases g <;> decide +kernel, constructIntegerFresh_eq 22, ?_, exAdjective_getWord, by decide +kernel, by decide +kernel, by decide +kernel,
    by decide +kernel⟩
  intro x f hf
  have : f = integerForm 22 ∨ f = WordForm.new exNoun := by
    simp only [Dict.get?] at hf
    grind
  rcases this with rfl | rfl
  · exact integerForm_good 22
  · exact goodForm_new exNoun_accepted (by simp) (by simp)

/-! ## C126, C127: prepositions -/

/-- The rules for prepositions look at the first two letters of the next text, the exceptions apart. -/
theorem prepositionAgreement_take {prep next next' : Str} {w : Word} {form : Option Rec} (h : next.take 2 = next'.take 2)
    (h1 : next ∉ exceptions) (h2 : next' ∉ exceptions) (ha : prepositionAgreement prep next w form) : prepositionAgreement prep next' w form := by
  have e0 : next[0]? = next'[0]? := by
    have := congrArg (fun l : Str => l[0]?) h
    simpa using this
  have e1 : next[1]? = next'[1]? := by
    have := congrArg (fun l : Str => l[1]?) h
    simpa using this
  have hcl : StartsWithCluster next ↔ StartsWithCluster next' := by
    have key : ∀ t : Str, StartsWithCluster t ↔ ∃ c, t[0]? = some c ∧ isConsonant c ∧ ∀ d, t[1]? = some d → isConsonant d := by
      intro t
      unfold StartsWithCluster
      cases t with
      | nil => simp
      | cons c cs => simp
    rw [key, key, e0, e1]
  have hpre : (prep = str! "в" ∨ prep = str! "с") ∧ prep <+: next ↔ (prep = str! "в" ∨ prep = str! "с") ∧ prep <+: next' := by
    have key : ∀ (c : Char) (t : Str), [c] <+: t ↔ t[0]? = some c := by
      intro c t
      cases t with
      | nil => simp
      | cons d ds => simp [List.cons_prefix_cons, eq_comm]
    constructor
    · rintro ⟨hp, h⟩
      refine ⟨hp, ?_⟩
      rcases hp with rfl | rfl
      · exact (key 'в' next').mpr (e0 ▸ (key 'в' next).mp h)
      · exact (key 'с' next').mpr (e0 ▸ (key 'с' next).mp h)
    · rintro ⟨hp, h⟩
      refine ⟨hp, ?_⟩
      rcases hp with rfl | rfl
      · exact (key 'в' next).mpr (e0 ▸ (key 'в' next').mp h)
      · exact (key 'с' next).mpr (e0 ▸ (key 'с' next').mp h)
  unfold exceptions at h1 h2
  unfold prepositionAgreement at ha ⊢
  simp only [h1, h2, and_false, hcl, e0] at ha ⊢
  simp only [← and_assoc, hpre] at ha ⊢
  exact ha

/-- The preposition in front of a variable. -/
theorem preposition_getText {U : PyUni} {ext : Externals} {d : Dictionary} {base nf : WordForm} {prep noun normal own : Str}
    (he : GoodExternals ext) (hd : GoodDictionary d) (hr : Resolves ext d prep base) (hbt : base.word.type = .PREPOSITION)
    (hfree : base.word.properties.isSpecified .PREPOSITION_FORM = false) (hn : base.word.forms[0]? = some normal) (hne : normal ≠ [])
    (hform : effective base.word base.properties .PREPOSITION_FORM = some .PREPOSITION_FORM_NORMAL)
    (hlow : effective base.word base.properties .WORD_CASE = some .WORD_CASE_LOWER)
    (hnoun : ext.get? noun = some nf) (h1 : nf.properties.isSpecified .PREPOSITION_FORM = false)
    (h2 : nf.properties.isSpecified .WORD_CASE = false) (hown : nf.form U = .ok own) (hone : own ≠ []) :
    ∃ p, GoesWith base.word own nf.word p ∧ Substitution.getText U ⟨prep, [.ext noun]⟩ ext d = .ok p := by
  have hb := resolves_good he hd hr
  have hwp := (accepted_iff.mp hb.1).1
  have hsg : GoodSubstitution ⟨prep, [.ext noun]⟩ := by intro p hp; simp at hp
  obtain ⟨f0, hf0, hf1⟩ := C18_normal_form_first base.word hb.1 (by
    intro g hg
    rw [hbt] at hg
    have : g = .PREPOSITION_FORM := by simpa [WordType.schema] using hg
    rw [this]; exact hfree)
  have hnf : f0 = normal := by rw [hn] at hf0; injection hf0 with h; exact h.symm
  subst hnf
  obtain ⟨form, q, -, hag, -⟩ := C42_preposition U base.word base.properties nf f0 own hb.2.1 hbt (he _ _ hnoun).1 hf1 hne hown hone
  have hdem : ∀ ρ, demand U base.word ρ nf = .ok form.toList := by
    intro ρ
    have e1 : formIn base.word base.word.properties.get = f0 := by
      have := normalForm_formIn hb.1
      rw [hf1] at this; injection this with this; exact this.symm
    have e2 : spoken U nf.word nf.formProperties.get = .ok own := by rw [← C86_word_form U nf (he _ _ hnoun)]; exact hown
    simp only [demand, hbt, e1, hne, if_false, e2, bind, Except.bind, hone, prepositionDemand_eq hag]
  have hinit : ∀ g, nf.properties.isSpecified g = false →
      initialReading ext base [.ext noun] g = effective base.word base.properties g := by
    intro g hg
    rw [← effective_eq hwp hb.2.1, new2_get hb.2.1 hwp]
    simp only [initialReading, lastSay, depSays, hnoun, hg, Bool.false_eq_true, if_false]
  rw [getText_reading he hd hsg hr]
  have hm : masters ext [.ext noun] = .ok [nf] := by simp [masters, hnoun]; rfl
  simp only [hm, Except.bind, agreeAll, hdem, bind]
  have hpr : Proper (initialReading ext base [.ext noun]) := initial_proper he hb hsg
  have hlen : base.word.forms.length = 3 := by
    have := (accepted_iff.mp hb.1).2
    rw [this, hbt]; decide +kernel
  have hfm : form = none ∨ form = some .PREPOSITION_FORM_ALTERNATIVE ∨ form = some .PREPOSITION_FORM_SPECIAL := by
    unfold prepositionAgreement at hag; tauto
  have hwc : ((initialReading ext base [.ext noun]).upd form.toList) .WORD_CASE = some .WORD_CASE_LOWER := by
    rw [upd_apply, hinit _ h2, hlow]
    rcases hfm with rfl | rfl | rfl <;> rfl
  have fin : ∀ (i : Nat) (r : Rec), (layoutNow .PREPOSITION)[i]? = some [r] →
      ((initialReading ext base [.ext noun]).upd form.toList) r.group = some r → i < 3 →
      variant form = i →
      ∃ p, GoesWith base.word own nf.word p ∧ spoken U base.word ((initialReading ext base [.ext noun]).upd form.toList) = .ok p := by
    intro i r hi hr hlt hidx
    have hs : slotOf base.word.type ((initialReading ext base [.ext noun]).upd form.toList) = i :=
      slotOf_of_fits (proper_upds hpr _) (by rw [hbt]; exact hi) (by intro x hx; rw [List.mem_singleton.mp hx]; exact hr)
    have hlt' : i < base.word.forms.length := by omega
    refine ⟨base.word.forms[i], ⟨f0, form, hf0, hag, ?_⟩, ?_⟩
    · rw [hidx]; exact List.getElem?_eq_getElem hlt'
    · simp [spoken, hwc, formIn, hs, List.getD, hlt']
  rcases hfm with rfl | rfl | rfl
  · exact fin 0 .PREPOSITION_FORM_NORMAL rfl (by show _ = _; rw [upd_apply]; show initialReading ext base [.ext noun] .PREPOSITION_FORM = _; rw [hinit _ h1]; exact hform) (by decide) rfl
  · exact fin 1 .PREPOSITION_FORM_ALTERNATIVE rfl (by rw [upd_apply]; rfl) (by decide) rfl
  · exact fin 2 .PREPOSITION_FORM_SPECIAL rfl (by rw [upd_apply]; rfl) (by decide) rfl

/-- C127: in `[с|герой] [герой|тв]` the form of the preposition is the one that goes with the text of the variable as it was given, whatever
text of it follows. -/
theorem C127_own_text (U : PyUni) (ws : List Word) (hws : ∀ w ∈ ws, Accepted w) (ext : Externals) (names : List Str)
    (prep noun normal own : Str) (base : WordForm) (w : Word) (case : Rec)
    (h1 : Written U prep) (h2 : Written U noun) (h3 : Written U case.verboseId) (hx : noun ∈ names) (hz : case.verboseId ∉ names)
    (hcase : case ∈ cases) (he : GoodExternals ext) (hnoun : ext.get? noun = some (WordForm.new w))
    (hw : ∀ g ∈ [Group.PREPOSITION_FORM, .WORD_CASE], w.properties.isSpecified g = false) (hown : w.normalForm = .ok own) (hone : own ≠ [])
    (hprep : ext.get? prep = none) (hbase : (history U ws).getWord prep = .ok base) (hbt : base.word.type = .PREPOSITION)
    (hfree : base.word.properties.isSpecified .PREPOSITION_FORM = false) (hn : base.word.forms[0]? = some normal) (hne : normal ≠ [])
    (hform : effective base.word base.properties .PREPOSITION_FORM = some .PREPOSITION_FORM_NORMAL)
    (hlow : effective base.word base.properties .WORD_CASE = some .WORD_CASE_LOWER) :
    ∃ (t : Template) (p b : Str), Template.empty.parse U (prepositionText prep noun case.verboseId) names = .ok t ∧
      w.form (.new [.record case]) = .ok b ∧ GoesWith base.word own w p ∧
      t.substitute U ext (history U ws) = .ok (p ++ ' ' :: b) := by
  have hd := goodDictionary_history U ws hws
  have hacc : Accepted w := (he _ _ hnoun).1
  obtain ⟨v1, p1⟩ := parse_written (names := names) (slugs := [noun]) h1 (by simp [h2]) (.cons (reads_name h2 hx) .nil)
  obtain ⟨v2, p2⟩ := parse_written (names := names) (slugs := [case.verboseId]) h2 (by simp [h3]) (.cons (reads_case h3 hz) .nil)
  have hsp : IsLiteral [' '] := isLiteral_cons.mpr ⟨fun h => absurd h (by decide), isLiteral_nil⟩
  have hp : Pieces (prepositionText prep noun case.verboseId) []
      [(bracketed prep [noun], [' ']), (bracketed noun [case.verboseId], [])] := by
    have q2 := Pieces.var [' '] _ [] [] [] hsp v2 (.last [] (isFinal_of_isLiteral isLiteral_nil))
    have q1 := Pieces.var [] _ _ _ _ isLiteral_nil v1 q2
    simpa [prepositionText] using q1
  have hpw : WFProps (.new [.record case]) := wf_new (by intro p hp; simp at hp)
  have heff : effective w w.properties .WORD_CASE ≠ some .WORD_CASE_UPPER := by
    simp [effective, hw .WORD_CASE (by simp), documentedDefault]
  have hcs : (Properties.new [.record case]).isSpecified .WORD_CASE = false := by
    have key : ∀ c ∈ cases, (Properties.new [.record c]).isSpecified .WORD_CASE = false := by decide
    exact key _ hcase
  have heff2 : effective w (.new [.record case]) .WORD_CASE ≠ some .WORD_CASE_UPPER := by
    simp [effective, hw .WORD_CASE (by simp), hcs, documentedDefault]
  have hf : (WordForm.new w).form U = .ok own := by
    rw [← C92_own_text_partial U ext (history U ws) noun w none he hd (by simp) hnoun, (C93_readme U ext _ noun w _ he hd hpw hnoun).1 heff]
    exact hown
  obtain ⟨p, hgo, hpt⟩ := preposition_getText (U := U) he hd (.inr ⟨hprep, hbase⟩) hbt hfree hn hne hform hlow hnoun
    (hw .PREPOSITION_FORM (by simp)) (hw .WORD_CASE (by simp)) hf hone
  have hbt2 := (C93_readme U ext (history U ws) noun w _ he hd hpw hnoun).2.1 heff2
  obtain ⟨b, hb⟩ : ∃ b, w.form (.new [.record case]) = .ok b := ⟨_, (C86_word w _ hacc hpw).1⟩
  rw [hb] at hbt2
  refine ⟨_, p, b, parse_ok_of hp (.cons p1 (.cons p2 .nil)), hb, hgo, ?_⟩
  rw [show ∀ l : List Substitution, Template.empty.substitutions ++ l = l from fun _ => rfl]
  rw [substitute_parsed rfl]
  simp only [List.mapM_cons, List.mapM_nil, bind, Except.bind, pure, Except.pure, hpt, hbt2]
  simp [filled]

/-- C126 (partial): the preposition goes with the text that follows it, if that begins with the same two letters as the text of the variable
and neither is one of the five exceptions. Missing: variables whose beginning changes, see `C126_violated`. -/
theorem C126_following_text_partial (U : PyUni) (ws : List Word) (hws : ∀ w ∈ ws, Accepted w) (ext : Externals) (names : List Str)
    (prep noun normal own b : Str) (base : WordForm) (w : Word) (case : Rec)
    (h1 : Written U prep) (h2 : Written U noun) (h3 : Written U case.verboseId) (hx : noun ∈ names) (hz : case.verboseId ∉ names)
    (hcase : case ∈ cases) (he : GoodExternals ext) (hnoun : ext.get? noun = some (WordForm.new w))
    (hw : ∀ g ∈ [Group.PREPOSITION_FORM, .WORD_CASE], w.properties.isSpecified g = false) (hown : w.normalForm = .ok own) (hone : own ≠ [])
    (hprep : ext.get? prep = none) (hbase : (history U ws).getWord prep = .ok base) (hbt : base.word.type = .PREPOSITION)
    (hfree : base.word.properties.isSpecified .PREPOSITION_FORM = false) (hn : base.word.forms[0]? = some normal) (hne : normal ≠ [])
    (hform : effective base.word base.properties .PREPOSITION_FORM = some .PREPOSITION_FORM_NORMAL)
    (hlow : effective base.word base.properties .WORD_CASE = some .WORD_CASE_LOWER)
    (hb : w.form (.new [.record case]) = .ok b) (htake : own.take 2 = b.take 2) (hexc : own ∉ exceptions ∧ b ∉ exceptions) :
    ∃ (t : Template) (p : Str), Template.empty.parse U (prepositionText prep noun case.verboseId) names = .ok t ∧
      GoesWith base.word b w p ∧ t.substitute U ext (history U ws) = .ok (p ++ ' ' :: b) := by
  obtain ⟨t, p, b', r1, r2, ⟨normal', form, k1, k2, k3⟩, r4⟩ := C127_own_text U ws hws ext names prep noun normal own base w case h1 h2 h3 hx hz hcase he
    hnoun hw hown hone hprep hbase hbt hfree hn hne hform hlow
  rw [hb] at r2
  injection r2 with r2; subst r2
  exact ⟨t, p, r1, ⟨normal', form, k1, prepositionAgreement_take htake hexc.1 hexc.2 k2, k3⟩, r4⟩

/-- с, со. -/
def exWith : Word := ⟨.PREPOSITION, [str! "с", str! "со", str! "со"], .new []⟩

theorem exWith_accepted : ∀ w ∈ [exWith], Accepted w := by
  intro w hw; rw [List.mem_singleton.mp hw]
  exact accepted_iff.mpr ⟨wf_new (wfargs_records []), by decide +kernel⟩

/-- лев, льва, ... -/
def exLion : Word :=
  ⟨.NOUN, [str! "лев", str! "льва", str! "льву", str! "льва", str! "львом", str! "льве", str! "львы", str! "львов", str! "львам", str! "львов",
    str! "львами", str! "львах", str! "львы", str! "львов", str! "львам", str! "львов", str! "львами", str! "львах"],
    .new [.record .GENDER_MASCULINE, .record .ANIMALITY_ANIMATE]⟩

theorem exLion_accepted : Accepted exLion := accepted_iff.mpr ⟨wf_new (wfargs_records [_, _]), by decide +kernel⟩

/-- C126 is violated: с львом, although the preposition that goes with львом is со. -/
theorem C126_violated : ∃ t, Template.empty.parse exPy (str! "[с|герой] [герой|тв]") [str! "герой"] = .ok t ∧
    t.substitute exPy [(str! "герой", WordForm.new exLion)] (history exPy [exWith]) = .ok (str! "с львом") ∧
    exLion.form (.new [.record .CASE_INSTRUMENTAL]) = .ok (str! "львом") ∧
    ∀ p, GoesWith exWith (str! "львом") exLion p ↔ p = str! "со" := by
  refine ⟨⟨[⟨str! "с", [.ext (str! "герой")]⟩, ⟨str! "герой", [.props (.new [.record .CASE_INSTRUMENTAL])]⟩], some (str! "%s %s")⟩,
    by decide +kernel, by decide +kernel, by decide +kernel, ?_⟩
  have hd : prepositionDemand (str! "с") (str! "львом") exLion = [.PREPOSITION_FORM_ALTERNATIVE] := by decide +kernel
  intro p
  constructor
  · rintro ⟨normal, form, h1, h2, h3⟩
    have : normal = str! "с" := by
      have h0 : exWith.forms[0]? = some (str! "с") := by decide +kernel
      rw [h0] at h1; injection h1 with h1; exact h1.symm
    subst this
    have hf := prepositionDemand_eq h2
    rw [hd] at hf
    have : form = some .PREPOSITION_FORM_ALTERNATIVE := by
      cases form with
      | none => cases hf
      | some r => injection hf with h; rw [h]
    subst this
    have h0 : exWith.forms[variant (some .PREPOSITION_FORM_ALTERNATIVE)]? = some (str! "со") := by decide +kernel
    rw [h0] at h3; injection h3 with h3; exact h3.symm
  · rintro rfl
    obtain ⟨form, q, -, hag, -⟩ := C42_preposition exPy exWith (.new []) (WordForm.new exLion (some (.new [.record .CASE_INSTRUMENTAL]))) (str! "с") (str! "львом")
      (wf_new (wfargs_records [])) rfl exLion_accepted (by decide +kernel) (by decide) (by decide +kernel) (by decide)
    have hf := prepositionDemand_eq hag
    have : form = some .PREPOSITION_FORM_ALTERNATIVE := by
      rw [show (WordForm.new exLion (some (.new [.record .CASE_INSTRUMENTAL]))).word = exLion from rfl, hd] at hf
      cases form with
      | none => cases hf
      | some r => injection hf with h; rw [h]
    subst this
    exact ⟨str! "с", _, by decide +kernel, hag, by decide +kernel⟩

/-- Also if the variable is given in the instrumental from the start, the preposition is right. -/
example : ∃ t, Template.empty.parse exPy (str! "[с|герой] [герой]") [str! "герой"] = .ok t ∧
    t.substitute exPy [(str! "герой", WordForm.new exLion (some (.new [.record .CASE_INSTRUMENTAL])))] (history exPy [exWith]) = .ok (str! "со львом") :=
  ⟨⟨[⟨str! "с", [.ext (str! "герой")]⟩, ⟨str! "герой", []⟩], some (str! "%s %s")⟩, by decide +kernel, by decide +kernel⟩

/-- The hypotheses are met by `[с|герой] [герой|тв]`. -/
example : (∀ w ∈ [exWith], Accepted w) ∧ (∀ x ∈ [str! "с", str! "герой", Rec.CASE_INSTRUMENTAL.verboseId], Written exPy x) ∧
    Rec.CASE_INSTRUMENTAL.verboseId ∉ [str! "герой"] ∧ Accepted exLion ∧
    (∀ g ∈ [Group.PREPOSITION_FORM, .WORD_CASE], exLion.properties.isSpecified g = false) ∧ exLion.normalForm = .ok (str! "лев") ∧
    (∃ base, (history exPy [exWith]).getWord (str! "с") = .ok base ∧ base.word = exWith ∧
      effective base.word base.properties .PREPOSITION_FORM = some .PREPOSITION_FORM_NORMAL ∧
      effective base.word base.properties .WORD_CASE = some .WORD_CASE_LOWER) ∧
    exWith.properties.isSpecified .PREPOSITION_FORM = false ∧ exWith.forms[0]? = some (str! "с") :=
  ⟨exWith_accepted, by unfold Written; decide +kernel, by decide +kernel, exLion_accepted, by decide +kernel, by decide +kernel,
    ⟨(Dict.get? (history exPy [exWith]) (str! "с")).getD (WordForm.new exWith), by decide +kernel, by decide +kernel, by decide +kernel, by decide +kernel⟩,
    by decide +kernel, by decide +kernel⟩

/-- A noun that keeps its beginning: стол, стола, ... -/
def exTable : Word := ⟨.NOUN, str! "стол" :: List.replicate 17 (str! "стола"), .new [.record .GENDER_MASCULINE, .record .ANIMALITY_INANIMATE]⟩

/-- ... and with this noun also the further ones of C126. -/
example : Accepted exTable ∧ (∀ g ∈ [Group.PREPOSITION_FORM, .WORD_CASE], exTable.properties.isSpecified g = false) ∧
    exTable.normalForm = .ok (str! "стол") ∧ exTable.form (.new [.record .CASE_GENITIVE]) = .ok (str! "стола") ∧
    (str! "стол").take 2 = (str! "стола").take 2 ∧ str! "стол" ∉ exceptions ∧ str! "стола" ∉ exceptions :=
  ⟨accepted_iff.mpr ⟨wf_new (wfargs_records [_, _]), by decide +kernel⟩, by decide +kernel, by decide +kernel, by decide +kernel, by decide +kernel,
    by decide +kernel, by decide +kernel⟩

/-! ## C128: modifiers -/

/-- The slot of a reading in lower case. -/
theorem spoken_slot {U : PyUni} {w : Word} {ρ : Reading} (hw : Accepted w) (hp : Proper ρ) (hlow : ρ .WORD_CASE = some .WORD_CASE_LOWER) :
    ∃ (i : Nat) (m : List Rec) (form : Str), (layoutNow w.type)[i]? = some m ∧ Fits (standIn w.type ρ) m ∧ w.forms[i]? = some form ∧
      spoken U w ρ = .ok form := by
  obtain ⟨m, h1, h2, -⟩ := C86_slot w.type _ hp
  have hlen : (layoutNow w.type).length = w.forms.length := by
    rw [(accepted_iff.mp hw).2, layoutNow_eq, List.length_map]
  have hlt : slotOf w.type ρ < w.forms.length := by
    rw [← hlen]; exact (List.getElem?_eq_some_iff.mp h1).1
  refine ⟨_, m, _, h1, h2, List.getElem?_eq_getElem hlt, ?_⟩
  simp [spoken, hlow, formIn, List.getD, hlt]

theorem listed_says {ext : Externals} {rs : List Rec} (hn : (rs.map Rec.group).Nodup) (g : Group) :
    depSays ext (.props (.new (rs.map .record))) g = rs.find? fun r => decide (r.group = g) := by
  rw [depSays_eq]
  simp only [depProps]
  cases h : rs.find? fun r => decide (r.group = g) with
  | some r =>
    have hr := List.mem_of_find?_eq_some h
    have hg := List.find?_some h
    simp only [decide_eq_true_eq] at hg
    rw [← hg, listed_get? hn hr]
  | none =>
    rw [new_get? (wfargs_records _), List.findSome?_eq_none_iff]
    intro a ha
    simp only [List.mem_reverse, List.mem_map] at ha
    obtain ⟨r, hr, rfl⟩ := ha
    have := List.find?_eq_none.mp h r hr
    simp only [decide_eq_true_eq] at this
    simp [argGet, this]

/-- C128: in `[новый|рд,мн|товар] [товар|рд,мн]` both words have every property that the noun has or that is asked for, the noun's own ones
first. Properties the modifier has itself are excepted. -/
theorem C128_modifier (U : PyUni) (ws : List Word) (hws : ∀ w ∈ ws, Accepted w) (ext : Externals) (names : List Str)
    (modifier noun : Str) (base : WordForm) (w : Word) (rs : List Rec)
    (h1 : Written U modifier) (h2 : Written U noun) (h3 : Written U ([','].intercalate (rs.map Rec.verboseId)))
    (hx : noun ∈ names) (hz : [','].intercalate (rs.map Rec.verboseId) ∉ names) (hrs : rs ≠ []) (hnd : (rs.map Rec.group).Nodup)
    (hlr : Group.WORD_CASE ∉ rs.map Rec.group) (he : GoodExternals ext) (hnoun : ext.get? noun = some (WordForm.new w))
    (hwt : w.type ≠ .INTEGER) (hwl : w.properties.isSpecified .WORD_CASE = false)
    (hmod : ext.get? modifier = none) (hbase : (history U ws).getWord modifier = .ok base) (hbt : base.word.type ≠ .PREPOSITION)
    (hlow : effective base.word base.properties .WORD_CASE = some .WORD_CASE_LOWER) :
    ∃ (t : Template) (i j : Nat) (m k : List Rec) (a b : Str),
      Template.empty.parse U (modifiedText modifier noun ([','].intercalate (rs.map Rec.verboseId))) names = .ok t ∧
      (layoutNow base.word.type)[i]? = some m ∧ base.word.forms[i]? = some a ∧ (layoutNow w.type)[j]? = some k ∧ w.forms[j]? = some b ∧
      (∀ r ∈ m, r.group ∉ [Group.NOUN_FORM, .VERB_FORM] → base.word.properties.isSpecified r.group = false →
        ∀ v, common w rs r.group = some v → r = v) ∧
      (∀ r ∈ k, r.group ∉ [Group.NOUN_FORM, .VERB_FORM] → ∀ v, common w rs r.group = some v → r = v) ∧
      t.substitute U ext (history U ws) = .ok (a ++ ' ' :: b) := by
  have hd := goodDictionary_history U ws hws
  have hacc : Accepted w := (he _ _ hnoun).1
  have hread : Reads U names ([','].intercalate (rs.map Rec.verboseId)) (.props (.new (rs.map .record))) :=
    reads_ids hrs (by rw [h3.2.2.1]; exact written_stripped h3) hz
  obtain ⟨v1, p1⟩ := parse_written (names := names) (slugs := [_, noun]) h1 (by simp only [List.mem_cons, List.not_mem_nil, or_false]; rintro s (rfl | rfl) <;> assumption)
    (.cons hread (.cons (reads_name h2 hx) .nil))
  obtain ⟨v2, p2⟩ := parse_written (names := names) (slugs := [_]) h2 (by simp only [List.mem_cons, List.not_mem_nil, or_false]; rintro s rfl; assumption)
    (.cons hread .nil)
  generalize hsl : [','].intercalate (rs.map Rec.verboseId) = slug at *
  have hsp : IsLiteral [' '] := isLiteral_cons.mpr ⟨fun h => absurd h (by decide), isLiteral_nil⟩
  have hp : Pieces (modifiedText modifier noun slug) [] [(bracketed modifier [slug, noun], [' ']), (bracketed noun [slug], [])] := by
    have q2 := Pieces.var [' '] _ [] [] [] hsp v2 (.last [] (isFinal_of_isLiteral isLiteral_nil))
    have q1 := Pieces.var [] _ _ _ _ isLiteral_nil v1 q2
    simpa [modifiedText] using q1
  have hwf : ∀ deps : List Dep, (∀ p, Dep.props p ∈ deps → p = .new (rs.map .record)) → ∀ p, Dep.props p ∈ deps → WFProps p := by
    intro deps h p hp
    rw [h p hp]; exact wf_new (wfargs_records _)
  have hnsay : ∀ g, depSays ext (.ext noun) g = if w.properties.isSpecified g then w.properties.get g else none := by
    intro g; simp only [depSays, hnoun]; rfl
  -- the modifier
  have hr1 : Resolves ext (history U ws) modifier base := .inr ⟨hmod, hbase⟩
  have hb := resolves_good he hd hr1
  have hwp := (accepted_iff.mp hb.1).1
  have hwwp := (accepted_iff.mp hacc).1
  have hs1 : GoodSubstitution ⟨modifier, [.props (.new (rs.map .record)), .ext noun]⟩ := hwf _ (by intro p hp; simpa using hp)
  have hs2 : GoodSubstitution ⟨noun, [.props (.new (rs.map .record))]⟩ := hwf _ (by intro p hp; simpa using hp)
  have hi1 : ∀ g, initialReading ext base [.props (.new (rs.map .record)), .ext noun] g =
      if base.word.properties.isSpecified g then base.word.properties.get g else (common w rs g).or (base.properties.get g) := by
    intro g
    simp only [initialReading, lastSay, hnsay, listed_says hnd, common]
    by_cases hg : w.properties.isSpecified g = true
    · obtain ⟨r, hr⟩ := isSpecified_iff.mp hg
      have hr' : w.properties.get g = some r := by simp [Properties.get, hr]
      simp [hg, hr']
    · simp only [hg, if_false, Bool.false_eq_true]
      cases rs.find? fun r => decide (r.group = g) <;> rfl
  have hi2 : ∀ g, initialReading ext (WordForm.new w) [.props (.new (rs.map .record))] g = (common w rs g).or (w.properties.get g) := by
    intro g
    show (if w.properties.isSpecified g then w.properties.get g else _) = _
    simp only [lastSay, listed_says hnd, common]
    by_cases hg : w.properties.isSpecified g = true
    · obtain ⟨r, hr⟩ := isSpecified_iff.mp hg
      have hr' : w.properties.get g = some r := by simp [Properties.get, hr]
      simp [hg, hr']
    · simp only [hg, if_false, Bool.false_eq_true]
      cases rs.find? fun r => decide (r.group = g) <;> rfl
  have hcl : common w rs .WORD_CASE = none := by
    simp only [common, hwl, Bool.false_eq_true, if_false]
    rw [List.find?_eq_none]
    intro r hr h
    simp only [decide_eq_true_eq] at h
    exact hlr (h ▸ List.mem_map_of_mem hr)
  have hdem : ∀ ρ, demand U base.word ρ (WordForm.new w) = .ok [] := by
    intro ρ
    have : (WordForm.new w).word.type ≠ .INTEGER := hwt
    unfold demand
    cases hx : base.word.type <;> simp [this]; exact absurd hx hbt
  have hl1 : initialReading ext base [.props (.new (rs.map .record)), .ext noun] .WORD_CASE = some .WORD_CASE_LOWER := by
    rw [hi1, hcl, ← hlow, ← effective_eq hwp hb.2.1, new2_get hb.2.1 hwp]
    rfl
  have hl2 : initialReading ext (WordForm.new w) [.props (.new (rs.map .record))] .WORD_CASE = some .WORD_CASE_LOWER := by
    rw [hi2, hcl]
    have := effective_eq hwwp hwwp .WORD_CASE
    rw [new2_get hwwp hwwp, hwl] at this
    simp only [Bool.false_eq_true, if_false] at this
    rw [this]
    simp [effective, hwl, documentedDefault]
  obtain ⟨i, m, a, r1, r2, r3, r4⟩ := spoken_slot (U := U) hb.1 (initial_proper he hb hs1) hl1
  obtain ⟨j, k, b, s1, s2, s3, s4⟩ := spoken_slot (U := U) hacc (initial_proper he (he _ _ hnoun) hs2) hl2
  have t1 : Substitution.getText U ⟨modifier, [.props (.new (rs.map .record)), .ext noun]⟩ ext (history U ws) = .ok a := by
    rw [getText_reading he hd hs1 hr1]
    have hm : masters ext [.props (.new (rs.map .record)), .ext noun] = .ok [WordForm.new w] := by simp [masters, hnoun]; rfl
    simp only [hm, Except.bind, agreeAll, hdem, bind]
    exact r4
  have t2 : Substitution.getText U ⟨noun, [.props (.new (rs.map .record))]⟩ ext (history U ws) = .ok b := by
    rw [getText_reading he hd hs2 (.inl hnoun)]
    simp only [masters, Except.bind, agreeAll]
    exact s4
  have hst : ∀ (τ : WordType) (ρ : Reading) (n : List Rec), Fits (standIn τ ρ) n → ∀ r ∈ n, r.group ∉ [Group.NOUN_FORM, .VERB_FORM] →
      ρ r.group = some r := by
    intro τ ρ n hf r hr hg
    simp only [List.mem_cons, List.not_mem_nil, or_false, not_or] at hg
    rw [← standIn_other τ ρ hg.1 hg.2]
    exact hf r hr
  refine ⟨_, i, j, m, k, a, b, parse_ok_of hp (.cons p1 (.cons p2 .nil)), r1, r3, s1, s3, ?_, ?_, ?_⟩
  · intro r hr hg hfree v hv
    have := hst _ _ _ r2 r hr hg
    rw [hi1, hfree, hv] at this
    simpa using this.symm
  · intro r hr hg v hv
    have := hst _ _ _ s2 r hr hg
    rw [hi2, hv] at this
    simpa using this.symm
  rw [show ∀ l : List Substitution, Template.empty.substitutions ++ l = l from fun _ => rfl]
  rw [substitute_parsed rfl]
  simp only [List.mapM_cons, List.mapM_nil, bind, Except.bind, pure, Except.pure, t1, t2]
  simp [filled]

/-- An adjective with 101 different forms. -/
def exModifier : Word := ⟨.ADJECTIVE, (List.range 101).map (fun i => [Char.ofNat (97 + i / 10), Char.ofNat (97 + i % 10)]), .new []⟩

theorem exModifier_accepted : ∀ w ∈ [exModifier], Accepted w := by
  intro w hw; rw [List.mem_singleton.mp hw]
  exact accepted_iff.mpr ⟨wf_new (wfargs_records []), by decide +kernel⟩

theorem exModifier_text (s : Substitution) (hs : GoodSubstitution s) :
    s.getText exPy [(str! "b", WordForm.new exPlural)] (history exPy [exModifier]) =
      meaning exPy [(str! "b", WordForm.new exPlural)] (entryFor exPy [exModifier]) s := by
  apply C86_substitution
  · intro n f hf
    have : f = WordForm.new exPlural := by
      simp only [Dict.get?] at hf
      grind
    subst this
    exact goodForm_new exPlural_accepted (by simp) (by simp)
  · exact goodDictionary_history _ _ exModifier_accepted
  · exact hs
  · intro t f
    rw [C86_dictionary exPy [exModifier] exModifier_accepted]
    cases entryFor exPy [exModifier] t <;> simp

/-- C128: the order matters. With a noun that has a plural only (its slot 6, `g`), `[aa|b|ед]` is singular (slot 0), `[aa|ед|b]` is plural
(slot 18). -/
theorem C128_order_matters : exModifier.forms[0]? = some (str! "aa") ∧ exModifier.forms[18]? = some (str! "bi") ∧
    (∃ m ∈ (layoutNow .ADJECTIVE)[0]?, Rec.NUMBER_SINGULAR ∈ m) ∧ (∃ m ∈ (layoutNow .ADJECTIVE)[18]?, Rec.NUMBER_PLURAL ∈ m) ∧
    Substitution.getText exPy ⟨str! "aa", [.ext (str! "b"), .props (.new [.record .NUMBER_SINGULAR])]⟩ [(str! "b", WordForm.new exPlural)]
      (history exPy [exModifier]) = .ok (str! "aa") ∧
    Substitution.getText exPy ⟨str! "aa", [.props (.new [.record .NUMBER_SINGULAR]), .ext (str! "b")]⟩ [(str! "b", WordForm.new exPlural)]
      (history exPy [exModifier]) = .ok (str! "bi") ∧
    Substitution.getText exPy ⟨str! "b", [.props (.new [.record .NUMBER_SINGULAR])]⟩ [(str! "b", WordForm.new exPlural)]
      (history exPy [exModifier]) = .ok (str! "g") := by
  have hg : ∀ deps : List Dep, (∀ p, Dep.props p ∈ deps → p = .new ([Rec.NUMBER_SINGULAR].map .record)) → ∀ id, GoodSubstitution ⟨id, deps⟩ := by
    intro deps h id p hp
    rw [h p hp]; exact wf_new (wfargs_records _)
  refine ⟨by decide +kernel, by decide +kernel, by decide +kernel, by decide +kernel, ?_, ?_, ?_⟩
  · rw [exModifier_text _ (hg _ (by intro p hp; simpa using hp) _)]; decide +kernel
  · rw [exModifier_text _ (hg _ (by intro p hp; simpa using hp) _)]; decide +kernel
  · rw [exModifier_text _ (hg _ (by intro p hp; simpa using hp) _)]; decide +kernel

/-- `[aa|рд,мн|b] [b|рд,мн]` meets the hypotheses of C128. -/
example : (∀ x ∈ [str! "aa", str! "b", [','].intercalate ([Rec.CASE_GENITIVE, .NUMBER_PLURAL].map Rec.verboseId)], Written exPy x) ∧
    [','].intercalate ([Rec.CASE_GENITIVE, .NUMBER_PLURAL].map Rec.verboseId) ∉ [str! "b"] ∧
    ([Rec.CASE_GENITIVE, .NUMBER_PLURAL].map Rec.group).Nodup ∧ Group.WORD_CASE ∉ [Rec.CASE_GENITIVE, .NUMBER_PLURAL].map Rec.group ∧
    exNoun.properties.isSpecified .WORD_CASE = false ∧ common exNoun [.CASE_GENITIVE, .NUMBER_PLURAL] .GENDER = some .GENDER_FEMININE ∧
    common exNoun [.CASE_GENITIVE, .NUMBER_PLURAL] .CASE = some .CASE_GENITIVE ∧
    (history exPy [exAdjective]).getWord (str! "aa") = .ok exAdjectiveBase ∧ exAdjectiveBase.word.type ≠ .PREPOSITION ∧
    effective exAdjectiveBase.word exAdjectiveBase.properties .WORD_CASE = some .WORD_CASE_LOWER :=
  ⟨by unfold Written; decide +kernel, by decide +kernel, by decide +kernel, by decide +kernel, by decide +kernel, by decide +kernel, by decide +kernel,
    exAdjective_getWord, by decide +kernel, by decide +kernel⟩

end Utg
