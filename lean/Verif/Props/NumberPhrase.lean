import Verif.Spec.NumberPhrase
import Verif.Props.Phrase
import Verif.Props.Classes
import Verif.Props.Sentence
import Verif.Props.Interchange
/-! # C158: a preposition in front of a number -/

namespace Utg
open Py Spec

/-- C158: in front of a number a preposition is what it is by itself, whichever number it is. -/
theorem C158_goes_with (n : Int) (preposition w : Word) (p : Str) :
    GoesWith preposition (pyStr n) w p ↔ preposition.forms[0]? = some p := by
  obtain ⟨c, s, hs, h1, h2⟩ := pyStr_first n
  have hcl : ¬ StartsWithCluster (pyStr n) := by
    rw [hs]
    rintro ⟨d, ds, hd, hc, -⟩
    injection hd with hd _
    subst hd
    rw [List.contains_iff_mem.mpr (mem_CONSONANTS.mpr hc)] at h1
    cases h1
  have hv : ¬ ∃ c, (pyStr n)[0]? = some c ∧ isPlainVowel c := by
    rw [hs]
    rintro ⟨d, hd, hp⟩
    have : d = c := by simpa using hd.symm
    subst this
    rw [mem_NOT_J_VOWELS.mpr hp] at h2
    cases h2
  have hex : pyStr n ∉ [str! "всех", str! "мне", str! "всём", str! "что", str! "всей"] := by
    intro hm
    have hfirst : ∀ t ∈ [str! "всех", str! "мне", str! "всём", str! "что", str! "всей"], ∀ x y, t = x :: y → CONSONANTS.contains x = true := by
      intro t ht x y e
      subst e
      simp only [List.mem_cons, List.not_mem_nil, or_false] at ht
      rcases ht with h | h | h | h | h <;> (injection h with h _; subst h; decide +kernel)
    have := hfirst _ hm c s hs
    rw [h1] at this; cases this
  unfold GoesWith prepositionAgreement
  simp only [hcl, hv, hex, false_and, and_false, or_false, not_false_eq_true, and_true, false_or]
  constructor
  · rintro ⟨normal, form, -, hf, hp⟩
    have : form = none := by tauto
    subst this
    exact hp
  · intro h
    exact ⟨p, none, h, by by_cases hc : ∃ c, p.getLast? = some c ∧ isConsonant c <;> simp [hc], h⟩

/-- C158: `[о|число] [число] [день|число|пр]`: the preposition as it is, the number in decimal notation, and the noun in the form that goes with it. -/
theorem C158_phrase (U : PyUni) (ws : List Word) (hws : ∀ w ∈ ws, Accepted w) (ext : Externals) (names : List Str)
    (prep number noun normal : Str) (n : Int) (pb nb f : WordForm) (case anim : Rec)
    (h1 : Written U prep) (h2 : Written U number) (h3 : Written U noun) (h4 : Written U case.verboseId)
    (hcase : case ∈ cases) (hx : number ∈ names) (hz : case.verboseId ∉ names)
    (he : GoodExternals ext) (hn : constructIntegerFresh n = .ok f) (hnumber : ext.get? number = some f)
    (hprep : ext.get? prep = none) (hpb : (history U ws).getWord prep = .ok pb) (hpt : pb.word.type = .PREPOSITION)
    (hpfree : pb.word.properties.isSpecified .PREPOSITION_FORM = false) (hp0 : pb.word.forms[0]? = some normal) (hne : normal ≠ [])
    (hpform : effective pb.word pb.properties .PREPOSITION_FORM = some .PREPOSITION_FORM_NORMAL)
    (hplow : effective pb.word pb.properties .WORD_CASE = some .WORD_CASE_LOWER)
    (hnoun : ext.get? noun = none) (hnb : (history U ws).getWord noun = .ok nb) (hnt : nb.word.type = .NOUN)
    (hnfree : ∀ g ∈ [Group.NOUN_FORM, .NUMBER, .CASE, .INTEGER_FORM], nb.word.properties.isSpecified g = false)
    (hanim : effective nb.word nb.properties .ANIMALITY = some anim)
    (hmode : effective nb.word nb.properties .DEPENDENCY_MODE = some .DEPENDENCY_MODE_FULL)
    (hnlow : effective nb.word nb.properties .WORD_CASE = some .WORD_CASE_LOWER) :
    ∃ (t : Template) (i : Nat) (b : Str),
      Template.empty.parse U (aboutNumberText prep number noun case.verboseId) names = .ok t ∧
      nounSlots[i]? = some (countedSlot n case anim) ∧ nb.word.forms[i]? = some b ∧
      t.substitute U ext (history U ws) = .ok (normal ++ ' ' :: pyStr n ++ ' ' :: b) := by
  have hd := goodDictionary_history U ws hws
  obtain ⟨v1, p1⟩ := parse_written (names := names) (slugs := [number]) h1 (by simp [h2]) (.cons (reads_name h2 hx) .nil)
  obtain ⟨v2, p2⟩ := parse_written (names := names) (slugs := []) h2 (by simp) .nil
  obtain ⟨v3, p3⟩ := parse_written (names := names) (slugs := [number, case.verboseId]) h3 (by simp [h2, h4])
    (.cons (reads_name h2 hx) (.cons (reads_case h4 hz) .nil))
  have hsp : IsLiteral [' '] := isLiteral_cons.mpr ⟨fun h => absurd h (by decide), isLiteral_nil⟩
  have hp : Pieces (aboutNumberText prep number noun case.verboseId) []
      [(bracketed prep [number], [' ']), (bracketed number [], [' ']), (bracketed noun [number, case.verboseId], [])] := by
    have q3 := Pieces.var [' '] _ [] [] [] hsp v3 (.last [] (isFinal_of_isLiteral isLiteral_nil))
    have q2 := Pieces.var [' '] _ _ _ _ hsp v2 q3
    have q1 := Pieces.var [] _ _ _ _ isLiteral_nil v1 q2
    simpa [aboutNumberText] using q1
  obtain ⟨j, b, s1, s2, s3⟩ := C41_counted_noun U ext (history U ws) ⟨noun, _⟩ nb f number n case anim he hd (.inr ⟨hnoun, hnb⟩) rfl hcase hn
    hnumber hnt hnfree hanim hmode hnlow
  have hform := C37_form U n f hn
  rw [constructIntegerFresh_eq] at hn
  injection hn with hn; subst hn
  obtain ⟨c, s, hs, -, -⟩ := pyStr_first n
  have hspec : ∀ m : Int, (integerForm m).properties.isSpecified .PREPOSITION_FORM = false ∧ (integerForm m).properties.isSpecified .WORD_CASE = false := by
    intro m
    show (classifyInteger m.natAbs).properties.isSpecified .PREPOSITION_FORM = false ∧ (classifyInteger m.natAbs).properties.isSpecified .WORD_CASE = false
    rw [classify_properties]
    have : ∀ a ∈ [Rec.NUMBER_SINGULAR, .NUMBER_PLURAL], ∀ b ∈ [Rec.INTEGER_FORM_MIL_BIL, .INTEGER_FORM_SINGULAR, .INTEGER_FORM_DUAL,
      .INTEGER_FORM_COMPOSITE_DUAL, .INTEGER_FORM_PLURAL], (Properties.new [.record a, .record b]).isSpecified .PREPOSITION_FORM = false ∧
      (Properties.new [.record a, .record b]).isSpecified .WORD_CASE = false := by decide
    refine this _ ?_ _ ?_
    · unfold grammaticalNumber; split_ifs <;> simp
    · unfold agreementClass; split_ifs <;> simp
  obtain ⟨p, hgo, hpt'⟩ := preposition_getText (U := U) he hd (.inr ⟨hprep, hpb⟩) hpt hpfree hp0 hne hpform hplow hnumber
    (hspec n).1 (hspec n).2 hform (by rw [hs]; simp)
  have hpn : p = normal := by
    have := (C158_goes_with n _ _ p).mp hgo
    rw [hp0] at this; injection this with this; exact this.symm
  subst hpn
  have t1 := number_text (U := U) he hd hnumber
  refine ⟨_, j, b, parse_ok_of hp (.cons p1 (.cons p2 (.cons p3 .nil))), s1, s2, ?_⟩
  rw [show ∀ l : List Substitution, Template.empty.substitutions ++ l = l from fun _ => rfl]
  rw [substitute_parsed rfl]
  simp only [List.mapM_cons, List.mapM_nil, bind, Except.bind, pure, Except.pure, hpt', t1, s3]
  simp [filled]

theorem aboutBases : (history exPy [exAbout, rmCoin]).getWord (str! "о") = .ok (WordForm.new exAbout (some (propertiesOfKey ((invertedCache .PREPOSITION).getD 0 [])))) ∧
    (history exPy [exAbout, rmCoin]).getWord (str! "монета") = .ok rmNounBase := by decide +kernel

theorem aboutText : aboutNumberText (str! "о") (str! "n") (str! "монета") Rec.CASE_PREPOSITIONAL.verboseId = str! "[о|n] [n] [монета|n|пр]" := by
  decide +kernel

/-- C158: «о 11 монетах», as if it were not read «об одиннадцати». -/
theorem C158_coins (n : Int) :
    ∃ (t : Template) (i : Nat) (b : Str), Template.empty.parse exPy (str! "[о|n] [n] [монета|n|пр]") [str! "n"] = .ok t ∧
      nounSlots[i]? = some (countedSlot n .CASE_PREPOSITIONAL .ANIMALITY_INANIMATE) ∧ rmCoin.forms[i]? = some b ∧
      t.substitute exPy [(str! "n", integerForm n)] (history exPy [exAbout, rmCoin]) = .ok (str! "о " ++ pyStr n ++ ' ' :: b) := by
  have hw : ∀ x ∈ [str! "о", str! "n", str! "монета", Rec.CASE_PREPOSITIONAL.verboseId], Written exPy x := by unfold Written; decide +kernel
  have hg : GoodExternals [(str! "n", integerForm n)] := by
    intro x f hf
    simp only [Dict.get?] at hf
    split at hf
    · injection hf with hf; subst hf; exact integerForm_good n
    · cases hf
  obtain ⟨t, i, b, e1, e2, e3, e4⟩ := C158_phrase exPy [exAbout, rmCoin]
    (by intro w hw; simp at hw; rcases hw with rfl | rfl; exacts [exAbout_accepted, rmCoin_accepted])
    [(str! "n", integerForm n)] [str! "n"] (str! "о") (str! "n") (str! "монета") (str! "о") n _ rmNounBase _ .CASE_PREPOSITIONAL .ANIMALITY_INANIMATE
    (hw _ (by simp)) (hw _ (by simp)) (hw _ (by simp)) (hw _ (by simp)) (by decide) (by decide) (by decide) hg (constructIntegerFresh_eq n) rfl
    rfl aboutBases.1 rfl (by decide +kernel) (by decide +kernel) (by decide) (by decide +kernel) (by decide +kernel)
    rfl aboutBases.2 rfl (by decide +kernel) (by decide +kernel) (by decide +kernel) (by decide +kernel)
  rw [aboutText] at e1
  exact ⟨t, i, b, e1, e2, e3, e4⟩

end Utg
