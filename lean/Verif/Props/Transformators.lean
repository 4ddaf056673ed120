import Verif.Spec.Transformators
import Verif.Props.Integers
import Verif.Props.WordForms
/-! # Properties C38-C40, C42: agreement -/

namespace Utg
open Py Spec

theorem clone_records_get? {p : Properties} (hp : WFProps p) (rs : List Rec) (g : Group) :
    (p.clone (rs.map .record)).data.get? g =
      (rs.reverse.find? fun r => decide (r.group = g)).or (p.data.get? g) := by
  unfold Properties.clone
  rw [new_get?]
  · rw [List.reverse_cons, List.findSome?_append, ← List.map_reverse, List.findSome?_map]
    congr 1
    · rw [← List.findSome?_guard]
      congr 1; funext r
      simp [argGet, Option.guard]
    · simp only [List.findSome?_cons, List.findSome?_nil, argGet]
      rcases Option.eq_none_or_eq_some (p.data.get? g) with h | ⟨v, h⟩ <;> simp [h]
  · exact wfargs_cons (by rintro _ ⟨⟩; exact hp) (wfargs_records rs)

theorem clone_sets {p : Properties} (hp : WFProps p) (rs : List Rec) (hn : (rs.map Rec.group).Nodup) :
    Sets p (p.clone (rs.map .record)) rs := by
  constructor
  · intro r hr
    have hf : (rs.reverse.find? fun r' => decide (r'.group = r.group)) = some r := by
      cases h : rs.reverse.find? fun r' => decide (r'.group = r.group) with
      | none => rw [List.find?_eq_none] at h; exact absurd (decide_eq_true rfl) (h r (by simpa using hr))
      | some r' =>
        have h1 := List.find?_some h
        have h2 : r' ∈ rs := by simpa using List.mem_of_find?_eq_some h
        simp only [decide_eq_true_eq] at h1
        rw [List.inj_on_of_nodup_map hn h2 hr h1]
    have := clone_records_get? hp rs r.group
    rw [hf] at this
    exact ⟨by simp [Properties.get, this], isSpecified_iff.mpr ⟨r, by simpa using this⟩⟩
  · intro g hg
    have hf : (rs.reverse.find? fun r' => decide (r'.group = g)) = none := by
      rw [List.find?_eq_none]; intro r hr; simp; exact hg r (by simpa using hr)
    have := clone_records_get? hp rs g
    rw [hf] at this
    simp only [Option.none_or] at this
    exact ⟨get_congr this, by simp [Properties.isSpecified, Dict.contains, this]⟩

theorem wf_clone_records {p : Properties} (hp : WFProps p) (rs : List Rec) : WFProps (p.clone (rs.map .record)) :=
  wf_new (wfargs_cons (by rintro _ ⟨⟩; exact hp) (wfargs_records rs))

theorem getRec_eq {p : Properties} {g : Group} {r : Rec} (h : p.get g = some r) : p.getRec g = .ok r := by
  unfold Properties.getRec; rw [h]

theorem nounInteger_eq {p : Properties} {mode i case anim : Rec} (hm : p.get .DEPENDENCY_MODE = some mode)
    (hi : p.get .INTEGER_FORM = some i) (hc : p.get .CASE = some case) (ha : p.get .ANIMALITY = some anim)
    (hi' : i ∈ Group.INTEGER_FORM.records) :
    nounInteger p = .ok (p.clone ((nounAgreement mode i case anim).map .record)) := by
  unfold nounInteger
  simp only [getRec_eq hm, getRec_eq hi, getRec_eq hc, getRec_eq ha, bind, Except.bind, pure, Except.pure]
  simp only [Group.records, List.mem_cons, List.not_mem_nil, or_false] at hi'
  unfold nounAgreement
  by_cases h1 : mode = .DEPENDENCY_MODE_SEMANTIC
  · simp only [h1, if_true]; split <;> simp_all
  · simp only [h1, if_false]
    rcases hi' with rfl | rfl | rfl | rfl | rfl <;> simp
    · by_cases h2 : case = .CASE_NOMINATIVE
      · simp [h2]
      · by_cases h3 : case = .CASE_ACCUSATIVE ∧ anim = .ANIMALITY_INANIMATE <;> simp [h2, h3]
    · by_cases h2 : case = .CASE_NOMINATIVE
      · simp [h2]
      · by_cases h3 : case = .CASE_ACCUSATIVE <;> simp [h2, h3]
    · by_cases h2 : case = .CASE_NOMINATIVE
      · simp [h2]
      · by_cases h3 : case = .CASE_ACCUSATIVE <;> simp [h2, h3]

theorem adjectiveInteger_eq {p : Properties} {mode i case gender : Rec} (hm : p.get .DEPENDENCY_MODE = some mode)
    (hi : p.get .INTEGER_FORM = some i) (hc : p.get .CASE = some case) (ha : p.get .GENDER = some gender)
    (hi' : i ∈ Group.INTEGER_FORM.records) (hg' : gender ∈ Group.GENDER.records) :
    adjectiveInteger p = .ok (p.clone ((adjectiveAgreement mode i case gender).map .record)) := by
  unfold adjectiveInteger
  simp only [getRec_eq hm, getRec_eq hi, getRec_eq hc, getRec_eq ha, bind, Except.bind, pure, Except.pure]
  simp only [Group.records, List.mem_cons, List.not_mem_nil, or_false] at hi' hg'
  unfold adjectiveAgreement
  by_cases h1 : mode = .DEPENDENCY_MODE_SEMANTIC
  · simp only [h1, if_true]; split <;> simp_all
  · simp only [h1, if_false]
    rcases hi' with rfl | rfl | rfl | rfl | rfl <;> simp
    · by_cases h2 : case = .CASE_NOMINATIVE ∨ case = .CASE_ACCUSATIVE
      · rcases hg' with rfl | rfl | rfl <;> simp [h2]
      · simp [h2]
    · by_cases h2 : case = .CASE_NOMINATIVE
      · simp [h2]
      · by_cases h3 : case = .CASE_ACCUSATIVE <;> simp [h2, h3]
    · by_cases h2 : case = .CASE_NOMINATIVE
      · simp [h2]
      · by_cases h3 : case = .CASE_ACCUSATIVE <;> simp [h2, h3]

theorem nounAgreement_nodup (mode i case anim : Rec) : ((nounAgreement mode i case anim).map Rec.group).Nodup := by
  unfold nounAgreement
  split
  · split <;> decide
  · split <;> try split
    all_goals decide

theorem adjectiveAgreement_nodup (mode i case gender : Rec) : ((adjectiveAgreement mode i case gender).map Rec.group).Nodup := by
  unfold adjectiveAgreement
  split
  · split <;> decide
  · split <;> try split
    all_goals try split
    all_goals decide

/-! ## C38, C39 -/

/-- C38: a noun or pronoun agrees with a number as `Spec.nounAgreement` says; nothing else changes. -/
theorem C38_noun_agreement (U : PyUni) (w : Word) (p : Properties) (f : WordForm) (mode i case anim : Rec) (hp : WFProps p)
    (hw : w.type = .NOUN ∨ w.type = .PRONOUN) (hf : f.word.type = .INTEGER)
    (hm : p.get .DEPENDENCY_MODE = some mode) (hi : p.get .INTEGER_FORM = some i) (hc : p.get .CASE = some case)
    (ha : p.get .ANIMALITY = some anim) :
    ∃ q, transform U w p f = .ok q ∧ Sets p q (nounAgreement mode i case anim) := by
  have h := nounInteger_eq hm hi hc ha (mem_records_iff.mpr (get_group hp hi))
  refine ⟨_, ?_, clone_sets hp _ (nounAgreement_nodup ..)⟩
  unfold transform
  rcases hw with hw | hw <;> rw [hw, hf] <;> exact h

/-- C38: the values the table is indexed by always exist, so agreement never fails. -/
theorem C38_never_fails (U : PyUni) (w : Word) (p : Properties) (f : WordForm) (hp : WFProps p)
    (hw : w.type = .NOUN ∨ w.type = .PRONOUN) (hf : f.word.type = .INTEGER) :
    ∃ mode i case anim q, p.get .DEPENDENCY_MODE = some mode ∧ p.get .INTEGER_FORM = some i ∧ p.get .CASE = some case ∧
      p.get .ANIMALITY = some anim ∧ transform U w p f = .ok q ∧ Sets p q (nounAgreement mode i case anim) := by
  obtain ⟨mode, _, hm⟩ := get_mem_records hp (g := .DEPENDENCY_MODE) (by decide)
  obtain ⟨i, _, hi⟩ := get_mem_records hp (g := .INTEGER_FORM) (by decide)
  obtain ⟨case, _, hc⟩ := get_mem_records hp (g := .CASE) (by decide)
  obtain ⟨anim, _, ha⟩ := get_mem_records hp (g := .ANIMALITY) (by decide)
  obtain ⟨q, h1, h2⟩ := C38_noun_agreement U w p f mode i case anim hp hw hf hm hi hc ha
  exact ⟨mode, i, case, anim, q, hm, hi, hc, ha, h1, h2⟩

/-- C39: an adjective, verb or participle agrees with a number as `Spec.adjectiveAgreement` says; nothing else changes. -/
theorem C39_adjective_agreement (U : PyUni) (w : Word) (p : Properties) (f : WordForm) (mode i case gender : Rec)
    (hp : WFProps p) (hw : w.type = .ADJECTIVE ∨ w.type = .VERB ∨ w.type = .PARTICIPLE) (hf : f.word.type = .INTEGER)
    (hm : p.get .DEPENDENCY_MODE = some mode) (hi : p.get .INTEGER_FORM = some i) (hc : p.get .CASE = some case)
    (hg : p.get .GENDER = some gender) :
    ∃ q, transform U w p f = .ok q ∧ Sets p q (adjectiveAgreement mode i case gender) := by
  have h := adjectiveInteger_eq hm hi hc hg (mem_records_iff.mpr (get_group hp hi)) (mem_records_iff.mpr (get_group hp hg))
  refine ⟨_, ?_, clone_sets hp _ (adjectiveAgreement_nodup ..)⟩
  unfold transform
  rcases hw with hw | hw | hw <;> rw [hw, hf] <;> exact h

/-- C39: agreement never fails. -/
theorem C39_never_fails (U : PyUni) (w : Word) (p : Properties) (f : WordForm) (hp : WFProps p)
    (hw : w.type = .ADJECTIVE ∨ w.type = .VERB ∨ w.type = .PARTICIPLE) (hf : f.word.type = .INTEGER) :
    ∃ mode i case gender q, p.get .DEPENDENCY_MODE = some mode ∧ p.get .INTEGER_FORM = some i ∧ p.get .CASE = some case ∧
      p.get .GENDER = some gender ∧ transform U w p f = .ok q ∧ Sets p q (adjectiveAgreement mode i case gender) := by
  obtain ⟨mode, _, hm⟩ := get_mem_records hp (g := .DEPENDENCY_MODE) (by decide)
  obtain ⟨i, _, hi⟩ := get_mem_records hp (g := .INTEGER_FORM) (by decide)
  obtain ⟨case, _, hc⟩ := get_mem_records hp (g := .CASE) (by decide)
  obtain ⟨gender, _, ha⟩ := get_mem_records hp (g := .GENDER) (by decide)
  obtain ⟨q, h1, h2⟩ := C39_adjective_agreement U w p f mode i case gender hp hw hf hm hi hc ha
  exact ⟨mode, i, case, gender, q, hm, hi, hc, ha, h1, h2⟩

/-- The properties of `[noun|5|дт]`: the number's properties and the dative. -/
def exCounted : Properties := .new [.props (integerForm 5).properties, .record .CASE_DATIVE]

example : WFProps exCounted ∧ exNoun.type = .NOUN ∧ (integerForm 5).word.type = .INTEGER ∧
    exCounted.get .INTEGER_FORM = some .INTEGER_FORM_PLURAL ∧ exCounted.get .CASE = some .CASE_DATIVE ∧
    nounAgreement .DEPENDENCY_MODE_FULL .INTEGER_FORM_PLURAL .CASE_DATIVE .ANIMALITY_ANIMATE =
      [.NOUN_FORM_COUNTABLE, .NUMBER_PLURAL] := by
  refine ⟨wf_new (wfargs_cons ?_ (wfargs_cons (by rintro _ ⟨⟩) wfargs_nil)), rfl, rfl, by decide +kernel, by decide +kernel, by decide⟩
  rintro _ ⟨⟩
  exact wf_new (by intro p hp; simp at hp)

/-! ## C40 -/

/-- C40: a number changes only noun form, number and case of a noun or pronoun. -/
theorem C40_number_frame (U : PyUni) (w : Word) (p q : Properties) (f : WordForm) (hp : WFProps p)
    (hf : f.word.type = .INTEGER) (hw : w.type ≠ .PREPOSITION) (h : transform U w p f = .ok q) (g : Group)
    (h1 : g ≠ .NOUN_FORM) (h2 : g ≠ .NUMBER) (h3 : g ≠ .CASE) :
    q.get g = p.get g ∧ q.isSpecified g = p.isSpecified g := by
  by_cases hn : w.type = .NOUN ∨ w.type = .PRONOUN
  · obtain ⟨mode, i, case, anim, q', _, _, _, _, hq, hs⟩ := C38_never_fails U w p f hp hn hf
    rw [h] at hq; injection hq with hq; subst hq
    apply hs.2
    intro r hr
    have : r.group = .NOUN_FORM ∨ r.group = .NUMBER ∨ r.group = .CASE := by
      revert hr; unfold nounAgreement
      split
      · split <;> simp <;> rintro (rfl | rfl) <;> simp [Rec.group]
      · split <;> try split
        all_goals simp
        all_goals first
          | (rintro (rfl | rfl) <;> simp [Rec.group])
          | (rintro (rfl | rfl | rfl) <;> simp [Rec.group])
    rcases this with h | h | h <;> rw [h] <;> exact Ne.symm ‹_›
  · by_cases ha : w.type = .ADJECTIVE ∨ w.type = .VERB ∨ w.type = .PARTICIPLE
    · obtain ⟨mode, i, case, gender, q', _, _, _, _, hq, hs⟩ := C39_never_fails U w p f hp ha hf
      rw [h] at hq; injection hq with hq; subst hq
      apply hs.2
      intro r hr
      have : r.group = .NUMBER ∨ r.group = .CASE := by
        revert hr; unfold adjectiveAgreement
        split
        · split <;> simp <;> rintro rfl <;> simp [Rec.group]
        · split <;> try split
          all_goals try split
          all_goals simp
          all_goals first
            | (rintro rfl; simp [Rec.group])
            | (rintro (rfl | rfl) <;> simp [Rec.group])
      rcases this with h | h <;> rw [h] <;> exact Ne.symm ‹_›
    · have : transform U w p f = .ok p := by
        unfold transform
        cases ht : w.type <;> simp_all
      rw [this] at h; injection h with h; subst h; exact ⟨rfl, rfl⟩

/-- C40: a preposition's agreement changes only the preposition form. -/
theorem C40_preposition_frame (U : PyUni) (w : Word) (p q : Properties) (f : WordForm) (hp : WFProps p)
    (hw : w.type = .PREPOSITION) (h : transform U w p f = .ok q) (g : Group) (hg : g ≠ .PREPOSITION_FORM) :
    q.get g = p.get g ∧ q.isSpecified g = p.isSpecified g := by
  have key : q = p ∨ q = p.clone ([Rec.PREPOSITION_FORM_ALTERNATIVE].map .record) ∨
      q = p.clone ([Rec.PREPOSITION_FORM_SPECIAL].map .record) := by
    have ht : transform U w p f = prepositionAny U w p f := by
      unfold transform; rw [hw]
    rw [ht] at h
    unfold prepositionAny consonantPrepositionAny vowelsPrepositionAny at h
    simp only [bind, Except.bind, pure, Except.pure] at h
    repeat' split at h
    all_goals first
      | (injection h with h; subst h; simp; done)
      | cases h
  rcases key with rfl | rfl | rfl
  · exact ⟨rfl, rfl⟩
  · exact (clone_sets hp _ (by decide)).2 g (by simpa [Rec.group] using Ne.symm hg)
  · exact (clone_sets hp _ (by decide)).2 g (by simpa [Rec.group] using Ne.symm hg)

/-- C40: for every other pair of word types the properties come back unchanged. -/
theorem C40_other_pairs (U : PyUni) (w : Word) (p : Properties) (f : WordForm) (hw : w.type ≠ .PREPOSITION)
    (h : f.word.type ≠ .INTEGER ∨ w.type = .INTEGER ∨ w.type = .TEXT) : transform U w p f = .ok p := by
  unfold transform
  cases ht : w.type <;> cases hm : f.word.type <;> simp_all

example : transform ⟨id, fun c => [c], fun _ => false, fun c => c = ' ', fun _ => true⟩ exNoun exCounted (WordForm.new exNoun) = .ok exCounted := rfl

/-! ## C42 -/

theorem mem_NOT_J_VOWELS {c : Char} : NOT_J_VOWELS.contains c = true ↔ isPlainVowel c := by
  have h : NOT_J_VOWELS = str! "аиоуыэАИОУЫЭ" := by decide
  rw [h, List.contains_eq_mem, decide_eq_true_eq]
  unfold isPlainVowel
  simp only [List.mem_cons, List.not_mem_nil, or_false]
  constructor <;> intro h <;> rcases h with h | h | h | h | h | h | h | h | h | h | h | h <;> simp [h]

theorem transform_preposition {U : PyUni} {w : Word} {p : Properties} {f : WordForm} (hw : w.type = .PREPOSITION) :
    transform U w p f = prepositionAny U w p f := by unfold transform; rw [hw]

theorem consonant_spec (U : PyUni) (prep next : Str) (p : Properties) (f : WordForm) (hacc : Accepted f.word)
    (hf : f.form U = .ok next) (hne : next ≠ []) :
    ∃ b : Bool, consonantPrepositionAny U prep p f =
        .ok (if b then p.clone [.record .PREPOSITION_FORM_ALTERNATIVE] else p) ∧
      (b = true ↔ (StartsWithCluster next ∧ OneSyllable f.word ∧ FluentVowel f.word ∨
       (prep = str! "в" ∨ prep = str! "с") ∧ prep <+: next ∧ StartsWithCluster next)) := by
  obtain ⟨c, cs, rfl⟩ : ∃ c cs, next = c :: cs := by cases next with | nil => exact absurd rfl hne | cons c cs => exact ⟨c, cs, rfl⟩
  obtain ⟨b1, hb1, hb1'⟩ := (C57_consonant_cluster U f).2.2 c cs hf
  obtain ⟨f0, hf0, hsyl⟩ := C55_syllables f.word hacc
  obtain ⟨b3, hb3, hb3'⟩ := C56_fluent_vowel f.word hacc
  have e1 : StartsWithCluster (c :: cs) ↔ b1 = true := by
    rw [hb1']; unfold StartsWithCluster
    constructor
    · rintro ⟨c', cs', h, h'⟩; injection h with h1 h2; subst h1 h2; exact h'
    · intro h; exact ⟨c, cs, rfl, h⟩
  have e2 : OneSyllable f.word ↔ max 1 (f0.filter fun c => decide (isVowel c)).length = 1 := by
    unfold OneSyllable vowels
    rw [hf0]
    simp only [Option.some.injEq, exists_eq_left']
    omega
  have e3 : FluentVowel f.word ↔ b3 = true := by rw [hb3']; rfl
  have e4 : prep = [c] ↔ (prep.length = 1 ∧ prep <+: c :: cs) := by
    constructor
    · rintro rfl; exact ⟨rfl, ⟨cs, rfl⟩⟩
    · rintro ⟨hl, t, ht⟩
      cases prep with
      | nil => simp at hl
      | cons a as => cases as with
        | nil => simp at ht; rw [ht.1]
        | cons _ _ => simp at hl
  rw [e1, e2, e3]
  unfold consonantPrepositionAny
  rw [hf]
  simp only [bind, Except.bind, pure, Except.pure, hb1, hsyl, hb3, Py.first]
  have hlen : prep = str! "в" ∨ prep = str! "с" → prep.length = 1 := by rintro (rfl | rfl) <;> rfl
  by_cases g1 : b1 = true
  · by_cases g2 : max 1 (f0.filter fun c => decide (isVowel c)).length = 1
    · by_cases g3 : b3 = true
      · exact ⟨true, by simp [g1, g2, g3]⟩
      · by_cases g4 : prep = str! "в" ∨ prep = str! "с"
        · by_cases g5 : prep = [c]
          · exact ⟨true, by simp [g1, g2, g3, if_pos g4, if_pos g5], by simp [g1, g4, (e4.mp g5).2]⟩
          · have : ¬ prep <+: c :: cs := fun h => g5 (e4.mpr ⟨hlen g4, h⟩)
            exact ⟨false, by simp [g1, g2, g3, g4, g5], by simp [g3, this]⟩
        · exact ⟨false, by simp [g1, g2, g3, g4], by simp [g3, g4]⟩
    · by_cases g4 : prep = str! "в" ∨ prep = str! "с"
      · by_cases g5 : prep = [c]
        · exact ⟨true, by simp [g1, g2, if_pos g4, if_pos g5], by simp [g1, g4, (e4.mp g5).2]⟩
        · have : ¬ prep <+: c :: cs := fun h => g5 (e4.mpr ⟨hlen g4, h⟩)
          exact ⟨false, by simp [g1, g2, g4, g5], by simp [g2, this]⟩
      · exact ⟨false, by simp [g1, g2, g4], by simp [g2, g4]⟩
  · refine ⟨false, ?_, by simp [g1]⟩
    simp only [g1]
    by_cases g4 : prep = str! "в" ∨ prep = str! "с" <;> by_cases g5 : prep = [c] <;> simp [g4, g5]

theorem vowel_spec (U : PyUni) (prep next : Str) (p : Properties) (f : WordForm)
    (hf : f.form U = .ok next) (hne : next ≠ []) :
    ∃ form : Option Rec, vowelsPrepositionAny U prep p f = .ok (match form with | none => p | some r => p.clone [.record r]) ∧
      (form = some .PREPOSITION_FORM_SPECIAL ∧
        (prep = str! "о" ∧ next ∈ [str! "всех", str! "мне", str! "всём", str! "что", str! "всей"]) ∨
       form = some .PREPOSITION_FORM_ALTERNATIVE ∧
        ¬ (prep = str! "о" ∧ next ∈ [str! "всех", str! "мне", str! "всём", str! "что", str! "всей"]) ∧
        (∃ c, next[0]? = some c ∧ isPlainVowel c) ∨
       form = none ∧
        ¬ (prep = str! "о" ∧ next ∈ [str! "всех", str! "мне", str! "всём", str! "что", str! "всей"]) ∧
        ¬ ∃ c, next[0]? = some c ∧ isPlainVowel c) := by
  unfold vowelsPrepositionAny
  rw [hf]
  simp only [bind, Except.bind, pure, Except.pure]
  by_cases h1 : prep = str! "о" ∧ next ∈ [str! "всех", str! "мне", str! "всём", str! "что", str! "всей"]
  · rw [if_pos h1]; exact ⟨some .PREPOSITION_FORM_SPECIAL, rfl, Or.inl ⟨rfl, h1⟩⟩
  · rw [if_neg h1]
    obtain ⟨c, cs, rfl⟩ : ∃ c cs, next = c :: cs := by
      cases next with | nil => exact absurd rfl hne | cons c cs => exact ⟨c, cs, rfl⟩
    simp only [Py.first]
    by_cases h2 : NOT_J_VOWELS.contains c = true
    · rw [if_pos h2]
      exact ⟨some .PREPOSITION_FORM_ALTERNATIVE, rfl, Or.inr (Or.inl ⟨rfl, h1, c, rfl, mem_NOT_J_VOWELS.mp h2⟩)⟩
    · rw [if_neg h2]
      refine ⟨none, rfl, Or.inr (Or.inr ⟨rfl, h1, ?_⟩)⟩
      rintro ⟨c', hc', hv⟩
      simp at hc'; subst hc'; exact h2 (mem_NOT_J_VOWELS.mpr hv)

/-- C42: a preposition takes the form the next word demands, and nothing else changes. -/
theorem C42_preposition (U : PyUni) (w : Word) (p : Properties) (f : WordForm) (prep next : Str) (hp : WFProps p)
    (hw : w.type = .PREPOSITION) (hacc : Accepted f.word) (hn : w.normalForm = .ok prep) (hprep : prep ≠ [])
    (hf : f.form U = .ok next) (hne : next ≠ []) :
    ∃ form q, transform U w p f = .ok q ∧ prepositionAgreement prep next f.word form ∧ Sets p q form.toList := by
  rw [transform_preposition hw]
  unfold prepositionAny
  rw [hn]
  obtain ⟨c, hc⟩ : ∃ c, prep.getLast? = some c := by
    cases h : prep.getLast? with
    | none => exact absurd (List.getLast?_eq_none_iff.mp h) hprep
    | some c => exact ⟨c, rfl⟩
  simp only [bind, Except.bind, Py.last, hc]
  have hcons : CONSONANTS.contains c = true ↔ ∃ c, prep.getLast? = some c ∧ isConsonant c := by
    rw [List.contains_eq_mem, decide_eq_true_eq, mem_CONSONANTS]
    constructor
    · intro h; exact ⟨c, hc, h⟩
    · rintro ⟨c', h1, h2⟩; rw [hc] at h1; injection h1 with h1; subst h1; exact h2
  by_cases hcc : CONSONANTS.contains c = true
  · rw [if_pos hcc]
    obtain ⟨b, h1, h2⟩ := consonant_spec U prep next p f hacc hf hne
    cases b with
    | true =>
      exact ⟨some .PREPOSITION_FORM_ALTERNATIVE, _, h1, Or.inl ⟨hcons.mp hcc, Or.inl ⟨rfl, h2.mp rfl⟩⟩,
        clone_sets hp [.PREPOSITION_FORM_ALTERNATIVE] (by decide)⟩
    | false =>
      exact ⟨none, _, h1, Or.inl ⟨hcons.mp hcc, Or.inr ⟨rfl, fun h => Bool.noConfusion (h2.mpr h)⟩⟩,
        ⟨by simp, fun _ _ => ⟨rfl, rfl⟩⟩⟩
  · rw [if_neg hcc]
    obtain ⟨form, h1, h2⟩ := vowel_spec U prep next p f hf hne
    refine ⟨form, _, h1, Or.inr ⟨fun h => hcc (hcons.mpr h), h2⟩, ?_⟩
    cases form with
    | none => exact ⟨by simp, fun _ _ => ⟨rfl, rfl⟩⟩
    | some r => exact clone_sets hp [r] (by simp)

/-- C42: the only failures come from empty texts: an empty preposition, or a next word spelled with the empty text. -/
theorem C42_empty_texts (U : PyUni) (w : Word) (p : Properties) (f : WordForm) (prep : Str)
    (hw : w.type = .PREPOSITION) (hn : w.normalForm = .ok prep) (h : prep = [] ∨ f.form U = .ok []) :
    transform U w p f = .error .IndexError := by
  rw [transform_preposition hw]
  unfold prepositionAny
  rw [hn]
  simp only [bind, Except.bind, Py.last]
  rcases h with rfl | h
  · rfl
  · cases hl : prep.getLast? with
    | none => rfl
    | some c =>
      simp only
      split
      · unfold consonantPrepositionAny
        rw [h]
        simp only [bind, Except.bind, (C57_consonant_cluster U f).2.1 h]
      · unfold vowelsPrepositionAny
        rw [h]
        simp [bind, Except.bind, Py.first]

/-- A preposition: в, во. -/
def exPrep : Word := ⟨.PREPOSITION, [str! "в", str! "во", str! "во"], .new []⟩

theorem exPrep_accepted : Accepted exPrep := ⟨_, _, _, wf_empty, (C08_constructor .PREPOSITION _ (.new [])).1 (by decide +kernel)⟩

/-- A noun starting with a cluster. -/
def exVlast : Word := ⟨.TEXT, [str! "власть"], .new []⟩

theorem exVlast_accepted : Accepted exVlast := ⟨_, _, _, wf_empty, (C08_constructor .TEXT _ (.new [])).1 rfl⟩

example : exPrep.normalForm = .ok (str! "в") ∧ (WordForm.new exVlast).form ⟨id, fun c => [c], fun _ => false, fun _ => false, fun _ => true⟩ = .ok (str! "власть") ∧
    StartsWithCluster (str! "власть") := by
  refine ⟨by decide +kernel, by decide +kernel, 'в', _, rfl, ?_, ?_⟩
  · unfold isConsonant; decide
  · intro d hd; simp at hd; subst hd; unfold isConsonant; decide

end Utg
