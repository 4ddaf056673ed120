import Verif.Props.Reference
import Verif.Props.Counted
import Verif.Props.BareWords
/-! # C87 - C90, C104: exactly what happens where the wider claims C43, C67, C74, C17, C65 fail -/

namespace Utg
open Py Spec

/-! ## C87: counted words, whatever they fix -/

/-- The text of a substitution whose word is known, by the reference semantics. -/
theorem getText_reading {U : PyUni} {ext : Externals} {d : Dictionary} {s : Substitution} {base : WordForm} (he : GoodExternals ext)
    (hd : GoodDictionary d) (hs : GoodSubstitution s) (hr : Resolves ext d s.id base) :
    s.getText U ext d = (masters ext s.dependencies).bind fun fs =>
      (agreeAll U base.word (initialReading ext base s.dependencies) fs).bind (spoken U base.word) := by
  rw [C86_substitution U ext d (fun t => (d.getWord t).toOption) s he hd hs (by
    intro t f; cases d.getWord t <;> simp [Except.toOption])]
  have : (ext.get? s.id).or (d.getWord s.id).toOption = some base := by
    rcases hr with h | ⟨h, h'⟩
    · rw [h]; rfl
    · rw [h, h']; rfl
  unfold meaning
  rw [this]
  rfl

theorem upd_apply (ρ : Reading) (rs : List Rec) (g : Group) :
    ρ.upd rs g = (rs.find? fun r => decide (r.group = g)).or (ρ g) := by
  unfold Reading.upd
  cases rs.find? fun r => decide (r.group = g) <;> rfl

theorem proper_upds {ρ : Reading} (h : Proper ρ) (rs : List Rec) : Proper (ρ.upd rs) := by
  intro g hg
  rw [upd_apply]
  cases hf : rs.find? fun r => decide (r.group = g) with
  | none => exact h g hg
  | some r =>
    have := List.find?_some hf
    exact ⟨r, mem_records_iff.mpr (by simpa using this), rfl⟩

/-- The readings of a counted word before agreement. -/
theorem counted_initial {ext : Externals} {base : WordForm} {name : Str} {n : Int} {case c : Rec} (hb : GoodForm base)
    (hname : ext.get? name = some (integerForm n)) (hcase : case ∈ cases)
    (hfree : base.word.properties.isSpecified .INTEGER_FORM = false)
    (hc : some c = if base.word.properties.isSpecified .CASE then base.word.properties.get .CASE else some case) :
    initialReading ext base [.ext name, .props (.new [.record case])] .INTEGER_FORM = some (agreementClass n) ∧
    initialReading ext base [.ext name, .props (.new [.record case])] .CASE = some c ∧
    ∀ g, g ∉ [Group.CASE, .INTEGER_FORM, .NUMBER] →
      initialReading ext base [.ext name, .props (.new [.record case])] g = effective base.word base.properties g := by
  obtain ⟨f, hf, hf1, hf2, hf3, hf4⟩ := C35_agreement_class n
  rw [constructIntegerFresh_eq] at hf
  injection hf with hf; subst hf
  have hwp := (accepted_iff.mp hb.1).1
  have hsay : ∀ g, depSays ext (.ext name) g = if (integerForm n).properties.isSpecified g then (integerForm n).properties.get g else none := by
    intro g; simp only [depSays, hname]
  have hsay2 : ∀ g, depSays ext (.props (.new [.record case])) g = if g = .CASE then some case else none := by
    intro g
    rw [depSays_eq]
    simp only [depProps]
    rw [new_get? (by intro p hp; simp at hp)]
    simp only [List.reverse_cons, List.reverse_nil, List.nil_append, List.findSome?_cons, List.findSome?_nil, argGet, cases_group hcase]
    by_cases hg : g = .CASE
    · subst hg; simp
    · simp [hg, Ne.symm hg]
  refine ⟨?_, ?_, ?_⟩
  · simp only [initialReading, hfree, lastSay, hsay2, hsay]
    rw [if_pos ((hf4 _).mpr (.inl rfl)), hf2]; rfl
  · rw [hc]
    simp only [initialReading, lastSay, hsay2, if_true]
  · intro g hg
    simp only [List.mem_cons, List.not_mem_nil, or_false, not_or] at hg
    rw [← effective_eq hwp hb.2.1, new2_get hb.2.1 hwp]
    simp only [initialReading, lastSay, hsay2, hsay, if_neg hg.1]
    rw [if_neg (c := (integerForm n).properties.isSpecified g = true) (by rw [hf4]; tauto)]

theorem nounAgreement_number (mode i case anim : Rec) :
    ((nounAgreement mode i case anim).find? fun r => decide (r.group = .NUMBER)).isSome := by
  unfold nounAgreement
  split
  · split <;> rfl
  · split <;> (try split) <;> rfl

theorem adjectiveAgreement_number (mode i case gender : Rec) :
    ((adjectiveAgreement mode i case gender).find? fun r => decide (r.group = .NUMBER)).isSome := by
  unfold adjectiveAgreement
  split
  · split <;> rfl
  · split <;> (try split) <;> rfl

theorem counted_upd {ρ ρ' : Reading} {rs : List Rec} {c i : Rec} (hn : (rs.find? fun r => decide (r.group = .NUMBER)).isSome)
    (hc : c.group = .CASE) (hi : i.group = .INTEGER_FORM) (h1 : ρ .INTEGER_FORM = some i) (h2 : ρ .CASE = some c)
    (h3 : ∀ g, g ∉ [Group.CASE, .INTEGER_FORM, .NUMBER] → ρ g = ρ' g) : ρ.upd rs = ρ'.upd (rs ++ [c, i]) := by
  funext g
  rw [upd_apply, upd_apply, List.find?_append]
  cases hf : rs.find? fun r => decide (r.group = g) with
  | some r => rfl
  | none =>
    have hg : g ≠ .NUMBER := by rintro rfl; rw [hf] at hn; cases hn
    by_cases e1 : g = .CASE
    · subst e1; simp [hc, h2]
    · by_cases e2 : g = .INTEGER_FORM
      · subst e2; simp [hc, hi, h1]
      · rw [h3 g (by simp [e1, e2, hg])]
        simp [hc, hi, Ne.symm e1, Ne.symm e2]

theorem own_case_group {base : WordForm} {case c : Rec} (hb : GoodForm base) (hcase : case ∈ cases)
    (hc : some c = if base.word.properties.isSpecified .CASE then base.word.properties.get .CASE else some case) : c.group = .CASE := by
  have hwp := (accepted_iff.mp hb.1).1
  split at hc
  · obtain ⟨r, hr, h⟩ := get_mem_records hwp (g := .CASE) (by decide)
    rw [h] at hc; injection hc with hc; subst hc; exact mem_records_iff.mp hr
  · injection hc with hc; subst hc; exact cases_group hcase

/-- C87: in `[word|n|case]` the noun form, the number and the case of a noun or pronoun follow from the number `n`, the animality
and the case - the word's own case if it fixes one, the case asked for if not. All its other properties are its own or the ones it was
recognised with. In particular a number it fixes itself (plurale tantum) does not count. -/
theorem C87_counted_noun (U : PyUni) (ext : Externals) (d : Dictionary) (s : Substitution) (base f : WordForm) (name : Str) (n : Int)
    (case c mode anim : Rec) (he : GoodExternals ext) (hd : GoodDictionary d) (hr : Resolves ext d s.id base)
    (hs : s.dependencies = [.ext name, .props (.new [.record case])]) (hcase : case ∈ cases)
    (hn : constructIntegerFresh n = .ok f) (hname : ext.get? name = some f)
    (hw : base.word.type = .NOUN ∨ base.word.type = .PRONOUN)
    (hfree : base.word.properties.isSpecified .INTEGER_FORM = false)
    (hc : some c = if base.word.properties.isSpecified .CASE then base.word.properties.get .CASE else some case)
    (hmode : effective base.word base.properties .DEPENDENCY_MODE = some mode)
    (hanim : effective base.word base.properties .ANIMALITY = some anim) :
    s.getText U ext d = spoken U base.word (Reading.upd (effective base.word base.properties)
      (nounAgreement mode (agreementClass n) c anim ++ [c, agreementClass n])) := by
  rw [constructIntegerFresh_eq] at hn
  injection hn with hn; subst hn
  have hsg : GoodSubstitution s := by
    intro p hp; rw [hs] at hp; simp at hp; subst hp; exact wf_new (by intro p hp; simp at hp)
  have hb := resolves_good he hd hr
  obtain ⟨k1, k2, k3⟩ := counted_initial hb hname hcase hfree hc
  rw [getText_reading he hd hsg hr, hs]
  have hm : masters ext [.ext name, .props (.new [.record case])] = .ok [integerForm n] := by simp [masters, hname]; rfl
  have hdem : demand U base.word (initialReading ext base [.ext name, .props (.new [.record case])]) (integerForm n) =
      .ok (nounAgreement mode (agreementClass n) c anim) := by
    have hi : (integerForm n).word.type = .INTEGER := rfl
    rcases hw with hw | hw <;>
    · simp only [demand, hw, hi, k1, k2, k3 .DEPENDENCY_MODE (by decide), hmode, k3 .ANIMALITY (by decide), hanim, if_true]
  simp only [hm, Except.bind, agreeAll, hdem, bind]
  rw [counted_upd (nounAgreement_number _ _ _ _) (own_case_group hb hcase hc) (mem_records_iff.mp (agreementClass_mem n)) k1 k2 k3]

/-- C87: the same for adjectives, verbs and participles: number and case follow from the number `n`, the gender and the case. -/
theorem C87_counted_adjective (U : PyUni) (ext : Externals) (d : Dictionary) (s : Substitution) (base f : WordForm) (name : Str) (n : Int)
    (case c mode gender : Rec) (he : GoodExternals ext) (hd : GoodDictionary d) (hr : Resolves ext d s.id base)
    (hs : s.dependencies = [.ext name, .props (.new [.record case])]) (hcase : case ∈ cases)
    (hn : constructIntegerFresh n = .ok f) (hname : ext.get? name = some f)
    (hw : base.word.type = .ADJECTIVE ∨ base.word.type = .VERB ∨ base.word.type = .PARTICIPLE)
    (hfree : base.word.properties.isSpecified .INTEGER_FORM = false)
    (hc : some c = if base.word.properties.isSpecified .CASE then base.word.properties.get .CASE else some case)
    (hmode : effective base.word base.properties .DEPENDENCY_MODE = some mode)
    (hgender : effective base.word base.properties .GENDER = some gender) :
    s.getText U ext d = spoken U base.word (Reading.upd (effective base.word base.properties)
      (adjectiveAgreement mode (agreementClass n) c gender ++ [c, agreementClass n])) := by
  rw [constructIntegerFresh_eq] at hn
  injection hn with hn; subst hn
  have hsg : GoodSubstitution s := by
    intro p hp; rw [hs] at hp; simp at hp; subst hp; exact wf_new (by intro p hp; simp at hp)
  have hb := resolves_good he hd hr
  obtain ⟨k1, k2, k3⟩ := counted_initial hb hname hcase hfree hc
  rw [getText_reading he hd hsg hr, hs]
  have hm : masters ext [.ext name, .props (.new [.record case])] = .ok [integerForm n] := by simp [masters, hname]; rfl
  have hdem : demand U base.word (initialReading ext base [.ext name, .props (.new [.record case])]) (integerForm n) =
      .ok (adjectiveAgreement mode (agreementClass n) c gender) := by
    have hi : (integerForm n).word.type = .INTEGER := rfl
    rcases hw with hw | hw | hw <;>
    · simp only [demand, hw, hi, k1, k2, k3 .DEPENDENCY_MODE (by decide), hmode, k3 .GENDER (by decide), hgender, if_true]
  simp only [hm, Except.bind, agreeAll, hdem, bind]
  rw [counted_upd (adjectiveAgreement_number _ _ _ _) (own_case_group hb hcase hc) (mem_records_iff.mp (agreementClass_mem n)) k1 k2 k3]

/-- C87: in the full mode the text of a counted noun is the form in the slot of the grammar for the number, the case and the
animality, also if the noun fixes its number or its case. -/
theorem C87_noun_slot (U : PyUni) (ext : Externals) (d : Dictionary) (s : Substitution) (base f : WordForm) (name : Str) (n : Int)
    (case c anim : Rec) (he : GoodExternals ext) (hd : GoodDictionary d) (hr : Resolves ext d s.id base)
    (hs : s.dependencies = [.ext name, .props (.new [.record case])]) (hcase : case ∈ cases)
    (hn : constructIntegerFresh n = .ok f) (hname : ext.get? name = some f) (hw : base.word.type = .NOUN)
    (hfree : base.word.properties.isSpecified .INTEGER_FORM = false)
    (hc : some c = if base.word.properties.isSpecified .CASE then base.word.properties.get .CASE else some case)
    (hmode : effective base.word base.properties .DEPENDENCY_MODE = some .DEPENDENCY_MODE_FULL)
    (hanim : effective base.word base.properties .ANIMALITY = some anim)
    (hlow : effective base.word base.properties .WORD_CASE = some .WORD_CASE_LOWER) :
    ∃ (i : Nat) (form : Str), nounSlots[i]? = some (countedSlot n c anim) ∧ base.word.forms[i]? = some form ∧
      s.getText U ext d = .ok form := by
  have hb := resolves_good he hd hr
  have hcg := own_case_group hb hcase hc
  rw [C87_counted_noun U ext d s base f name n case c _ anim he hd hr hs hcase hn hname (.inl hw) hfree hc hmode hanim]
  have hwp := (accepted_iff.mp hb.1).1
  have hprop : Proper (effective base.word base.properties) := by
    have : effective base.word base.properties = (Properties.new [.props base.properties, .props base.word.properties]).get := by
      funext g; exact (effective_eq hwp hb.2.1 g).symm
    rw [this]; exact proper_get (wf_new2 hb.2.1 hwp)
  have hcm : c ∈ cases := by
    have : c ∈ Group.CASE.records := mem_records_iff.mpr hcg
    exact this
  clear hc
  have key : ∀ (ρ : Reading) (nf num c' : Rec), Proper ρ → ρ .WORD_CASE = some .WORD_CASE_LOWER → c' ∈ cases →
      (nf = .NOUN_FORM_NORMAL ∧ (num = .NUMBER_SINGULAR ∨ num = .NUMBER_PLURAL) ∨ nf = .NOUN_FORM_COUNTABLE ∧ num = .NUMBER_PLURAL) →
      ρ .NOUN_FORM = some nf → ρ .NUMBER = some num → ρ .CASE = some c' →
      ∃ (i : Nat) (form : Str), nounSlots[i]? = some [some nf, some num, some c'] ∧ base.word.forms[i]? = some form ∧
        spoken U base.word ρ = .ok form := by
    intro ρ nf num c' hρ hl hc' hx a1 a2 a3
    obtain ⟨i, hi⟩ := exists_nounSlot hc' hx
    obtain ⟨m, hm, -, huniq⟩ := C86_slot .NOUN ρ hρ
    have hst : standIn .NOUN ρ = ρ := by
      unfold standIn
      rw [if_neg, if_neg (by simp)]
      rintro ⟨-, b1, b2⟩
      rw [a1] at b1; rw [a2] at b2
      injection b1 with b1; injection b2 with b2
      subst b1 b2
      simp at hx
    have hlay : nounSlots = (layoutNow .NOUN).map (·.map some) := by decide +kernel
    have hi' : (layoutNow .NOUN)[i]? = some [nf, num, c'] := by
      rw [hlay, List.getElem?_map] at hi
      cases hl : (layoutNow .NOUN)[i]? with
      | none => rw [hl] at hi; cases hi
      | some k =>
        rw [hl] at hi
        simp only [Option.map_some, Option.some.injEq] at hi
        have : k.map some = [nf, num, c'].map some := hi
        rw [List.map_inj_right (by intro x y h; injection h)] at this
        rw [this]
    have hg : nf.group = .NOUN_FORM ∧ num.group = .NUMBER ∧ c'.group = .CASE :=
      ⟨by rcases hx with ⟨rfl, -⟩ | ⟨rfl, -⟩ <;> rfl, by rcases hx with ⟨-, rfl | rfl⟩ | ⟨-, rfl⟩ <;> rfl, cases_group hc'⟩
    have hslot := huniq i _ hi' (by
      rw [hst]
      intro r hr
      simp only [List.mem_cons, List.not_mem_nil, or_false] at hr
      rcases hr with rfl | rfl | rfl
      · rw [hg.1, a1]
      · rw [hg.2.1, a2]
      · rw [hg.2.2, a3])
    have hlen : i < base.word.forms.length := by
      rw [(accepted_iff.mp hb.1).2, hw]
      have := (List.getElem?_eq_some_iff.mp hi').1
      rw [layoutNow_eq, List.length_map] at this
      exact this
    refine ⟨i, base.word.forms[i], hi, List.getElem?_eq_getElem hlen, ?_⟩
    unfold spoken formIn
    rw [if_neg (by rw [hl]; decide), hw, ← hslot]
    simp [List.getD, List.getElem?_eq_getElem hlen]
  have hci : (agreementClass n).group = .INTEGER_FORM := mem_records_iff.mp (agreementClass_mem n)
  have hl : Reading.upd (effective base.word base.properties)
      (nounAgreement .DEPENDENCY_MODE_FULL (agreementClass n) c anim ++ [c, agreementClass n]) .WORD_CASE = some .WORD_CASE_LOWER := by
    rw [upd_apply, List.find?_append]
    have : (nounAgreement .DEPENDENCY_MODE_FULL (agreementClass n) c anim).find? (fun r => decide (r.group = .WORD_CASE)) = none := by
      rw [List.find?_eq_none]
      intro r hr
      have := nounAgreement_groups hr
      simp only [decide_eq_true_eq]
      intro h; rw [h] at this; simp at this
    rw [this]
    simp [hcg, hci, hlow]
  have hP := proper_upds hprop (nounAgreement .DEPENDENCY_MODE_FULL (agreementClass n) c anim ++ [c, agreementClass n])
  have hmem := agreementClass_mem n
  unfold countedSlot
  generalize agreementClass n = i at *
  simp only [Group.records, List.mem_cons, List.not_mem_nil, or_false] at hmem
  rcases hmem with rfl | rfl | rfl | rfl | rfl <;> dsimp only <;> (try split) <;>
  · refine key _ _ _ _ hP hl (by first | exact hcm | decide) (by simp) ?_ ?_ ?_ <;>
    · rw [upd_apply]
      simp only [nounAgreement, reduceCtorEq, if_true, if_false, *]
      first | rfl | (simp [hcg, show Rec.group .NOUN_FORM_NORMAL = .NOUN_FORM from rfl,
        show Rec.group .NOUN_FORM_COUNTABLE = .NOUN_FORM from rfl, show Rec.group .NUMBER_SINGULAR = .NUMBER from rfl,
        show Rec.group .NUMBER_PLURAL = .NUMBER from rfl])

/-- Externals with a plural-only noun, a verb and two numbers. -/
def exCount : Externals :=
  [(str! "w", WordForm.new exPlural), (str! "v", WordForm.new exVerb), (str! "two", integerForm 2), (str! "many", integerForm 22)]

theorem exCount_good : GoodExternals exCount := by
  intro n f hf
  simp only [exCount, Dict.get?] at hf
  split at hf
  · injection hf with hf; subst hf; exact goodForm_new exPlural_accepted (by simp) (by simp)
  · split at hf
    · injection hf with hf; subst hf; exact goodForm_new ⟨exVerb.type, exVerb.forms, exVerb.properties, wf_new (by intro p hp; simp at hp), by decide +kernel⟩ (by simp) (by simp)
    · split at hf
      · injection hf with hf; subst hf; exact integerForm_good 2
      · split at hf
        · injection hf with hf; subst hf; exact integerForm_good 22
        · cases hf

/-- A plural-only noun with the number two takes a singular: `[w|two|им]`. -/
example (U : PyUni) : Substitution.getText U ⟨str! "w", [.ext (str! "two"), .props (.new [.record .CASE_NOMINATIVE])]⟩ exCount [] = .ok (str! "b") ∧
    exPlural.properties.get .NUMBER = some .NUMBER_PLURAL := by
  refine ⟨?_, by decide +kernel⟩
  obtain ⟨i, form, h1, h2, h3⟩ := C87_noun_slot U exCount [] ⟨str! "w", [.ext (str! "two"), .props (.new [.record .CASE_NOMINATIVE])]⟩
    (WordForm.new exPlural) (integerForm 2) (str! "two") 2 .CASE_NOMINATIVE .CASE_NOMINATIVE .ANIMALITY_ANIMATE exCount_good
    (by intro t f h; cases h) (.inl rfl) rfl (by decide) (constructIntegerFresh_eq 2) (by decide +kernel) rfl (by decide +kernel)
    (by decide +kernel) (by decide +kernel) (by decide +kernel) (by decide +kernel)
  rw [h3]
  have : countedSlot 2 .CASE_NOMINATIVE .ANIMALITY_ANIMATE = [some .NOUN_FORM_NORMAL, some .NUMBER_SINGULAR, some .CASE_GENITIVE] := by decide +kernel
  rw [this] at h1
  have hi : i < 18 := by
    have := (List.getElem?_eq_some_iff.mp h1).1
    have e : nounSlots.length = 18 := by decide +kernel
    omega
  have hdec : ∀ i < 18, nounSlots[i]? = some [some .NOUN_FORM_NORMAL, some .NUMBER_SINGULAR, some .CASE_GENITIVE] → i = 1 := by decide +kernel
  have := hdec i hi h1
  subst this
  have h4 : (WordForm.new exPlural).word.forms[1]? = some (str! "b") := by decide +kernel
  rw [h4] at h2
  injection h2 with h2; rw [h2]

/-- A verb meets the hypotheses of `C87_counted_adjective`. -/
example : Resolves exCount [] (str! "v") (WordForm.new exVerb) ∧ exVerb.properties.isSpecified .INTEGER_FORM = false ∧
    effective exVerb (WordForm.new exVerb).properties .DEPENDENCY_MODE = some .DEPENDENCY_MODE_FULL ∧
    effective exVerb (WordForm.new exVerb).properties .GENDER = some .GENDER_MASCULINE ∧
    adjectiveAgreement .DEPENDENCY_MODE_FULL (agreementClass 22) .CASE_ACCUSATIVE .GENDER_MASCULINE = [.NUMBER_SINGULAR, .CASE_GENITIVE] ∧
    adjectiveAgain .DEPENDENCY_MODE_FULL (agreementClass 22) .CASE_ACCUSATIVE .GENDER_MASCULINE = [.NUMBER_PLURAL, .CASE_GENITIVE] :=
  ⟨.inl (by decide +kernel), by decide +kernel, by decide +kernel, by decide +kernel, by decide +kernel, by decide +kernel⟩

/-! ## C88: naming a number again -/

theorem upd_upd (ρ : Reading) (a b : List Rec) : (ρ.upd a).upd b = ρ.upd (b ++ a) := by
  funext g
  simp only [upd_apply, List.find?_append, Option.or_assoc]

theorem upd_congr (ρ : Reading) {a b : List Rec} (h : ∀ g, (a.find? fun r => decide (r.group = g)) = b.find? fun r => decide (r.group = g)) :
    ρ.upd a = ρ.upd b := by
  funext g; rw [upd_apply, upd_apply, h]

/-- Two lists of demands that say the same. -/
def SameDemand (a b : List Rec) : Prop := ∀ g, (a.find? fun r => decide (r.group = g)) = b.find? fun r => decide (r.group = g)

instance (a b : List Rec) : Decidable (SameDemand a b) :=
  decidable_of_iff (∀ g ∈ Group.all, (a.find? fun r => decide (r.group = g)) = b.find? fun r => decide (r.group = g))
    ⟨fun h g => h g (by cases g <;> decide), fun h g _ => h g⟩

/-- The case after some demands. -/
def caseAfter (rs : List Rec) (c : Rec) : Rec := (rs.find? fun r => decide (r.group = .CASE)).getD c

theorem noun_twice : ∀ mode ∈ Group.DEPENDENCY_MODE.records, ∀ i ∈ Group.INTEGER_FORM.records, ∀ c ∈ Group.CASE.records,
    ∀ anim ∈ Group.ANIMALITY.records,
    SameDemand (nounAgreement mode i (caseAfter (nounAgreement mode i c anim) c) anim ++ nounAgreement mode i c anim) (nounAgain mode i c anim) ∧
    SameDemand (nounAgreement mode i (caseAfter (nounAgain mode i c anim) c) anim ++ nounAgain mode i c anim) (nounAgain mode i c anim) := by
  decide +kernel

theorem adjective_twice : ∀ mode ∈ Group.DEPENDENCY_MODE.records, ∀ i ∈ Group.INTEGER_FORM.records, ∀ c ∈ Group.CASE.records,
    ∀ gender ∈ Group.GENDER.records,
    SameDemand (adjectiveAgreement mode i (caseAfter (adjectiveAgreement mode i c gender) c) gender ++ adjectiveAgreement mode i c gender)
      (adjectiveAgain mode i c gender) ∧
    SameDemand (adjectiveAgreement mode i (caseAfter (adjectiveAgain mode i c gender) c) gender ++ adjectiveAgain mode i c gender)
      (adjectiveAgain mode i c gender) := by
  decide +kernel

theorem masters_replicate {ext : Externals} {name : Str} {f : WordForm} (h : ext.get? name = some f) (p : Properties) (k : Nat) :
    masters ext (List.replicate k (.ext name) ++ [.props p]) = .ok (List.replicate k f) := by
  induction k with
  | zero => rfl
  | succ k ih =>
    rw [List.replicate_succ, List.cons_append]
    simp only [masters, h, ih, bind, Except.bind, List.replicate_succ]

theorem initialReading_replicate (ext : Externals) (base : WordForm) (name : Str) (dep : Dep) (k : Nat) :
    initialReading ext base (List.replicate (k + 1) (.ext name) ++ [dep]) = initialReading ext base [.ext name, dep] := by
  have : ∀ g, lastSay ext g (List.replicate (k + 1) (.ext name) ++ [dep]) = lastSay ext g [.ext name, dep] := by
    intro g
    induction k with
    | zero => rfl
    | succ k ih =>
      rw [List.replicate_succ, List.cons_append]
      rw [lastSay, ih]
      simp only [lastSay]
      cases depSays ext dep g with
      | some r => rfl
      | none => cases depSays ext (.ext name) g <;> rfl
  funext g
  simp only [initialReading, this]

/-- Agreement with the same word form again and again, once it has settled. -/
theorem agreeAll_settled {U : PyUni} {w : Word} {f : WordForm} {ρ : Reading} {rs : List Rec} (h : demand U w ρ f = .ok rs) (h' : ρ.upd rs = ρ)
    (k : Nat) : agreeAll U w ρ (List.replicate k f) = .ok ρ := by
  induction k with
  | zero => rfl
  | succ k ih => rw [List.replicate_succ, agreeAll]; simp only [h, bind, Except.bind, h', ih]

/-- C88: a noun or pronoun that depends two or more times on a number: what it takes is what the number demands the first time, except
that the numbers ending in two, three, four, which make a genitive singular of a nominative, make a genitive plural of it when named
again. -/
theorem C88_noun (U : PyUni) (ext : Externals) (d : Dictionary) (s : Substitution) (base f : WordForm) (name : Str) (n : Int) (k : Nat)
    (case c mode anim : Rec) (he : GoodExternals ext) (hd : GoodDictionary d) (hr : Resolves ext d s.id base)
    (hs : s.dependencies = List.replicate (k + 2) (.ext name) ++ [.props (.new [.record case])]) (hcase : case ∈ cases)
    (hn : constructIntegerFresh n = .ok f) (hname : ext.get? name = some f)
    (hw : base.word.type = .NOUN ∨ base.word.type = .PRONOUN)
    (hfree : base.word.properties.isSpecified .INTEGER_FORM = false)
    (hc : some c = if base.word.properties.isSpecified .CASE then base.word.properties.get .CASE else some case)
    (hmode : effective base.word base.properties .DEPENDENCY_MODE = some mode)
    (hanim : effective base.word base.properties .ANIMALITY = some anim) :
    s.getText U ext d = spoken U base.word (Reading.upd (effective base.word base.properties)
      (nounAgain mode (agreementClass n) c anim ++ [c, agreementClass n])) := by
  rw [constructIntegerFresh_eq] at hn
  injection hn with hn; subst hn
  have hsg : GoodSubstitution s := by
    intro p hp; rw [hs] at hp; simp at hp; subst hp; exact wf_new (by intro p hp; simp at hp)
  have hb := resolves_good he hd hr
  have hwp := (accepted_iff.mp hb.1).1
  have hcg := own_case_group hb hcase hc
  obtain ⟨k1, k2, k3⟩ := counted_initial hb hname hcase hfree hc
  rw [getText_reading he hd hsg hr, hs, masters_replicate hname, initialReading_replicate]
  have hi : (integerForm n).word.type = .INTEGER := rfl
  have hgrp : ∀ g, g ≠ .WORD_TYPE → ∀ r, effective base.word base.properties g = some r → r ∈ g.records := by
    intro g hg r hr
    rw [← effective_eq hwp hb.2.1] at hr
    obtain ⟨r', h1, h2⟩ := get_mem_records (wf_new2 hb.2.1 hwp) hg
    rw [hr] at h2; injection h2 with h2; subst h2; exact h1
  obtain ⟨t1, t2⟩ := noun_twice mode (hgrp _ (by decide) _ hmode) _ (agreementClass_mem n) c (mem_records_iff.mpr hcg) anim
    (hgrp _ (by decide) _ hanim)
  have k4 := k3 .DEPENDENCY_MODE (by decide)
  have k5 := k3 .ANIMALITY (by decide)
  rw [hmode] at k4; rw [hanim] at k5
  have hfinal := counted_upd (rs := nounAgain mode (agreementClass n) c anim) (ρ' := effective base.word base.properties) (by
      unfold nounAgain; split
      · rfl
      · exact nounAgreement_number _ _ _ _)
    hcg (mem_records_iff.mp (agreementClass_mem n)) k1 k2 k3
  rw [← hfinal]
  generalize initialReading ext base [.ext name, .props (.new [.record case])] = ρ at *
  have hstep : ∀ rs : List Rec, (∀ r ∈ rs, r.group = .NOUN_FORM ∨ r.group = .NUMBER ∨ r.group = .CASE) →
      demand U base.word (ρ.upd rs) (integerForm n) = .ok (nounAgreement mode (agreementClass n) (caseAfter rs c) anim) := by
    intro rs hrs
    have hother : ∀ g, g ≠ .NOUN_FORM → g ≠ .NUMBER → g ≠ .CASE → ρ.upd rs g = ρ g := by
      intro g g1 g2 g3
      rw [upd_apply, List.find?_eq_none.mpr]
      · rfl
      · intro r hr
        simp only [decide_eq_true_eq]
        rintro rfl
        rcases hrs r hr with h | h | h
        · exact g1 h
        · exact g2 h
        · exact g3 h
    have hca : ρ.upd rs .CASE = some (caseAfter rs c) := by
      rw [upd_apply, k2]
      unfold caseAfter
      cases rs.find? fun r => decide (r.group = .CASE) <;> rfl
    rcases hw with hw | hw <;>
    · simp only [demand, hw, hi, if_true, hca, hother .INTEGER_FORM (by decide) (by decide) (by decide), k1,
        hother .DEPENDENCY_MODE (by decide) (by decide) (by decide), k4, hother .ANIMALITY (by decide) (by decide) (by decide), k5]
  have hagain : ∀ r ∈ nounAgain mode (agreementClass n) c anim, r.group = .NOUN_FORM ∨ r.group = .NUMBER ∨ r.group = .CASE := by
    intro r hr
    unfold nounAgain at hr
    split at hr
    · simp only [List.mem_cons, List.not_mem_nil, or_false] at hr
      rcases hr with rfl | rfl | rfl <;> decide
    · have := nounAgreement_groups hr; simpa using this
  have h0 := hstep [] (by simp)
  rw [show caseAfter [] c = c from rfl, upd_nil] at h0
  have h1 := hstep (nounAgreement mode (agreementClass n) c anim) (fun r hr => by have := nounAgreement_groups hr; simpa using this)
  have h2 := hstep _ hagain
  simp only [Except.bind, List.replicate_succ, agreeAll, bind, h0, h1]
  rw [upd_upd, upd_congr ρ t1]
  rw [agreeAll_settled h2 (by rw [upd_upd, upd_congr ρ t2])]

/-- C88: an adjective, verb or participle that depends two or more times on a number. -/
theorem C88_adjective (U : PyUni) (ext : Externals) (d : Dictionary) (s : Substitution) (base f : WordForm) (name : Str) (n : Int) (k : Nat)
    (case c mode gender : Rec) (he : GoodExternals ext) (hd : GoodDictionary d) (hr : Resolves ext d s.id base)
    (hs : s.dependencies = List.replicate (k + 2) (.ext name) ++ [.props (.new [.record case])]) (hcase : case ∈ cases)
    (hn : constructIntegerFresh n = .ok f) (hname : ext.get? name = some f)
    (hw : base.word.type = .ADJECTIVE ∨ base.word.type = .VERB ∨ base.word.type = .PARTICIPLE)
    (hfree : base.word.properties.isSpecified .INTEGER_FORM = false)
    (hc : some c = if base.word.properties.isSpecified .CASE then base.word.properties.get .CASE else some case)
    (hmode : effective base.word base.properties .DEPENDENCY_MODE = some mode)
    (hgender : effective base.word base.properties .GENDER = some gender) :
    s.getText U ext d = spoken U base.word (Reading.upd (effective base.word base.properties)
      (adjectiveAgain mode (agreementClass n) c gender ++ [c, agreementClass n])) := by
  rw [constructIntegerFresh_eq] at hn
  injection hn with hn; subst hn
  have hsg : GoodSubstitution s := by
    intro p hp; rw [hs] at hp; simp at hp; subst hp; exact wf_new (by intro p hp; simp at hp)
  have hb := resolves_good he hd hr
  have hwp := (accepted_iff.mp hb.1).1
  have hcg := own_case_group hb hcase hc
  obtain ⟨k1, k2, k3⟩ := counted_initial hb hname hcase hfree hc
  rw [getText_reading he hd hsg hr, hs, masters_replicate hname, initialReading_replicate]
  have hi : (integerForm n).word.type = .INTEGER := rfl
  have hgrp : ∀ g, g ≠ .WORD_TYPE → ∀ r, effective base.word base.properties g = some r → r ∈ g.records := by
    intro g hg r hr
    rw [← effective_eq hwp hb.2.1] at hr
    obtain ⟨r', h1, h2⟩ := get_mem_records (wf_new2 hb.2.1 hwp) hg
    rw [hr] at h2; injection h2 with h2; subst h2; exact h1
  obtain ⟨t1, t2⟩ := adjective_twice mode (hgrp _ (by decide) _ hmode) _ (agreementClass_mem n) c (mem_records_iff.mpr hcg) gender
    (hgrp _ (by decide) _ hgender)
  have k4 := k3 .DEPENDENCY_MODE (by decide)
  have k5 := k3 .GENDER (by decide)
  rw [hmode] at k4; rw [hgender] at k5
  have hfinal := counted_upd (rs := adjectiveAgain mode (agreementClass n) c gender) (ρ' := effective base.word base.properties) (by
      unfold adjectiveAgain; split
      · rfl
      · exact adjectiveAgreement_number _ _ _ _)
    hcg (mem_records_iff.mp (agreementClass_mem n)) k1 k2 k3
  rw [← hfinal]
  generalize initialReading ext base [.ext name, .props (.new [.record case])] = ρ at *
  have hstep : ∀ rs : List Rec, (∀ r ∈ rs, r.group = .NUMBER ∨ r.group = .CASE) →
      demand U base.word (ρ.upd rs) (integerForm n) = .ok (adjectiveAgreement mode (agreementClass n) (caseAfter rs c) gender) := by
    intro rs hrs
    have hother : ∀ g, g ≠ .NUMBER → g ≠ .CASE → ρ.upd rs g = ρ g := by
      intro g g2 g3
      rw [upd_apply, List.find?_eq_none.mpr]
      · rfl
      · intro r hr
        simp only [decide_eq_true_eq]
        rintro rfl
        rcases hrs r hr with h | h
        · exact g2 h
        · exact g3 h
    have hca : ρ.upd rs .CASE = some (caseAfter rs c) := by
      rw [upd_apply, k2]
      unfold caseAfter
      cases rs.find? fun r => decide (r.group = .CASE) <;> rfl
    rcases hw with hw | hw | hw <;>
    · simp only [demand, hw, hi, if_true, hca, hother .INTEGER_FORM (by decide) (by decide), k1,
        hother .DEPENDENCY_MODE (by decide) (by decide), k4, hother .GENDER (by decide) (by decide), k5]
  have hagain : ∀ r ∈ adjectiveAgain mode (agreementClass n) c gender, r.group = .NUMBER ∨ r.group = .CASE := by
    intro r hr
    unfold adjectiveAgain at hr
    split at hr
    · simp only [List.mem_cons, List.not_mem_nil, or_false] at hr
      rcases hr with rfl | rfl <;> decide
    · have := adjectiveAgreement_groups hr; simpa using this
  have h0 := hstep [] (by simp)
  rw [show caseAfter [] c = c from rfl, upd_nil] at h0
  have h1 := hstep (adjectiveAgreement mode (agreementClass n) c gender) (fun r hr => by have := adjectiveAgreement_groups hr; simpa using this)
  have h2 := hstep _ hagain
  simp only [Except.bind, List.replicate_succ, agreeAll, bind, h0, h1]
  rw [upd_upd, upd_congr ρ t1]
  rw [agreeAll_settled h2 (by rw [upd_upd, upd_congr ρ t2])]

/-- C88 applies to `[w|two|two|им]` and to a verb. -/
example : exCount.get? (str! "two") = some (integerForm 2) ∧ constructIntegerFresh 2 = .ok (integerForm 2) ∧
    Resolves exCount [] (str! "w") (WordForm.new exPlural) ∧ exPlural.properties.isSpecified .INTEGER_FORM = false ∧
    effective exPlural (WordForm.new exPlural).properties .DEPENDENCY_MODE = some .DEPENDENCY_MODE_FULL ∧
    effective exPlural (WordForm.new exPlural).properties .ANIMALITY = some .ANIMALITY_ANIMATE ∧
    Resolves exCount [] (str! "v") (WordForm.new exVerb) ∧ exVerb.properties.isSpecified .INTEGER_FORM = false ∧
    effective exVerb (WordForm.new exVerb).properties .GENDER = some .GENDER_MASCULINE :=
  ⟨by decide +kernel, by decide +kernel, .inl (by decide +kernel), by decide +kernel, by decide +kernel, by decide +kernel, .inl (by decide +kernel), by decide +kernel, by decide +kernel⟩

/-! ## C89: which texts can be used in a template -/

/-- C89: `[text]` can be filled exactly if the dictionary knows the lower case of the text without the blanks around it. -/
theorem C89_usable (U : PyUni) (ws : List Word) (hws : ∀ w ∈ ws, Accepted w) (names : List Str) (head : Str) (c : Char) (cs : Str)
    (hbar : '|' ∉ head) (hbr : ']' ∉ head) (hpc : '%' ∉ head) (hs : Stripped U head (c :: cs)) (hne : U.lower (c :: cs) ≠ []) :
    ∃ t, Template.empty.parse U (bracketed head []) names = .ok t ∧
      ∀ ext : Externals, ext.get? (U.lower (c :: cs)) = none →
        (((history U ws).hasWord (U.lower (c :: cs)) = true → ∃ text, t.substitute U ext (history U ws) = .ok text) ∧
         ((history U ws).hasWord (U.lower (c :: cs)) = false →
            t.substitute U ext (history U ws) = .error (.NoWordsFoundError (U.lower (c :: cs))))) := by
  have hv : IsVariable (bracketed head []) := ⟨head, by simp [bracketed], by
    rintro rfl; obtain ⟨a, b, e, _⟩ := hs; simp at e, hbr⟩
  have hp : Pieces (bracketed head []) [] [(bracketed head [], [])] := by
    have := Pieces.var [] (bracketed head []) [] [] [] isLiteral_nil hv (.last [] (isFinal_of_isLiteral isLiteral_nil))
    simpa using this
  have hd : doubled (bracketed head []) = bracketed head [] := doubled_of_not_mem (by simp [bracketed, hpc])
  have hparse := C46_parse U names head [] [] c cs hbar (by simp) hs .nil
  rw [List.nil_append] at hparse
  refine ⟨_, parse_ok_of (subs := [_]) hp (.cons (by rw [hd]; exact hparse) .nil), ?_⟩
  intro ext hx
  generalize hdeps : (if U.isUpper c then [Dep.props (.new [.record .WORD_CASE_UPPER])] else []) = deps at *
  have hcases : deps = [] ∨ deps = [Dep.props (.new [.record .WORD_CASE_UPPER])] := by
    rw [← hdeps]; split <;> simp
  rw [show (Template.empty.substitutions ++ [(⟨U.lower (c :: cs), deps⟩ : Substitution)]) = [⟨U.lower (c :: cs), deps⟩] from rfl]
  rw [substitute_parsed (ps := [(bracketed head [], [])]) rfl]
  have hsg : GoodSubstitution ⟨U.lower (c :: cs), deps⟩ := by
    intro p hp
    rcases hcases with rfl | rfl
    · simp at hp
    · simp at hp; subst hp; exact wf_new (by intro p hp; simp at hp)
  simp only [List.mapM_cons, List.mapM_nil]
  generalize U.lower (c :: cs) = low at *
  refine ⟨?_, ?_⟩
  · intro hk
    obtain ⟨f, hf⟩ := (C26_known_texts U ws hws low).1.mp hk
    suffices h : ∃ text, Substitution.getText U ⟨low, deps⟩ ext (history U ws) = .ok text by
      obtain ⟨text, h⟩ := h
      simp only [h, bind, Except.bind, pure, Except.pure]
      exact ⟨_, rfl⟩
    obtain ⟨h1, _⟩ := C25_lookup_sound U ws hws _ f hf
    obtain ⟨h2, h3, h4⟩ := registered_form hws hf
    have hgood := goodDictionary_history U ws hws _ f hf
    rcases hcases with rfl | rfl
    · exact ⟨low, C73_bare_word U ws hws low ext hk hx⟩
    · cases hcase : f.word.properties.isSpecified .WORD_CASE with
      | false =>
        cases low with
        | nil => exact absurd rfl hne
        | cons c' cs' => exact ⟨_, C73_capital U ws hws c' cs' f ext hf hcase hx⟩
      | true =>
        refine ⟨low, ?_⟩
        rw [getText_eq (base := f) (.inr ⟨hx, hf⟩) (by simp)]
        show WordForm.getForm U f.word (collected [] f [.props (.new [.record .WORD_CASE_UPPER])]) = _
        rw [← h1]
        unfold WordForm.form
        apply getForm_congr
        intro g
        apply get_congr
        rw [collected_get? goodExternals_nil hgood hsg, h2]
        cases e : f.word.properties.data.get? g with
        | some r => simp [h3 g r e]
        | none =>
          have : g ≠ .WORD_CASE := by
            rintro rfl
            obtain ⟨r, hr⟩ := isSpecified_iff.mp hcase
            rw [hr] at e; cases e
          simp [depProps, Properties.new, Properties.updateOne, Dict.set, Dict.get?, Rec.group, this.symm]
  · intro hk
    have hno : ¬ ∃ f, Resolves ext (history U ws) low f := by
      rintro ⟨f, h | ⟨-, h⟩⟩
      · rw [hx] at h; cases h
      · rw [(C26_known_texts U ws hws low).1.mpr ⟨f, h⟩] at hk; cases hk
    have herr : Substitution.getText U ⟨low, deps⟩ ext (history U ws) = .error (.NoWordsFoundError low) := by
      unfold Substitution.getText Substitution.baseForm
      have hkk : (history U ws).getWord low = .error (.NoWordsFoundError low) := by
        rcases getWord_history (U := U) hws low with ⟨_, h, _⟩ | ⟨f, h, _⟩
        · exact h
        · exact absurd ⟨f, .inr ⟨hx, h⟩⟩ hno
      simp only [hx, hkk]; rfl
    simp only [herr, bind, Except.bind]

/-- Both cases of C89 occur: the lower case of `Ух` is known if the dictionary has the word `ух`, not if it has the word `Ух`. -/
example : Stripped exPy (str! "Ух") (str! "Ух") ∧ (history exPy [exText (str! "ух")]).hasWord (exPy.lower (str! "Ух")) = true ∧
    (history exPy [exText (str! "Ух")]).hasWord (exPy.lower (str! "Ух")) = false ∧ exPy.lower (str! "Ух") ≠ [] :=
  ⟨⟨[], [], rfl, by simp, by simp, by decide, by decide⟩, by decide +kernel, by decide +kernel, by decide +kernel⟩

/-! ## C90: hashes of word forms -/

/-- C90: equal word forms that also agree in the properties that select the text have equal hashes. -/
theorem C90_hash_of_eq (pairHash : Int → Int → Int) (typeHash : WordType → Int) (f g : WordForm) (hf : GoodForm f) (hg : GoodForm g)
    (h : f.eq g = true) (h' : f.formProperties.eq g.formProperties = true) : f.hash pairHash typeHash = g.hash pairHash typeHash := by
  simp only [WordForm.eq, Bool.and_eq_true] at h
  unfold WordForm.hash
  rw [C12_hash_of_eq _ _ hf.2.2 hg.2.2 h', C16_hash_of_eq pairHash typeHash _ _ hf.1 hg.1 h.1]

/-- C90: equal word forms have equal hashes exactly if the hashes of the properties that select the text are equal, whenever Python's
hash of a pair tells its second components apart. -/
theorem C90_hash_iff (pairHash : Int → Int → Int) (typeHash : WordType → Int) (hinj : ∀ a b c, pairHash a b = pairHash a c → b = c)
    (f g : WordForm) (hf : GoodForm f) (hg : GoodForm g) (h : f.eq g = true) :
    f.hash pairHash typeHash = g.hash pairHash typeHash ↔ f.formProperties.hash = g.formProperties.hash := by
  simp only [WordForm.eq, Bool.and_eq_true] at h
  unfold WordForm.hash
  rw [C16_hash_of_eq pairHash typeHash _ _ hf.1 hg.1 h.1]
  constructor
  · intro e; exact Int.ofNat.inj (hinj _ _ _ e)
  · intro e; rw [e]

/-- Equal word forms, with equal and with different properties that select the text. -/
example : GoodForm (WordForm.new exNoun (some (.new [])) (some (.new [.record .CASE_DATIVE]))) ∧
    (WordForm.new exNoun (some (.new [])) (some (.new [.record .CASE_DATIVE]))).eq (WordForm.new exNoun (some (.new [])) (some (.new []))) = true ∧
    (WordForm.new exNoun (some (.new [])) (some (.new [.record .CASE_DATIVE]))).formProperties.eq
      (WordForm.new exNoun none (some (.new [.record .CASE_GENITIVE, .record .CASE_DATIVE]))).formProperties = true := by
  refine ⟨goodForm_new exNoun_accepted ?_ ?_, by decide +kernel, by decide +kernel⟩
  · rintro _ ⟨⟩; exact wf_empty
  · rintro _ ⟨⟩; exact wf_new (by intro p hp; simp at hp)

/-! ## C104: blanks inside a list of properties -/

/-- No property id has a blank. -/
theorem no_blank_in_ids (r : Rec) : ' ' ∉ r.verboseId := by cases r <;> decide

/-- C104: a variable with a list of properties in which a blank stands anywhere but at the two ends is always refused: if the list,
stripped and in lower case, still has a blank and is no name of an external, `parse` raises. -/
theorem C104_inner_blank (U : PyUni) (externals : List Str) (head : Str) (slugs : List Str) (slug name : Str)
    (hv : IsVariable (bracketed head slugs)) (h1 : '|' ∉ head) (h2 : ∀ s ∈ slugs, '|' ∉ s) (hs : slug ∈ slugs)
    (hn : Stripped U (U.lower slug) name) (hne : name ∉ externals) (hb : ' ' ∈ name) :
    (head = [] ∧ Substitution.parse U (bracketed head slugs) externals = .error (.WrongDependencyFormatError (bracketed head slugs))) ∨
    (head ≠ [] ∧ ∃ bad, Substitution.parse U (bracketed head slugs) externals = .error (.UnknownVerboseIdError bad)) := by
  obtain ⟨head', slugs', e, h1', h2', h⟩ := C46_exhaustive U externals _ hv
  obtain ⟨rfl, rfl⟩ := C46_unique head head' slugs slugs' h1 h2 h1' h2' e
  rcases h with rfl | ⟨hh, ⟨pre, slug', post, deps, bad, rfl, h3, h4⟩ | ⟨deps, h3, _⟩⟩
  · exact .inl ⟨rfl, C46_empty_id U externals slugs h2⟩
  · exact .inr ⟨hh, _, C46_unknown_id U externals head slug' bad pre post deps h1 h2 hh h3 h4⟩
  · exfalso
    obtain ⟨dep, -, hr⟩ : ∃ dep, dep ∈ deps ∧ Reads U externals slug dep := by
      clear e hv h2 h2'
      induction h3 with
      | nil => simp at hs
      | cons hab _ ih =>
        rcases List.mem_cons.mp hs with rfl | hs
        · exact ⟨_, by simp, hab⟩
        · obtain ⟨dep, hd, hr⟩ := ih hs; exact ⟨dep, by simp [hd], hr⟩
    obtain ⟨name', hn', hr⟩ := hr
    rw [stripped_unique hn' hn] at hr
    rcases hr with ⟨hin, _⟩ | ⟨_, ids, rs, hi, _, _, hf, _⟩
    · exact hne hin
    · rw [hi] at hb
      obtain ⟨id, hid, hbid⟩ : ∃ id ∈ ids, ' ' ∈ id := by
        clear hi hf
        induction ids with
        | nil => simp [List.intercalate] at hb
        | cons x xs ih =>
          rw [intercalate_cons, List.mem_append] at hb
          rcases hb with hb | hb
          · exact ⟨x, by simp, hb⟩
          · obtain ⟨y, hy, hby⟩ := List.mem_flatMap.mp hb
            refine ⟨y, by simp [hy], ?_⟩
            simpa using hby
      have : id ∈ rs.map Rec.verboseId := by
        rw [← hf, List.mem_filter]; refine ⟨hid, ?_⟩
        simp only [ne_eq, decide_eq_true_eq]
        rintro rfl; simp at hbid
      obtain ⟨r, _, rfl⟩ := List.mem_map.mp this
      exact no_blank_in_ids r hbid

/-- It applies to `[a| дт ,мн]`. -/
example : IsVariable (bracketed (str! "a") [str! " дт ,мн"]) ∧ Stripped exPy (exPy.lower (str! " дт ,мн")) (str! "дт ,мн") ∧
    ' ' ∈ str! "дт ,мн" :=
  ⟨⟨str! "a| дт ,мн", by decide, by decide, by decide⟩, ⟨str! " ", [], by decide, by decide, by decide, by decide, by decide⟩, by decide⟩

end Utg
