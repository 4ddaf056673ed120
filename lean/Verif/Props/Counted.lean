import Verif.Props.Substitutions
/-! # C41, C66, C67: agreement inside substitutions -/

namespace Utg
open Py Spec

theorem transform_not_number {U : PyUni} {w : Word} {fs : List WordForm} {p : Properties} (hw : w.type ≠ .PREPOSITION)
    (h : ∀ f ∈ fs, f.word.type ≠ .INTEGER) : fs.foldlM (fun ps external => transform U w ps external) p = .ok p := by
  induction fs generalizing p with
  | nil => rfl
  | cons f fs ih =>
    rw [List.foldlM_cons, C40_other_pairs U w p f hw (.inl (h f (by simp)))]
    exact ih (fun x hx => h x (List.mem_cons_of_mem _ hx))

theorem getText_sole {U : PyUni} {ext : Externals} {d : Dictionary} {s : Substitution} {base f : WordForm}
    (hr : Resolves ext d s.id base) (hw : base.word.type ≠ .PREPOSITION) (hs : SoleNumber ext s.dependencies f) :
    s.getText U ext d = (transform U base.word (collected ext base s.dependencies) f).bind (WordForm.getForm U base.word) := by
  obtain ⟨_, pre, n, post, h1, h2, h3⟩ := hs
  rw [getText_eq hr]
  · have hpre : ∀ l : List Dep, (∀ m, Dep.ext m ∈ l → Dep.ext m ∈ pre ++ post) →
        ∀ x ∈ l.filterMap (depForm ext), x.word.type ≠ .INTEGER := by
      intro l hl x hx
      rw [List.mem_filterMap] at hx
      obtain ⟨dep, hd1, hd2⟩ := hx
      cases dep with
      | props p => simp [depForm] at hd2
      | ext m =>
        obtain ⟨f', hf1, hf2⟩ := h3 m (hl m hd1)
        simp only [depForm] at hd2
        rw [hf1] at hd2; injection hd2 with hd2; subst hd2; exact hf2
    have h4 : (s.dependencies.filterMap (depForm ext)) = pre.filterMap (depForm ext) ++ f :: post.filterMap (depForm ext) := by
      rw [h1, List.filterMap_append, List.filterMap_cons_some (show depForm ext (.ext n) = some f from h2)]
    rw [h4, List.foldlM_append, transform_not_number hw (hpre pre (by simp +contextual))]
    show ((List.foldlM _ _ (f :: _)) : Except PyErr Properties).bind _ = _
    rw [List.foldlM_cons]
    cases transform U base.word (collected ext base s.dependencies) f with
    | error e => rfl
    | ok q =>
      show ((List.foldlM _ q _) : Except PyErr Properties).bind _ = _
      rw [transform_not_number hw (hpre post (by simp +contextual))]
  · intro m hm
    rw [h1] at hm
    simp only [List.mem_append, List.mem_cons] at hm h3
    rcases hm with hm | hm | hm
    · obtain ⟨f', h, _⟩ := h3 m (.inl hm); exact ⟨f', h⟩
    · injection hm with hm; subst hm; exact ⟨f, h2⟩
    · obtain ⟨f', h, _⟩ := h3 m (.inr hm); exact ⟨f', h⟩

/-- C66: a noun or pronoun with one number among its dependencies is spelled with the collected properties, changed as the
number demands. -/
theorem C66_counted_noun (U : PyUni) (ext : Externals) (d : Dictionary) (s : Substitution) (base f : WordForm)
    (he : GoodExternals ext) (hd : GoodDictionary d) (hs : GoodSubstitution s) (hr : Resolves ext d s.id base)
    (hw : base.word.type = .NOUN ∨ base.word.type = .PRONOUN) (hf : SoleNumber ext s.dependencies f) :
    ∃ q q' mode i case anim, WFProps q ∧ Collects ext base s.dependencies q ∧
      q.get .DEPENDENCY_MODE = some mode ∧ q.get .INTEGER_FORM = some i ∧ q.get .CASE = some case ∧ q.get .ANIMALITY = some anim ∧
      WFProps q' ∧ Sets q q' (nounAgreement mode i case anim) ∧ s.getText U ext d = WordForm.getForm U base.word q' := by
  have hb := resolves_good he hd hr
  have hq := collected_wf he hb hs
  obtain ⟨mode, i, case, anim, q', h1, h2, h3, h4, h5, h6⟩ := C38_never_fails U base.word _ f hq hw hf.1
  refine ⟨_, q', mode, i, case, anim, hq, collects he hb hs, h1, h2, h3, h4, transform_wf hq h5, h6, ?_⟩
  rw [getText_sole hr (by rcases hw with h | h <;> rw [h] <;> decide) hf, h5]; rfl

/-- C66: an adjective, verb or participle with one number among its dependencies is spelled with the collected properties,
changed as the number demands. -/
theorem C66_counted_adjective (U : PyUni) (ext : Externals) (d : Dictionary) (s : Substitution) (base f : WordForm)
    (he : GoodExternals ext) (hd : GoodDictionary d) (hs : GoodSubstitution s) (hr : Resolves ext d s.id base)
    (hw : base.word.type = .ADJECTIVE ∨ base.word.type = .VERB ∨ base.word.type = .PARTICIPLE) (hf : SoleNumber ext s.dependencies f) :
    ∃ q q' mode i case gender, WFProps q ∧ Collects ext base s.dependencies q ∧
      q.get .DEPENDENCY_MODE = some mode ∧ q.get .INTEGER_FORM = some i ∧ q.get .CASE = some case ∧ q.get .GENDER = some gender ∧
      WFProps q' ∧ Sets q q' (adjectiveAgreement mode i case gender) ∧ s.getText U ext d = WordForm.getForm U base.word q' := by
  have hb := resolves_good he hd hr
  have hq := collected_wf he hb hs
  obtain ⟨mode, i, case, anim, q', h1, h2, h3, h4, h5, h6⟩ := C39_never_fails U base.word _ f hq hw hf.1
  refine ⟨_, q', mode, i, case, anim, hq, collects he hb hs, h1, h2, h3, h4, transform_wf hq h5, h6, ?_⟩
  rw [getText_sole hr (by rcases hw with h | h | h <;> rw [h] <;> decide) hf, h5]; rfl

/-- C66: a preposition with one external dependency is spelled with the collected properties, its form chosen by the texts. -/
theorem C66_preposition (U : PyUni) (ext : Externals) (d : Dictionary) (s : Substitution) (base f : WordForm) (prep next : Str)
    (he : GoodExternals ext) (hd : GoodDictionary d) (hs : GoodSubstitution s) (hr : Resolves ext d s.id base)
    (hw : base.word.type = .PREPOSITION) (hf : SoleExternal ext s.dependencies f)
    (hn : base.word.normalForm = .ok prep) (hprep : prep ≠ []) (hnext : f.form U = .ok next) (hne : next ≠ []) :
    ∃ q q' form, WFProps q ∧ Collects ext base s.dependencies q ∧ prepositionAgreement prep next f.word form ∧
      WFProps q' ∧ Sets q q' form.toList ∧ s.getText U ext d = WordForm.getForm U base.word q' := by
  have hb := resolves_good he hd hr
  have hq := collected_wf he hb hs
  obtain ⟨pre, n, post, h1, h2, h3⟩ := hf
  obtain ⟨form, q', h4, h5, h6⟩ := C42_preposition U base.word _ f prep next hq hw (he n f h2).1 hn hprep hnext hne
  refine ⟨_, q', form, hq, collects he hb hs, h5, transform_wf hq h4, h6, ?_⟩
  rw [getText_eq hr]
  · have hnil : ∀ l : List Dep, (∀ m, Dep.ext m ∈ l → Dep.ext m ∈ pre ++ post) → l.filterMap (depForm ext) = [] := by
      intro l hl
      rw [List.filterMap_eq_nil_iff]
      intro dep hdep
      cases dep with
      | props p => rfl
      | ext m => exact absurd (hl m hdep) (h3 m)
    have h7 : (s.dependencies.filterMap (depForm ext)) = [f] := by
      rw [h1, List.filterMap_append, List.filterMap_cons_some (show depForm ext (.ext n) = some f from h2),
        hnil pre (by simp +contextual), hnil post (by simp +contextual)]; rfl
    rw [h7, List.foldlM_cons, h4]; rfl
  · intro m hm
    rw [h1] at hm
    simp only [List.mem_append, List.mem_cons] at hm h3
    rcases hm with hm | hm | hm
    · exact absurd (.inl hm) (h3 m)
    · injection hm with hm; subst hm; exact ⟨f, h2⟩
    · exact absurd (.inr hm) (h3 m)

/-- The spelling of properties that fall in a slot of a noun, for a word that fixes none of the slot properties. -/
theorem noun_slot {w : Word} {q : Properties} {nf num case : Rec} (hw : Accepted w) (hq : WFProps q) (ht : w.type = .NOUN)
    (hfree : ∀ g ∈ [Group.NOUN_FORM, .NUMBER, .CASE], w.properties.isSpecified g = false)
    (h1 : q.get .NOUN_FORM = some nf) (h2 : q.get .NUMBER = some num) (h3 : q.get .CASE = some case)
    {i : Nat} (hi : nounSlots[i]? = some [some nf, some num, some case]) :
    ∃ form, w.forms[i]? = some form ∧ w.formRaw q = .ok form := by
  have hwp := (accepted_iff.mp hw).1
  have heff : ∀ g ∈ [Group.NOUN_FORM, .NUMBER, .CASE], effective w q g = q.get g := by
    intro g hg
    rw [← effective_eq hwp hq, new2_get hq hwp, hfree g hg]; rfl
  obtain ⟨f, hf1, hf2⟩ := C02_form_in_slot w q (nounSlots.map some) i [some nf, some num, some case] hw hq
    (by rw [ht]; exact C02_documented_slots.1) (by rw [List.getElem?_map, hi]; rfl) (by
      intro j g r hg hr
      rw [ht] at hg
      have hg' : [Group.NOUN_FORM, .NUMBER, .CASE][j]? = some g := hg
      match j with
      | 0 => simp at hg' hr; rw [← hg', ← hr, heff _ (by simp)]; exact h1
      | 1 => simp at hg' hr; rw [← hg', ← hr, heff _ (by simp)]; exact h2
      | 2 => simp at hg' hr; rw [← hg', ← hr, heff _ (by simp)]; exact h3
      | j + 3 => simp at hr)
  refine ⟨f, hf1, ?_⟩
  rw [← hf2]
  unfold Word.form
  apply formRaw_congr
  intro g hg
  rw [ht] at hg
  have hg' : g ∈ [Group.NOUN_FORM, .NUMBER, .CASE] := hg
  rw [new2_get hq hwp, hfree g hg']; rfl

theorem cases_group {c : Rec} (h : c ∈ cases) : c.group = .CASE := by
  simp only [cases, List.mem_cons, List.not_mem_nil, or_false] at h
  rcases h with rfl | rfl | rfl | rfl | rfl | rfl <;> rfl

theorem agreementClass_mem (n : Int) : agreementClass n ∈ Group.INTEGER_FORM.records := by
  unfold agreementClass
  split
  · decide
  · split
    · decide
    · split
      · decide
      · split <;> decide

/-- The dependencies of `[noun|n|case]`. -/
theorem counted_collects {ext : Externals} {base : WordForm} {name : Str} {n : Int} {case : Rec} {q : Properties}
    (hname : ext.get? name = some (integerForm n)) (hcase : case ∈ cases)
    (hq : Collects ext base [.ext name, .props (.new [.record case])] q)
    (hfree : ∀ g ∈ [Group.NOUN_FORM, .NUMBER, .CASE, .INTEGER_FORM], base.word.properties.isSpecified g = false) :
    q.get .INTEGER_FORM = some (agreementClass n) ∧ q.get .CASE = some case ∧
    ∀ g, g ∉ [Group.CASE, .INTEGER_FORM, .NUMBER] →
      q.get g = if base.word.properties.isSpecified g then base.word.properties.get g else base.properties.get g := by
  obtain ⟨f, hf, hf1, hf2, hf3, hf4⟩ := C35_agreement_class n
  rw [constructIntegerFresh_eq] at hf
  injection hf with hf; subst hf
  have hsay : ∀ g, depSays ext (.ext name) g = if (integerForm n).properties.isSpecified g then (integerForm n).properties.get g else none := by
    intro g; simp only [depSays, hname]
  have hsay2 : ∀ g, depSays ext (.props (.new [.record case])) g = if g = .CASE then some case else none := by
    intro g
    rw [depSays_eq]
    simp only [depProps]
    rw [new_get? (by intro p hp; simp at hp)]
    simp only [List.reverse_cons, List.reverse_nil, List.nil_append, List.findSome?_cons, List.findSome?_nil, argGet, cases_group hcase]
    by_cases hg : g = .CASE
    · subst hg; simp
    · simp [hg, Ne.symm hg]
  refine ⟨?_, ?_, ?_⟩
  · refine hq.2.1 .INTEGER_FORM [] (.ext name) [.props (.new [.record case])] _ (hfree _ (by simp)) rfl ?_ ?_
    · rw [hsay, if_pos ((hf4 _).mpr (.inl rfl)), hf2]
    · intro dep hdep; simp at hdep; subst hdep; rw [hsay2]; rfl
  · refine hq.2.1 .CASE [.ext name] (.props (.new [.record case])) [] _ (hfree _ (by simp)) rfl ?_ (by simp)
    rw [hsay2]; rfl
  · intro g hg
    simp only [List.mem_cons, List.not_mem_nil, or_false, not_or] at hg
    split
    · rename_i h; exact hq.1 g h
    · rename_i h
      refine hq.2.2 g (by simpa using h) ?_
      intro dep hdep
      simp at hdep
      rcases hdep with rfl | rfl
      · rw [hsay, if_neg (by rw [hf4]; tauto)]
      · rw [hsay2, if_neg hg.1]

theorem exists_nounSlot {nf num case : Rec} (hcase : case ∈ cases)
    (h : nf = .NOUN_FORM_NORMAL ∧ (num = .NUMBER_SINGULAR ∨ num = .NUMBER_PLURAL) ∨ nf = .NOUN_FORM_COUNTABLE ∧ num = .NUMBER_PLURAL) :
    ∃ i : Nat, nounSlots[i]? = some [some nf, some num, some case] := by
  simp only [cases, List.mem_cons, List.not_mem_nil, or_false] at hcase
  rw [← List.mem_iff_getElem?]
  rcases h with ⟨rfl, rfl | rfl⟩ | ⟨rfl, rfl⟩ <;> rcases hcase with rfl | rfl | rfl | rfl | rfl | rfl <;> decide

/-- C41: `[noun|n|case]` spells the slot the grammar prescribes for the number, the case and the animality. -/
theorem C41_counted_noun (U : PyUni) (ext : Externals) (d : Dictionary) (s : Substitution) (base f : WordForm) (name : Str) (n : Int)
    (case anim : Rec) (he : GoodExternals ext) (hd : GoodDictionary d) (hr : Resolves ext d s.id base)
    (hs : s.dependencies = [.ext name, .props (.new [.record case])]) (hcase : case ∈ cases)
    (hn : constructIntegerFresh n = .ok f) (hname : ext.get? name = some f)
    (hw : base.word.type = .NOUN)
    (hfree : ∀ g ∈ [Group.NOUN_FORM, .NUMBER, .CASE, .INTEGER_FORM], base.word.properties.isSpecified g = false)
    (hanim : effective base.word base.properties .ANIMALITY = some anim)
    (hmode : effective base.word base.properties .DEPENDENCY_MODE = some .DEPENDENCY_MODE_FULL)
    (hlow : effective base.word base.properties .WORD_CASE = some .WORD_CASE_LOWER) :
    ∃ (i : Nat) (form : Str), nounSlots[i]? = some (countedSlot n case anim) ∧ base.word.forms[i]? = some form ∧
      s.getText U ext d = .ok form := by
  rw [constructIntegerFresh_eq] at hn
  injection hn with hn; subst hn
  have hsg : GoodSubstitution s := by
    intro p hp; rw [hs] at hp; simp at hp; subst hp; exact wf_new (by intro p hp; simp at hp)
  have hb := resolves_good he hd hr
  have hwp := (accepted_iff.mp hb.1).1
  have hsole : SoleNumber ext s.dependencies (integerForm n) :=
    ⟨rfl, [], name, [.props (.new [.record case])], hs, hname, by simp⟩
  obtain ⟨q, q', mode, i, case', anim', hq, hcol, h1, h2, h3, h4, hq', h6, h7⟩ :=
    C66_counted_noun U ext d s base _ he hd hsg hr (.inl hw) hsole
  rw [hs] at hcol
  obtain ⟨k1, k2, k3⟩ := counted_collects hname hcase hcol hfree
  have heff : ∀ g, g ∉ [Group.CASE, .INTEGER_FORM, .NUMBER] → q.get g = effective base.word base.properties g := by
    intro g hg; rw [k3 g hg, ← effective_eq hwp hb.2.1, new2_get hb.2.1 hwp]
  rw [heff _ (by decide), hmode] at h1; injection h1 with h1; subst h1
  rw [heff _ (by decide), hanim] at h4; injection h4 with h4; subst h4
  rw [k1] at h2; injection h2 with h2; subst h2
  rw [k2] at h3; injection h3 with h3; subst h3
  have hlow' : q'.get .WORD_CASE = some .WORD_CASE_LOWER := by
    rw [(h6.2 .WORD_CASE ?_).1, heff _ (by decide), hlow]
    intro r hr
    unfold nounAgreement at hr
    rw [if_neg (by decide)] at hr
    split at hr <;> (try split at hr) <;> simp at hr <;> rcases hr with rfl | rfl | rfl <;> decide
  rw [h7, getForm_lower hlow']
  have key : ∀ nf num c, c ∈ cases →
      (nf = .NOUN_FORM_NORMAL ∧ (num = .NUMBER_SINGULAR ∨ num = .NUMBER_PLURAL) ∨ nf = .NOUN_FORM_COUNTABLE ∧ num = .NUMBER_PLURAL) →
      q'.get .NOUN_FORM = some nf → q'.get .NUMBER = some num → q'.get .CASE = some c →
      ∃ (i : Nat) (form : Str), nounSlots[i]? = some [some nf, some num, some c] ∧ base.word.forms[i]? = some form ∧
        base.word.formRaw q' = .ok form := by
    intro nf num c hc hx a1 a2 a3
    obtain ⟨i, hi⟩ := exists_nounSlot hc hx
    obtain ⟨form, hf1, hf2⟩ := noun_slot hb.1 hq' hw (fun g hg => hfree g (by simp at hg ⊢; tauto)) a1 a2 a3 hi
    exact ⟨i, form, hi, hf1, hf2⟩
  have hget : ∀ {r : Rec}, r ∈ nounAgreement .DEPENDENCY_MODE_FULL (agreementClass n) case anim → q'.get r.group = some r := fun hr => (h6.1 _ hr).1
  have hkeep : (∀ r ∈ nounAgreement .DEPENDENCY_MODE_FULL (agreementClass n) case anim, r.group ≠ .CASE) → q'.get .CASE = some case :=
    fun h => by rw [(h6.2 .CASE h).1, k2]
  unfold countedSlot
  have hmem := agreementClass_mem n
  generalize agreementClass n = i at *
  simp only [Group.records, List.mem_cons, List.not_mem_nil, or_false] at hmem
  rcases hmem with rfl | rfl | rfl | rfl | rfl
  · exact key _ _ _ hcase (by simp) (hget (r := .NOUN_FORM_NORMAL) (by simp [nounAgreement]))
      (hget (r := .NUMBER_SINGULAR) (by simp [nounAgreement])) (hkeep (by simp [nounAgreement, Rec.group]))
  · dsimp only
    split
    · rename_i hc
      exact key _ _ _ (by decide) (by simp) (hget (r := .NOUN_FORM_NORMAL) (by simp [nounAgreement, hc]))
        (hget (r := .NUMBER_SINGULAR) (by simp [nounAgreement, hc])) (hget (r := .CASE_GENITIVE) (by simp [nounAgreement, hc]))
    · rename_i hc
      exact key _ _ _ hcase (by simp) (hget (r := .NOUN_FORM_COUNTABLE) (by simp [nounAgreement, hc]))
        (hget (r := .NUMBER_PLURAL) (by simp [nounAgreement, hc])) (hkeep (by simp [nounAgreement, hc, Rec.group]))
  · dsimp only
    split
    · rename_i hc
      exact key _ _ _ (by decide) (by simp) (hget (r := .NOUN_FORM_NORMAL) (by simp [nounAgreement, hc]))
        (hget (r := .NUMBER_SINGULAR) (by simp [nounAgreement, hc])) (hget (r := .CASE_GENITIVE) (by simp [nounAgreement, hc]))
    · rename_i hc
      exact key _ _ _ hcase (by simp) (hget (r := .NOUN_FORM_COUNTABLE) (by simp [nounAgreement, hc]))
        (hget (r := .NUMBER_PLURAL) (by simp [nounAgreement, hc])) (hkeep (by simp [nounAgreement, hc, Rec.group]))
  · dsimp only
    split
    · rename_i hc
      exact key _ _ _ (by decide) (by simp) (hget (r := .NOUN_FORM_COUNTABLE) (by simp [nounAgreement, hc]))
        (hget (r := .NUMBER_PLURAL) (by simp [nounAgreement, hc])) (hget (r := .CASE_GENITIVE) (by simp [nounAgreement, hc]))
    · rename_i hc
      exact key _ _ _ hcase (by simp) (hget (r := .NOUN_FORM_COUNTABLE) (by simp [nounAgreement, hc]))
        (hget (r := .NUMBER_PLURAL) (by simp [nounAgreement, hc])) (hkeep (by simp [nounAgreement, hc, Rec.group]))
  · exact key _ _ _ (by decide) (by simp) (hget (r := .NOUN_FORM_COUNTABLE) (by simp [nounAgreement]))
      (hget (r := .NUMBER_PLURAL) (by simp [nounAgreement])) (hget (r := .CASE_GENITIVE) (by simp [nounAgreement]))

/-- The numbers of the singular class. -/
theorem agreementClass_singular (n : Int) :
    agreementClass n = .INTEGER_FORM_SINGULAR ↔ EndsIn n (str! "1") ∧ ¬ EndsIn n (str! "11") := by
  unfold agreementClass
  have h6 : n.natAbs = 10 ^ 6 ∨ n.natAbs = 10 ^ 9 → ¬ EndsIn n (str! "1") := by
    intro h hE
    have hz : EndsIn n (str! "0") := by
      have : n = 1000000 ∨ n = -1000000 ∨ n = 1000000000 ∨ n = -1000000000 := by
        have e6 : (10 : Nat) ^ 6 = 1000000 := rfl
        have e9 : (10 : Nat) ^ 9 = 1000000000 := rfl
        rw [e6, e9] at h
        omega
      rcases this with rfl | rfl | rfl | rfl <;> decide +kernel
    obtain ⟨a, ha⟩ := hE
    obtain ⟨b, hb⟩ := hz
    rw [← hb] at ha
    have := congrArg List.getLast? ha
    simp at this
  by_cases hm : n.natAbs = 10 ^ 6 ∨ n.natAbs = 10 ^ 9
  · simp only [hm, if_true]; simp [h6 hm]
  · simp only [hm, if_false]
    by_cases he : EndsIn n (str! "1") ∧ ¬ EndsIn n (str! "11")
    · simp [he]
    · simp only [he, if_false]
      constructor
      · intro hx; split at hx
        · cases hx
        · split at hx <;> cases hx
      · intro hx; exact hx.elim

/-- C41: in the semantic mode the case is kept, and the number is singular exactly for numbers that end in one (but not
eleven). -/
theorem C41_semantic_mode (U : PyUni) (ext : Externals) (d : Dictionary) (s : Substitution) (base f : WordForm) (name : Str) (n : Int)
    (case : Rec) (he : GoodExternals ext) (hd : GoodDictionary d) (hr : Resolves ext d s.id base)
    (hs : s.dependencies = [.ext name, .props (.new [.record case])]) (hcase : case ∈ cases)
    (hn : constructIntegerFresh n = .ok f) (hname : ext.get? name = some f)
    (hw : base.word.type = .NOUN)
    (hfree : ∀ g ∈ [Group.NOUN_FORM, .NUMBER, .CASE, .INTEGER_FORM], base.word.properties.isSpecified g = false)
    (hmode : effective base.word base.properties .DEPENDENCY_MODE = some .DEPENDENCY_MODE_SEMANTIC)
    (hlow : effective base.word base.properties .WORD_CASE = some .WORD_CASE_LOWER) :
    ∃ (i : Nat) (form : Str),
      nounSlots[i]? = some [some .NOUN_FORM_NORMAL,
        some (if EndsIn n (str! "1") ∧ ¬ EndsIn n (str! "11") then .NUMBER_SINGULAR else .NUMBER_PLURAL), some case] ∧
      base.word.forms[i]? = some form ∧ s.getText U ext d = .ok form := by
  rw [constructIntegerFresh_eq] at hn
  injection hn with hn; subst hn
  have hsg : GoodSubstitution s := by
    intro p hp; rw [hs] at hp; simp at hp; subst hp; exact wf_new (by intro p hp; simp at hp)
  have hb := resolves_good he hd hr
  have hwp := (accepted_iff.mp hb.1).1
  have hsole : SoleNumber ext s.dependencies (integerForm n) :=
    ⟨rfl, [], name, [.props (.new [.record case])], hs, hname, by simp⟩
  obtain ⟨q, q', mode, i, case', anim', hq, hcol, h1, h2, h3, h4, hq', h6, h7⟩ :=
    C66_counted_noun U ext d s base _ he hd hsg hr (.inl hw) hsole
  rw [hs] at hcol
  obtain ⟨k1, k2, k3⟩ := counted_collects hname hcase hcol hfree
  have heff : ∀ g, g ∉ [Group.CASE, .INTEGER_FORM, .NUMBER] → q.get g = effective base.word base.properties g := by
    intro g hg; rw [k3 g hg, ← effective_eq hwp hb.2.1, new2_get hb.2.1 hwp]
  rw [heff _ (by decide), hmode] at h1; injection h1 with h1; subst h1
  rw [k1] at h2; injection h2 with h2; subst h2
  rw [k2] at h3; injection h3 with h3; subst h3
  have hsing := agreementClass_singular n
  have hset1 : q'.get .NOUN_FORM = some .NOUN_FORM_NORMAL := (h6.1 .NOUN_FORM_NORMAL (by simp [nounAgreement])).1
  have hset2 : q'.get .NUMBER = some (if EndsIn n (str! "1") ∧ ¬ EndsIn n (str! "11") then .NUMBER_SINGULAR else .NUMBER_PLURAL) := by
    by_cases he : EndsIn n (str! "1") ∧ ¬ EndsIn n (str! "11")
    · rw [if_pos he]; exact (h6.1 .NUMBER_SINGULAR (by simp [nounAgreement, hsing.mpr he])).1
    · rw [if_neg he]; exact (h6.1 .NUMBER_PLURAL (by simp [nounAgreement, mt hsing.mp he])).1
  have hgr : ∀ g, g ≠ .NOUN_FORM → g ≠ .NUMBER → q'.get g = q.get g := by
    intro g g1 g2
    refine (h6.2 g ?_).1
    intro r hr
    simp only [nounAgreement, if_true, List.mem_cons, List.not_mem_nil, or_false] at hr
    rcases hr with rfl | rfl
    · exact fun h => g1 h.symm
    · split <;> exact fun h => g2 h.symm
  have hlow' : q'.get .WORD_CASE = some .WORD_CASE_LOWER := by
    rw [hgr _ (by decide) (by decide), heff _ (by decide), hlow]
  rw [h7, getForm_lower hlow']
  obtain ⟨i, hi⟩ := exists_nounSlot (nf := .NOUN_FORM_NORMAL)
    (num := if EndsIn n (str! "1") ∧ ¬ EndsIn n (str! "11") then .NUMBER_SINGULAR else .NUMBER_PLURAL) hcase (by split <;> simp)
  obtain ⟨form, hf1, hf2⟩ := noun_slot hb.1 hq' hw (fun g hg => hfree g (by simp at hg ⊢; tauto)) hset1 hset2
    (by rw [hgr _ (by decide) (by decide), k2]) hi
  exact ⟨i, form, hi, hf1, hf2⟩

/-- Externals: an inanimate noun, and the numbers 2 and 5. -/
def exNumbers : Externals := [(str! "w", WordForm.new exNoun), (str! "two", integerForm 2), (str! "five", integerForm 5)]

theorem exNumbers_good : GoodExternals exNumbers := by
  intro n f hf
  simp only [exNumbers, Dict.get?] at hf
  split at hf
  · injection hf with hf; subst hf; exact goodForm_new exNoun_accepted (by simp) (by simp)
  · split at hf
    · injection hf with hf; subst hf; exact integerForm_good 2
    · split at hf
      · injection hf with hf; subst hf; exact integerForm_good 5
      · cases hf

/-- `[w|five|вн]` meets the hypotheses of `C41_counted_noun`, and the prescribed slot is the countable genitive plural. -/
example : GoodExternals exNumbers ∧ GoodDictionary [] ∧ Resolves exNumbers [] (str! "w") (WordForm.new exNoun) ∧
    constructIntegerFresh 5 = .ok (integerForm 5) ∧ exNumbers.get? (str! "five") = some (integerForm 5) ∧
    (∀ g ∈ [Group.NOUN_FORM, .NUMBER, .CASE, .INTEGER_FORM], exNoun.properties.isSpecified g = false) ∧
    effective exNoun (WordForm.new exNoun).properties .ANIMALITY = some .ANIMALITY_INANIMATE ∧
    effective exNoun (WordForm.new exNoun).properties .DEPENDENCY_MODE = some .DEPENDENCY_MODE_FULL ∧
    effective exNoun (WordForm.new exNoun).properties .WORD_CASE = some .WORD_CASE_LOWER ∧
    countedSlot 5 .CASE_ACCUSATIVE .ANIMALITY_INANIMATE = [some .NOUN_FORM_COUNTABLE, some .NUMBER_PLURAL, some .CASE_GENITIVE] :=
  ⟨exNumbers_good, (by intro t f h; cases h), .inl rfl, constructIntegerFresh_eq 5, (by decide +kernel), (by decide +kernel), (by decide +kernel),
    (by decide +kernel), (by decide +kernel), (by decide +kernel)⟩

/-- A noun in the semantic mode meets the hypothesis of `C41_semantic_mode`. -/
example : effective exNoun (WordForm.new exNoun (some (.new [.record .DEPENDENCY_MODE_SEMANTIC]))).properties .DEPENDENCY_MODE =
    some .DEPENDENCY_MODE_SEMANTIC := by decide +kernel

/-- `[w|two]` and `[w|five]` meet the hypothesis `SoleNumber` of C66, `[prep|w]` the hypothesis `SoleExternal`. -/
example : SoleNumber exNumbers [.ext (str! "w"), .ext (str! "two"), .props (.new [.record .CASE_DATIVE])] (integerForm 2) ∧
    SoleExternal exNumbers [.ext (str! "w"), .props (.new [.record .CASE_DATIVE])] (WordForm.new exNoun) := by
  refine ⟨⟨rfl, [.ext (str! "w")], str! "two", [.props (.new [.record .CASE_DATIVE])], rfl, by decide +kernel, ?_⟩,
    ⟨[], str! "w", [.props (.new [.record .CASE_DATIVE])], rfl, by decide +kernel, by simp⟩⟩
  intro m hm; simp at hm; subst hm; exact ⟨WordForm.new exNoun, by decide +kernel, by decide⟩

/-! ## C67: naming a number twice -/

theorem foldlM_adds (U : PyUni) (w : Word) (fs : List WordForm) (p p' : Properties) (hp : WFProps p) (hp' : WFProps p')
    (h : ∀ g, p.data.get? g = p'.data.get? g) :
    (∃ e, fs.foldlM (fun ps external => transform U w ps external) p = .error e ∧
      fs.foldlM (fun ps external => transform U w ps external) p' = .error e) ∨
    ∃ q q', fs.foldlM (fun ps external => transform U w ps external) p = .ok q ∧
      fs.foldlM (fun ps external => transform U w ps external) p' = .ok q' ∧ WFProps q ∧ WFProps q' ∧
      ∀ g, q.data.get? g = q'.data.get? g := by
  induction fs generalizing p p' with
  | nil => exact .inr ⟨p, p', rfl, rfl, hp, hp', h⟩
  | cons f fs ih =>
    rw [List.foldlM_cons, List.foldlM_cons]
    rcases transform_adds U w f p p' hp hp' h with ⟨e, h1, h2⟩ | ⟨q, q', h1, h2, h3, h4, h5⟩
    · rw [h1, h2]; exact .inl ⟨e, rfl, rfl⟩
    · rw [h1, h2]; exact ih q q' h3 h4 h5

/-- Folding agreement over properties that read the same gives the same text. -/
theorem fold_text_congr (U : PyUni) (w : Word) (fs : List WordForm) (p p' : Properties) (hp : WFProps p) (hp' : WFProps p')
    (h : ∀ g, p.data.get? g = p'.data.get? g) :
    (fs.foldlM (fun ps external => transform U w ps external) p).bind (WordForm.getForm U w) =
    (fs.foldlM (fun ps external => transform U w ps external) p').bind (WordForm.getForm U w) := by
  rcases foldlM_adds U w fs p p' hp hp' h with ⟨e, h1, h2⟩ | ⟨q, q', h1, h2, _, _, h5⟩
  · rw [h1, h2]
  · rw [h1, h2]; exact getForm_congr (fun g => get_congr (h5 g))

theorem nounAgreement_groups {mode i case anim r : Rec} (h : r ∈ nounAgreement mode i case anim) :
    r.group = .NOUN_FORM ∨ r.group = .NUMBER ∨ r.group = .CASE := by
  unfold nounAgreement at h
  split at h
  · split at h <;> simp at h <;> rcases h with rfl | rfl <;> simp [Rec.group]
  · split at h <;> (try split at h) <;> simp at h <;> rcases h with rfl | rfl | rfl <;> simp [Rec.group]

theorem adjectiveAgreement_groups {mode i case gender r : Rec} (h : r ∈ adjectiveAgreement mode i case gender) :
    r.group = .NUMBER ∨ r.group = .CASE := by
  unfold adjectiveAgreement at h
  split at h
  · split at h <;> simp at h <;> subst h <;> simp [Rec.group]
  · split at h <;> (try split at h) <;> (try split at h) <;> simp at h <;> (try rcases h with rfl | rfl) <;> (try subst h) <;> simp [Rec.group]

/-- Setting the same values again changes nothing. -/
theorem clone_idem {p : Properties} (hp : WFProps p) (rs rs' : List Rec)
    (h : ∀ g, (rs'.reverse.find? fun r => decide (r.group = g)) = none ∨
      (rs'.reverse.find? fun r => decide (r.group = g)) = (rs.reverse.find? fun r => decide (r.group = g))) (g : Group) :
    ((p.clone (rs.map .record)).clone (rs'.map .record)).data.get? g = (p.clone (rs.map .record)).data.get? g := by
  rw [clone_records_get? (wf_clone_records hp rs), clone_records_get? hp]
  rcases h g with h | h
  · rw [h]; rfl
  · rw [h]; cases rs.reverse.find? fun r => decide (r.group = g) <;> rfl

theorem transform_twice {U : PyUni} {w : Word} {f : WordForm} {p q : Properties} (hp : WFProps p) (h : transform U w p f = .ok q)
    (h1 : p.get .INTEGER_FORM ≠ some .INTEGER_FORM_DUAL) (h2 : p.get .INTEGER_FORM ≠ some .INTEGER_FORM_COMPOSITE_DUAL) :
    ∃ q2, transform U w q f = .ok q2 ∧ ∀ g, q2.data.get? g = q.data.get? g := by
  have hq := transform_wf hp h
  have hfr := transform_frame hp h
  rcases transform_cases w f with hw | ⟨hw, hf⟩ | ⟨hw, hf⟩ | ⟨hw, hf⟩
  · rw [transform_preposition hw] at h ⊢
    obtain ⟨dec, hd⟩ := preposition_decision U w f
    rw [hd] at h ⊢
    cases dec with
    | error e => cases h
    | ok o =>
      injection h with h; subst h
      refine ⟨_, rfl, ?_⟩
      cases o with
      | none => intro g; rfl
      | some r => exact clone_idem hp [r] [r] (fun g => .inr rfl)
  · rw [C40_other_pairs U w p f hw hf] at h
    injection h with h; subst h
    exact ⟨p, C40_other_pairs U w p f hw hf, fun _ => rfl⟩
  · obtain ⟨mode, i, case, anim, a1, a2, a3, a4, a5⟩ := nounAgreement_transform (U := U) hp hw hf
    obtain ⟨mode', i', case', anim', b1, b2, b3, b4, b5⟩ := nounAgreement_transform (U := U) hq hw hf
    rw [hfr _ (by decide), a1] at b1; injection b1 with b1; subst b1
    rw [hfr _ (by decide), a2] at b2; injection b2 with b2; subst b2
    rw [hfr _ (by decide), a4] at b4; injection b4 with b4; subst b4
    refine ⟨_, b5, ?_⟩
    rw [h] at a5; injection a5 with a5
    have hset := clone_sets hp (nounAgreement mode i case anim) (nounAgreement_nodup ..)
    rw [← a5] at hset
    rw [a5]
    apply clone_idem hp
    intro g
    rw [a2] at h1 h2
    have hi := mem_records_iff.mpr (get_group hp a2)
    simp only [Group.records, List.mem_cons, List.not_mem_nil, or_false] at hi
    by_cases hm : mode = .DEPENDENCY_MODE_SEMANTIC
    · right; simp [nounAgreement, hm]
    · rcases hi with rfl | rfl | rfl | rfl | rfl
      · right; simp [nounAgreement, hm]
      · exact absurd rfl h1
      · exact absurd rfl h2
      · by_cases hc : case = .CASE_NOMINATIVE ∨ case = .CASE_ACCUSATIVE
        · have := (hset.1 .CASE_GENITIVE (by simp [nounAgreement, hm, hc])).1
          rw [show Rec.CASE_GENITIVE.group = .CASE from rfl, b3] at this
          injection this with this; subst this
          by_cases hg : g = .CASE
          · left; subst hg; simp [nounAgreement, hm, Rec.group]
          · right; simp [nounAgreement, hm, hc, Rec.group, Ne.symm hg]
        · have := (hset.2 .CASE (by simp [nounAgreement, hm, hc, Rec.group])).1
          rw [b3, a3] at this; injection this with this; subst this
          right; rfl
      · right; simp [nounAgreement, hm]
  · obtain ⟨mode, i, case, anim, a1, a2, a3, a4, a5⟩ := adjectiveAgreement_transform (U := U) hp hw hf
    obtain ⟨mode', i', case', anim', b1, b2, b3, b4, b5⟩ := adjectiveAgreement_transform (U := U) hq hw hf
    rw [hfr _ (by decide), a1] at b1; injection b1 with b1; subst b1
    rw [hfr _ (by decide), a2] at b2; injection b2 with b2; subst b2
    rw [hfr _ (by decide), a4] at b4; injection b4 with b4; subst b4
    refine ⟨_, b5, ?_⟩
    rw [h] at a5; injection a5 with a5
    have hset := clone_sets hp (adjectiveAgreement mode i case anim) (adjectiveAgreement_nodup ..)
    rw [← a5] at hset
    rw [a5]
    apply clone_idem hp
    intro g
    rw [a2] at h1 h2
    have hi := mem_records_iff.mpr (get_group hp a2)
    simp only [Group.records, List.mem_cons, List.not_mem_nil, or_false] at hi
    by_cases hm : mode = .DEPENDENCY_MODE_SEMANTIC
    · right; simp [adjectiveAgreement, hm]
    · rcases hi with rfl | rfl | rfl | rfl | rfl
      · right; simp [adjectiveAgreement, hm]
      · exact absurd rfl h1
      · exact absurd rfl h2
      · by_cases hc : case = .CASE_NOMINATIVE ∨ case = .CASE_ACCUSATIVE
        · have := (hset.1 .CASE_GENITIVE (by simp [adjectiveAgreement, hm, hc])).1
          rw [show Rec.CASE_GENITIVE.group = .CASE from rfl, b3] at this
          injection this with this; subst this
          by_cases hg : g = .CASE
          · left; subst hg; simp [adjectiveAgreement, hm, Rec.group]
          · right; simp [adjectiveAgreement, hm, hc, Rec.group, Ne.symm hg]
        · have := (hset.2 .CASE (by simp [adjectiveAgreement, hm, hc, Rec.group])).1
          rw [b3, a3] at this; injection this with this; subst this
          right; rfl
      · right; simp [adjectiveAgreement, hm]

theorem listProperties_repeat {ext : Externals} {pre post : List Dep} {n : Str} {e : PyErr}
    (h : listProperties ext (pre ++ .ext n :: post) = .error e) : listProperties ext (pre ++ .ext n :: .ext n :: post) = .error e := by
  induction pre with
  | nil =>
    rw [List.nil_append] at h ⊢
    have h' := h
    rw [listProperties] at h' ⊢
    rw [h]
    cases hn : ext.get? n with
    | none => rw [hn] at h'; exact h'
    | some f => rfl
  | cons dep pre ih =>
    cases dep with
    | props p =>
      rw [List.cons_append, listProperties] at h ⊢
      cases hl : listProperties ext (pre ++ .ext n :: post) with
      | error e' => rw [hl] at h; injection h with h; subst h; rw [ih hl]; rfl
      | ok x => rw [hl] at h; cases h
    | ext m =>
      rw [List.cons_append, listProperties] at h ⊢
      cases hm : ext.get? m with
      | none => rw [hm] at h; exact h
      | some f =>
        rw [hm] at h
        cases hl : listProperties ext (pre ++ .ext n :: post) with
        | error e' =>
          simp only [hl] at h
          injection h with h; subst h
          simp only [ih hl]; rfl
        | ok x => simp only [hl] at h; cases h

/-- C67, for numbers other than those ending in two, three, four: naming an external twice in a row is harmless. What is
missing is what `C67_violated` refutes. -/
theorem C67_repeat_partial (U : PyUni) (ext : Externals) (d : Dictionary) (id : Str) (base : WordForm) (pre post : List Dep) (n : Str)
    (he : GoodExternals ext) (hd : GoodDictionary d) (hs : GoodSubstitution ⟨id, pre ++ .ext n :: post⟩)
    (hr : Resolves ext d id base)
    (hclass : ∀ q, Collects ext base (pre ++ .ext n :: post) q →
      q.get .INTEGER_FORM ≠ some .INTEGER_FORM_DUAL ∧ q.get .INTEGER_FORM ≠ some .INTEGER_FORM_COMPOSITE_DUAL) :
    Substitution.getText U ⟨id, pre ++ .ext n :: .ext n :: post⟩ ext d = Substitution.getText U ⟨id, pre ++ .ext n :: post⟩ ext d := by
  have hb := resolves_good he hd hr
  rcases missing_or ext (pre ++ .ext n :: post) with hsup | ⟨a, m, b, h1, h2, h3⟩
  · obtain ⟨f, hf⟩ := hsup n (by simp)
    have hsup' : ∀ m, Dep.ext m ∈ pre ++ .ext n :: .ext n :: post → ∃ f, ext.get? m = some f := by
      intro m hm; apply hsup; simp at hm ⊢; tauto
    have hs' : ∀ p, Dep.props p ∈ pre ++ .ext n :: .ext n :: post → WFProps p := by
      intro p hp; apply hs; simp at hp ⊢; tauto
    rw [getText_eq (s := ⟨id, _⟩) hr hsup, getText_eq (s := ⟨id, _⟩) hr hsup']
    have hget : ∀ g, (collected ext base (pre ++ .ext n :: .ext n :: post)).data.get? g =
        (collected ext base (pre ++ .ext n :: post)).data.get? g := by
      intro g
      rw [collected_get? he hb hs', collected_get? he hb hs]
      simp only [List.reverse_append, List.reverse_cons, List.append_assoc, List.findSome?_append, List.findSome?_cons,
        List.cons_append, List.nil_append]
      cases (depProps ext (.ext n)).data.get? g <;> rfl
    rw [fold_text_congr U base.word _ _ _ (collected_wf he hb hs') (collected_wf he hb hs) hget]
    have hdf : depForm ext (.ext n) = some f := hf
    simp only [List.filterMap_append, List.filterMap_cons_some hdf, List.foldlM_append, List.foldlM_cons]
    have hw := collected_wf he hb hs
    obtain ⟨c1, c2⟩ := hclass _ (collects he hb hs)
    generalize collected ext base (pre ++ .ext n :: post) = p at *
    cases hfold : (pre.filterMap (depForm ext)).foldlM (fun ps external => transform U base.word ps external) p with
    | error e => rfl
    | ok p1 =>
      obtain ⟨hp1, hfr⟩ := foldlM_frame hw hfold
      rw [← hfr _ (by decide)] at c1 c2
      simp only [bind, Except.bind]
      cases ht : transform U base.word p1 f with
      | error e => rfl
      | ok p2 =>
        obtain ⟨p3, ht2, hg⟩ := transform_twice hp1 ht c1 c2
        have hp2 := transform_wf hp1 ht
        simp only [ht2]
        exact fold_text_congr U base.word _ _ _ (transform_wf hp2 ht2) hp2 hg
  · have hb' := (baseForm_resolves (s := ⟨id, pre ++ .ext n :: post⟩)).mp hr
    have hb'' := (baseForm_resolves (s := ⟨id, pre ++ .ext n :: .ext n :: post⟩)).mp hr
    have e1 : listProperties ext (pre ++ .ext n :: post) = .error (.ExternalDependecyNotFoundError m) := by
      rw [h1]; exact listProperties_missing h2 h3
    have e2 := listProperties_repeat e1
    unfold Substitution.getText
    rw [hb', hb'']
    simp only [e1, e2]

/-- C67 is false of the code: `[w|two]` and `[w|two|two]` differ (два рубля - два рублей). -/
theorem C67_violated (U : PyUni) : ∃ (ext : Externals) (id n : Str), GoodExternals ext ∧
    ∀ d, ∃ t t', Substitution.getText U ⟨id, [.ext n]⟩ ext d = .ok t ∧ Substitution.getText U ⟨id, [.ext n, .ext n]⟩ ext d = .ok t' ∧ t ≠ t' := by
  refine ⟨exNumbers, str! "w", str! "two", exNumbers_good, fun d => ⟨str! "b", str! "n", ?_, ?_, by decide⟩⟩
  · rw [getText_eq (base := WordForm.new exNoun) (.inl rfl) (by intro n hn; simp at hn; subst hn; exact ⟨_, rfl⟩)]
    have h1 : ∃ q, nounInteger (collected exNumbers (WordForm.new exNoun) [.ext (str! "two")]) = .ok q ∧
        q.get .WORD_CASE = some .WORD_CASE_LOWER ∧ exNoun.formRaw q = .ok (str! "b") :=
      ⟨(collected exNumbers (WordForm.new exNoun) [.ext (str! "two")]).clone
        [.record .NOUN_FORM_NORMAL, .record .NUMBER_SINGULAR, .record .CASE_GENITIVE], by decide +kernel, by decide +kernel, by decide +kernel⟩
    obtain ⟨q, h1, h2, h3⟩ := h1
    show (nounInteger (collected exNumbers (WordForm.new exNoun) [.ext (str! "two")]) >>= fun p => pure p).bind _ = _
    rw [h1]
    show WordForm.getForm U exNoun q = _
    rw [getForm_lower h2, h3]
  · rw [getText_eq (base := WordForm.new exNoun) (.inl rfl) (by intro n hn; simp at hn; subst hn; exact ⟨_, rfl⟩)]
    have h1 : ∃ q q', nounInteger (collected exNumbers (WordForm.new exNoun) [.ext (str! "two"), .ext (str! "two")]) = .ok q ∧
        nounInteger q = .ok q' ∧ q'.get .WORD_CASE = some .WORD_CASE_LOWER ∧ exNoun.formRaw q' = .ok (str! "n") :=
      ⟨(collected exNumbers (WordForm.new exNoun) [.ext (str! "two"), .ext (str! "two")]).clone
        [.record .NOUN_FORM_NORMAL, .record .NUMBER_SINGULAR, .record .CASE_GENITIVE],
       ((collected exNumbers (WordForm.new exNoun) [.ext (str! "two"), .ext (str! "two")]).clone
        [.record .NOUN_FORM_NORMAL, .record .NUMBER_SINGULAR, .record .CASE_GENITIVE]).clone [.record .NOUN_FORM_COUNTABLE, .record .NUMBER_PLURAL],
        by decide +kernel, by decide +kernel, by decide +kernel, by decide +kernel⟩
    obtain ⟨q, q', h1, h2, h3, h4⟩ := h1
    show (nounInteger (collected exNumbers (WordForm.new exNoun) [.ext (str! "two"), .ext (str! "two")]) >>=
      fun p => nounInteger p >>= fun p => pure p).bind _ = _
    rw [h1]
    show (nounInteger q >>= fun p => pure p).bind _ = _
    rw [h2]
    show WordForm.getForm U exNoun q' = _
    rw [getForm_lower h3, h4]

/-- `[w|five|five]` meets the hypotheses of `C67_repeat_partial`. -/
example (q : Properties) (h : Collects exNumbers (WordForm.new exNoun) ([] ++ .ext (str! "five") :: []) q) :
    q.get .INTEGER_FORM ≠ some .INTEGER_FORM_DUAL ∧ q.get .INTEGER_FORM ≠ some .INTEGER_FORM_COMPOSITE_DUAL := by
  have := h.2.1 .INTEGER_FORM [] _ [] .INTEGER_FORM_PLURAL (by decide +kernel) rfl (by decide +kernel) (by simp)
  rw [this]; decide

/-! ## C68: the case of a variable -/

/-- C68 is false of the code: README.rst says that in `[красивого|hero]` the variable's nominative replaces the case
recognised in the text; a variable whose case is not specified replaces nothing. -/
theorem C68_violated : ∃ (ext : Externals) (base hero : WordForm) (n : Str), GoodExternals ext ∧ GoodForm base ∧
    ext.get? n = some hero ∧ hero.properties.get .CASE = some .CASE_NOMINATIVE ∧ base.word.properties.isSpecified .CASE = false ∧
    ∀ q, Collects ext base [.ext n] q → q.get .CASE = some .CASE_GENITIVE := by
  refine ⟨exNumbers, WordForm.new exPlural (some (.new [.record .CASE_GENITIVE])), WordForm.new exNoun, str! "w", exNumbers_good,
    goodForm_new exPlural_accepted ?_ (by simp), by decide +kernel, by decide +kernel, by decide +kernel, ?_⟩
  · rintro _ ⟨⟩; exact wf_new (by intro p hp; simp at hp)
  · intro q hq
    rw [hq.2.2 .CASE (by decide +kernel) (by intro dep hdep; simp at hdep; subst hdep; decide +kernel)]
    decide +kernel

/-- C68, for a variable whose case is specified: it replaces the recognised case, unless the word fixes its own or a later
dependency speaks. -/
theorem C68_specified_partial (ext : Externals) (base hero : WordForm) (n : Str) (pre post : List Dep) (q : Properties)
    (hn : ext.get? n = some hero) (hs : hero.properties.isSpecified .CASE = true) (hw : base.word.properties.isSpecified .CASE = false)
    (hpost : ∀ dep ∈ post, depSays ext dep .CASE = none) (hq : Collects ext base (pre ++ .ext n :: post) q) :
    q.get .CASE = hero.properties.get .CASE := by
  cases h : hero.properties.get .CASE with
  | none => obtain ⟨r, hr⟩ := isSpecified_iff.mp hs; simp [Properties.get, hr] at h
  | some r =>
    refine hq.2.1 .CASE pre (.ext n) post r hw rfl ?_ hpost
    simp only [depSays, hn, hs, if_true, h]

/-- C68 applies to `[w|hero]` with a hero in the dative. -/
example : ((WordForm.new exNoun (some (.new [.record .CASE_DATIVE]))).properties.isSpecified .CASE = true) ∧
    exPlural.properties.isSpecified .CASE = false ∧
    Collects [(str! "hero", WordForm.new exNoun (some (.new [.record .CASE_DATIVE])))] (WordForm.new exPlural) ([] ++ .ext (str! "hero") :: [])
      (.new [.props (WordForm.new exPlural).properties, .props (WordForm.new exNoun (some (.new [.record .CASE_DATIVE]))).properties,
        .props exPlural.properties]) := by
  refine ⟨by decide +kernel, by decide +kernel, ?_, ?_, ?_⟩
  · intro g; cases g <;> decide +kernel
  · intro g pre dep post r h1 h2 h3 h4
    have : pre = [] ∧ dep = .ext (str! "hero") ∧ post = [] := by
      cases pre with
      | nil => simp at h2; exact ⟨rfl, h2.1.symm, h2.2.symm ▸ rfl⟩
      | cons a pre => simp at h2
    obtain ⟨rfl, rfl, rfl⟩ := this
    revert h3 h1
    cases g <;> cases r <;> decide +kernel
  · intro g; cases g <;> decide +kernel

end Utg
