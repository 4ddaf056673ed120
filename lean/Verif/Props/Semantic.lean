import Verif.Props.Exact
/-! # C91, C92: the semantic mode, and a variable alone in brackets -/

namespace Utg
open Py Spec

/-! ## C91: the semantic mode tells only one from many -/

/-- Readings that agree on everything but the kind of number and, before agreement, the grammatical number. -/
def Alike (number : Bool) (ρ ρ' : Reading) : Prop :=
  (∀ g, g ≠ .INTEGER_FORM → (number = true ∨ g ≠ .NUMBER) → ρ g = ρ' g) ∧
  (ρ .INTEGER_FORM = some .INTEGER_FORM_SINGULAR ↔ ρ' .INTEGER_FORM = some .INTEGER_FORM_SINGULAR) ∧
  (ρ .INTEGER_FORM).isSome ∧ (ρ' .INTEGER_FORM).isSome ∧ ρ .DEPENDENCY_MODE = some .DEPENDENCY_MODE_SEMANTIC

/-- The parts of speech that agree with numbers. -/
def Countable (w : Word) : Prop :=
  w.type = .NOUN ∨ w.type = .PRONOUN ∨ w.type = .ADJECTIVE ∨ w.type = .VERB ∨ w.type = .PARTICIPLE

/-- What is demanded in the semantic mode. -/
theorem demand_alike {U : PyUni} {w : Word} {f f' : WordForm} {b : Bool} {ρ ρ' : Reading} (hw : Countable w)
    (hf : f.word.type = f'.word.type) (h : Alike b ρ ρ') :
    (∃ rs, demand U w ρ f = .ok rs ∧ demand U w ρ' f' = .ok rs ∧ (∀ r ∈ rs, r.group = .NOUN_FORM ∨ r.group = .NUMBER) ∧
      (f.word.type = .INTEGER → (rs.find? fun r => decide (r.group = .NUMBER)).isSome)) ∨
    demand U w ρ f = .error .TypeError ∧ demand U w ρ' f' = .error .TypeError := by
  obtain ⟨h1, h2, h3, h4, h5⟩ := h
  have e5 := h1 .DEPENDENCY_MODE (by decide) (.inr (by decide))
  rw [h5] at e5
  by_cases hi : f.word.type = .INTEGER
  · have hi' : f'.word.type = .INTEGER := by rw [← hf, hi]
    cases hx : ρ .INTEGER_FORM with
    | none => rw [hx] at h3; cases h3
    | some i =>
      cases hy : ρ' .INTEGER_FORM with
      | none => rw [hy] at h4; cases h4
      | some i' =>
        rw [hx, hy] at h2
        simp only [Option.some.injEq] at h2
        have hn : ∀ c a, nounAgreement .DEPENDENCY_MODE_SEMANTIC i c a = nounAgreement .DEPENDENCY_MODE_SEMANTIC i' c a := by
          intro c a; simp only [nounAgreement, if_true]; rw [if_congr h2 rfl rfl]
        have ha : ∀ c a, adjectiveAgreement .DEPENDENCY_MODE_SEMANTIC i c a = adjectiveAgreement .DEPENDENCY_MODE_SEMANTIC i' c a := by
          intro c a; simp only [adjectiveAgreement, if_true]; rw [if_congr h2 rfl rfl]
        have gn : ∀ c a, ∀ r ∈ nounAgreement .DEPENDENCY_MODE_SEMANTIC i' c a, r.group = .NOUN_FORM ∨ r.group = .NUMBER := by
          intro c a r hr
          simp only [nounAgreement, if_true, List.mem_cons, List.not_mem_nil, or_false] at hr
          rcases hr with rfl | rfl
          · decide
          · split <;> decide
        have ga : ∀ c a, ∀ r ∈ adjectiveAgreement .DEPENDENCY_MODE_SEMANTIC i' c a, r.group = .NOUN_FORM ∨ r.group = .NUMBER := by
          intro c a r hr
          simp only [adjectiveAgreement, if_true, List.mem_cons, List.not_mem_nil, or_false] at hr
          subst hr
          split <;> decide
        have c1 := h1 .CASE (by decide) (.inr (by decide))
        have c2 := h1 .ANIMALITY (by decide) (.inr (by decide))
        have c3 := h1 .GENDER (by decide) (.inr (by decide))
        rcases hw with hw | hw | hw | hw | hw <;> simp only [demand, hw, hi, hi', if_true, h5, ← e5, hx, hy, ← c1, ← c2, ← c3]
        iterate 2
          cases ρ .CASE with
          | none => right; exact ⟨rfl, rfl⟩
          | some c =>
            cases ρ .ANIMALITY with
            | none => right; exact ⟨rfl, rfl⟩
            | some a =>
              left; simp only [hn]
              exact ⟨_, rfl, rfl, gn _ _, fun _ => nounAgreement_number _ _ _ _⟩
        iterate 3
          cases ρ .CASE with
          | none => right; exact ⟨rfl, rfl⟩
          | some c =>
            cases ρ .GENDER with
            | none => right; exact ⟨rfl, rfl⟩
            | some a =>
              left; simp only [ha]
              exact ⟨_, rfl, rfl, ga _ _, fun _ => adjectiveAgreement_number _ _ _ _⟩
  · have hi' : f'.word.type ≠ .INTEGER := by rw [← hf]; exact hi
    left
    refine ⟨[], ?_, ?_, by simp, fun h => absurd h hi⟩ <;>
    · rcases hw with hw | hw | hw | hw | hw <;> simp only [demand, hw, hi, hi', if_false]

theorem alike_upd {b : Bool} {ρ ρ' : Reading} {rs : List Rec} (h : Alike b ρ ρ') (hg : ∀ r ∈ rs, r.group = .NOUN_FORM ∨ r.group = .NUMBER) :
    Alike (b || (rs.find? fun r => decide (r.group = .NUMBER)).isSome) (ρ.upd rs) (ρ'.upd rs) := by
  have hskip : ∀ (σ : Reading) g, g ≠ .NOUN_FORM → g ≠ .NUMBER → σ.upd rs g = σ g := by
    intro σ g h1 h2
    rw [upd_apply, List.find?_eq_none.mpr]
    · rfl
    · intro r hr
      simp only [decide_eq_true_eq]
      rintro rfl
      rcases hg r hr with h | h
      · exact h1 h
      · exact h2 h
  obtain ⟨h1, h2, h3, h4, h5⟩ := h
  refine ⟨?_, ?_, ?_, ?_, ?_⟩
  · intro g hg1 hg2
    rw [upd_apply, upd_apply]
    cases hf : rs.find? fun r => decide (r.group = g) with
    | some r => rfl
    | none =>
      refine h1 g hg1 ?_
      by_cases e : g = .NUMBER
      · subst e
        rw [hf] at hg2
        simpa using hg2
      · exact .inr e
  · rw [hskip _ _ (by decide) (by decide), hskip _ _ (by decide) (by decide)]; exact h2
  · rw [hskip _ _ (by decide) (by decide)]; exact h3
  · rw [hskip _ _ (by decide) (by decide)]; exact h4
  · rw [hskip _ _ (by decide) (by decide)]; exact h5

theorem agreeAll_alike {U : PyUni} {w : Word} (hw : Countable w) {fs fs' : List WordForm}
    (hf : List.Forall₂ (fun f f' => f.word.type = f'.word.type) fs fs') {b : Bool} {ρ ρ' : Reading} (h : Alike b ρ ρ')
    (hb : b = true ∨ ∃ f ∈ fs, f.word.type = .INTEGER) :
    (∃ σ σ', agreeAll U w ρ fs = .ok σ ∧ agreeAll U w ρ' fs' = .ok σ' ∧ Alike true σ σ') ∨
    agreeAll U w ρ fs = .error .TypeError ∧ agreeAll U w ρ' fs' = .error .TypeError := by
  induction hf generalizing b ρ ρ' with
  | nil =>
    rcases hb with rfl | ⟨f, hf, -⟩
    · exact .inl ⟨ρ, ρ', rfl, rfl, h⟩
    · simp at hf
  | @cons f f' fs fs' hff hrest ih =>
    rcases demand_alike (U := U) hw hff h with ⟨rs, e1, e2, hg, hn⟩ | ⟨e1, e2⟩
    · simp only [agreeAll, e1, e2, bind, Except.bind]
      refine ih (alike_upd h hg) ?_
      rcases hb with rfl | ⟨x, hx, hxi⟩
      · exact .inl rfl
      · rcases List.mem_cons.mp hx with rfl | hx
        · left; rw [hn hxi]; simp
        · exact .inr ⟨x, hx, hxi⟩
    · right
      simp only [agreeAll, e1, e2, bind, Except.bind, and_self]

/-- The form does not depend on the kind of number. -/
theorem spoken_alike {U : PyUni} {w : Word} {ρ ρ' : Reading} (h : Alike true ρ ρ') : spoken U w ρ = spoken U w ρ' := by
  have h1 : ∀ g, g ≠ .INTEGER_FORM → ρ g = ρ' g := fun g hg => h.1 g hg (.inl rfl)
  have hst : ∀ g, g ≠ .INTEGER_FORM → standIn w.type ρ g = standIn w.type ρ' g := by
    intro g hg
    unfold standIn
    rw [h1 .NOUN_FORM (by decide), h1 .NUMBER (by decide), h1 .VERB_FORM (by decide), h1 .PERSON (by decide)]
    split
    · rw [upd_apply, upd_apply, h1 g hg]
    · split
      · rw [upd_apply, upd_apply, h1 g hg]
      · exact h1 g hg
  have hlay : ∀ m ∈ layoutNow w.type, ∀ r ∈ m, r.group ≠ .INTEGER_FORM := by cases w.type <;> decide +kernel
  have hslot : slotOf w.type ρ = slotOf w.type ρ' := by
    unfold slotOf
    have : ∀ l : List (List Rec), (∀ m ∈ l, ∀ r ∈ m, r.group ≠ .INTEGER_FORM) →
        l.findIdx (fun m => decide (Fits (standIn w.type ρ) m)) = l.findIdx fun m => decide (Fits (standIn w.type ρ') m) := by
      intro l
      induction l with
      | nil => intro _; rfl
      | cons m l ih =>
        intro hl
        have e : Fits (standIn w.type ρ) m ↔ Fits (standIn w.type ρ') m := by
          unfold Fits
          constructor <;> intro hf r hr
          · rw [← hst _ (hl m (by simp) r hr)]; exact hf r hr
          · rw [hst _ (hl m (by simp) r hr)]; exact hf r hr
        rw [List.findIdx_cons, List.findIdx_cons, ih (fun x hx => hl x (by simp [hx]))]
        simp only [e]
    exact this _ hlay
  unfold spoken formIn
  rw [h1 .WORD_CASE (by decide), hslot]

theorem masters_alike {ext ext' : Externals} {name : Str} {f f' : WordForm} (h1 : ext.get? name = some f) (h2 : ext'.get? name = some f')
    (ht : f.word.type = f'.word.type) (hsame : ∀ x, x ≠ name → ext.get? x = ext'.get? x) (deps : List Dep) :
    (∃ fs fs', masters ext deps = .ok fs ∧ masters ext' deps = .ok fs' ∧ List.Forall₂ (fun f f' => f.word.type = f'.word.type) fs fs' ∧
      (Dep.ext name ∈ deps → f ∈ fs)) ∨
    ∃ e, masters ext deps = .error e ∧ masters ext' deps = .error e := by
  induction deps with
  | nil => exact .inl ⟨[], [], rfl, rfl, .nil, by simp⟩
  | cons dep deps ih =>
    cases dep with
    | props p =>
      rcases ih with ⟨fs, fs', a, b, c, e⟩ | ⟨e, a, b⟩
      · exact .inl ⟨fs, fs', a, b, c, by simpa using e⟩
      · exact .inr ⟨e, a, b⟩
    | ext x =>
      by_cases hx : x = name
      · subst hx
        simp only [masters, h1, h2]
        rcases ih with ⟨fs, fs', a, b, c, e⟩ | ⟨e, a, b⟩
        · exact .inl ⟨f :: fs, f' :: fs', by rw [a]; rfl, by rw [b]; rfl, .cons ht c, by simp⟩
        · exact .inr ⟨e, by rw [a]; rfl, by rw [b]; rfl⟩
      · simp only [masters, hsame x hx]
        cases ext'.get? x with
        | none => exact .inr ⟨_, rfl, rfl⟩
        | some g =>
          simp only
          rcases ih with ⟨fs, fs', a, b, c, e⟩ | ⟨e, a, b⟩
          · refine .inl ⟨g :: fs, g :: fs', by rw [a]; rfl, by rw [b]; rfl, .cons rfl c, ?_⟩
            intro hm
            rcases List.mem_cons.mp hm with hm | hm
            · injection hm with hm; exact absurd hm.symm hx
            · exact List.mem_cons_of_mem _ (e hm)
          · exact .inr ⟨e, by rw [a]; rfl, by rw [b]; rfl⟩

/-- C91: in the semantic mode a word that depends on a number looks only at one or many: any two numbers that both end in one (and not
in eleven), or both do not, give the same text, whatever else the word depends on. -/
theorem C91_semantic (U : PyUni) (ext ext' : Externals) (d : Dictionary) (s : Substitution) (base f f' : WordForm) (name : Str) (n m : Int)
    (he : GoodExternals ext) (he' : GoodExternals ext') (hd : GoodDictionary d) (hs : GoodSubstitution s)
    (hn : constructIntegerFresh n = .ok f) (hm : constructIntegerFresh m = .ok f') (h1 : ext.get? name = some f) (h2 : ext'.get? name = some f')
    (hsame : ∀ x, x ≠ name → ext.get? x = ext'.get? x) (hid : s.id ≠ name) (hr : Resolves ext d s.id base)
    (hw : base.word.type = .NOUN ∨ base.word.type = .PRONOUN ∨ base.word.type = .ADJECTIVE ∨ base.word.type = .VERB ∨ base.word.type = .PARTICIPLE)
    (hmode : initialReading ext base s.dependencies .DEPENDENCY_MODE = some .DEPENDENCY_MODE_SEMANTIC)
    (hone : (EndsIn n (str! "1") ∧ ¬ EndsIn n (str! "11")) ↔ (EndsIn m (str! "1") ∧ ¬ EndsIn m (str! "11"))) :
    s.getText U ext d = s.getText U ext' d := by
  rw [constructIntegerFresh_eq] at hn hm
  injection hn with hn; subst hn
  injection hm with hm; subst hm
  by_cases hmem : Dep.ext name ∈ s.dependencies
  · have hr' : Resolves ext' d s.id base := by
      unfold Resolves at hr ⊢; rw [← hsame _ hid]; exact hr
    rw [getText_reading he hd hs hr, getText_reading he' hd hs hr']
    have hb := resolves_good he hd hr
    obtain ⟨_, hx, -, i1, i2, i3⟩ := C35_agreement_class n
    rw [constructIntegerFresh_eq] at hx; injection hx with hx; subst hx
    obtain ⟨_, hx, -, j1, j2, j3⟩ := C35_agreement_class m
    rw [constructIntegerFresh_eq] at hx; injection hx with hx; subst hx
    rcases masters_alike h1 h2 rfl hsame s.dependencies with ⟨fs, fs', e1, e2, e3, e4⟩ | ⟨e, e1, e2⟩
    · rw [e1, e2]
      simp only [Except.bind]
      have hal : Alike false (initialReading ext base s.dependencies) (initialReading ext' base s.dependencies) := by
        have hsay : ∀ g, g ≠ .INTEGER_FORM → g ≠ .NUMBER → ∀ dep, depSays ext dep g = depSays ext' dep g := by
          intro g g1 g2 dep
          cases dep with
          | props p => rfl
          | ext x =>
            by_cases hxn : x = name
            · subst hxn
              simp only [depSays, h1, h2]
              rw [if_neg (by rw [i3]; tauto), if_neg (by rw [j3]; tauto)]
            · simp only [depSays, hsame x hxn]
        have hlast : ∀ g, g ≠ .INTEGER_FORM → g ≠ .NUMBER → ∀ deps, lastSay ext g deps = lastSay ext' g deps := by
          intro g g1 g2 deps
          induction deps with
          | nil => rfl
          | cons dep deps ih => rw [lastSay, lastSay, ih, hsay g g1 g2]
        have hint : ∀ deps, (lastSay ext .INTEGER_FORM deps = none ∧ lastSay ext' .INTEGER_FORM deps = none) ∨
            ∃ r r', lastSay ext .INTEGER_FORM deps = some r ∧ lastSay ext' .INTEGER_FORM deps = some r' ∧
              (r = .INTEGER_FORM_SINGULAR ↔ r' = .INTEGER_FORM_SINGULAR) := by
          intro deps
          induction deps with
          | nil => exact .inl ⟨rfl, rfl⟩
          | cons dep deps ih =>
            rcases ih with ⟨a, b⟩ | ⟨r, r', a, b, c⟩
            · simp only [lastSay, a, b]
              cases dep with
              | props p =>
                have e : depSays ext (.props p) .INTEGER_FORM = depSays ext' (.props p) .INTEGER_FORM := rfl
                rw [e]
                cases depSays ext' (.props p) .INTEGER_FORM with
                | none => exact .inl ⟨rfl, rfl⟩
                | some r => exact .inr ⟨r, r, rfl, rfl, Iff.rfl⟩
              | ext x =>
                by_cases hxn : x = name
                · subst hxn
                  right
                  refine ⟨agreementClass n, agreementClass m, ?_, ?_, ?_⟩
                  · simp only [depSays, h1]; rw [if_pos ((i3 _).mpr (.inl rfl)), i1]
                  · simp only [depSays, h2]; rw [if_pos ((j3 _).mpr (.inl rfl)), j1]
                  · rw [agreementClass_singular, agreementClass_singular]; exact hone
                · have e : depSays ext (.ext x) .INTEGER_FORM = depSays ext' (.ext x) .INTEGER_FORM := by simp only [depSays, hsame x hxn]
                  rw [e]
                  cases depSays ext' (.ext x) .INTEGER_FORM with
                  | none => exact .inl ⟨rfl, rfl⟩
                  | some r => exact .inr ⟨r, r, rfl, rfl, Iff.rfl⟩
            · right
              exact ⟨r, r', by simp only [lastSay, a], by simp only [lastSay, b], c⟩
        have hown : ∀ p : Properties, WFProps p → (p.get .INTEGER_FORM).isSome := by
          intro p hp
          obtain ⟨r, -, h⟩ := get_mem_records hp (g := .INTEGER_FORM) (by decide)
          rw [h]; rfl
        have hwp := (accepted_iff.mp hb.1).1
        refine ⟨?_, ?_, ?_, ?_, hmode⟩
        · intro g g1 g2
          rcases g2 with g2 | g2
          · cases g2
          · simp only [initialReading, hlast g g1 g2]
        all_goals
          simp only [initialReading]
          rcases hint s.dependencies with ⟨a, b⟩ | ⟨r, r', a, b, c⟩
          · simp only [a, b]
            first
              | done
              | (split
                 · exact hown _ hwp
                 · exact hown _ hb.2.1)
          · simp only [a, b]
            first
              | (split
                 · exact Iff.rfl
                 · simpa using c)
              | (split
                 · exact hown _ hwp
                 · rfl)
      rcases agreeAll_alike (U := U) hw e3 hal (.inr ⟨_, e4 hmem, rfl⟩) with ⟨σ, σ', a, b, c⟩ | ⟨a, b⟩
      · rw [a, b]
        exact spoken_alike c
      · rw [a, b]
    · rw [e1, e2]; rfl
  · exact C48_irrelevant_externals U ext ext' d s (hsame _ hid) (fun x hx => hsame x (by rintro rfl; exact hmem hx))

/-- Externals with a noun, a verb and the number `n`. -/
def exMany (n : Int) : Externals := [(str! "w", WordForm.new exNoun), (str! "v", WordForm.new exVerb), (str! "n", integerForm n)]

theorem exMany_good (n : Int) : GoodExternals (exMany n) := by
  intro x f hf
  simp only [exMany, Dict.get?] at hf
  split at hf
  · injection hf with hf; subst hf; exact goodForm_new exNoun_accepted (by simp) (by simp)
  · split at hf
    · injection hf with hf; subst hf
      exact goodForm_new ⟨exVerb.type, exVerb.forms, exVerb.properties, wf_new (by intro p hp; simp at hp), by decide +kernel⟩ (by simp) (by simp)
    · split at hf
      · injection hf with hf; subst hf; exact integerForm_good n
      · cases hf

/-- `[w|n|сзв]` meets the hypotheses of C91: one and twenty-one, and two and five, give the same text. -/
example : (exMany 1).get? (str! "n") = some (integerForm 1) ∧ Resolves (exMany 2) [] (str! "w") (WordForm.new exNoun) ∧
    (∀ x, x ≠ str! "n" → (exMany 2).get? x = (exMany 5).get? x) ∧
    initialReading (exMany 2) (WordForm.new exNoun) [.ext (str! "n"), .props (.new [.record .DEPENDENCY_MODE_SEMANTIC])] .DEPENDENCY_MODE =
      some .DEPENDENCY_MODE_SEMANTIC ∧
    (EndsIn 21 (str! "1") ∧ ¬ EndsIn 21 (str! "11")) ∧ ¬ EndsIn 2 (str! "1") ∧ ¬ EndsIn 5 (str! "1") := by
  refine ⟨by decide +kernel, .inl rfl, ?_, by decide +kernel, by decide +kernel, by decide +kernel, by decide +kernel⟩
  intro x hx
  simp [exMany, Dict.get?, Ne.symm hx]

/-! ## C92, C93: a variable alone in brackets -/

/-- The text of a variable with at most a list of properties. -/
theorem getText_alone {U : PyUni} {ext : Externals} {d : Dictionary} {name : Str} {f : WordForm} {ps : List Properties}
    (he : GoodExternals ext) (hd : GoodDictionary d) (hf : ext.get? name = some f) (hp : ∀ p ∈ ps, WFProps p) :
    Substitution.getText U ⟨name, ps.map .props⟩ ext d = spoken U f.word (initialReading ext f (ps.map .props)) := by
  rw [getText_reading (s := ⟨name, ps.map .props⟩) he hd (by
    intro p h
    simp only [List.mem_map] at h
    obtain ⟨q, hq, h⟩ := h
    injection h with h; subst h; exact hp q hq) (.inl hf)]
  have : ∀ ps : List Properties, masters ext (ps.map .props) = .ok [] := by
    intro ps
    induction ps with
    | nil => rfl
    | cons p ps ih => exact ih
  rw [this]; rfl

/-- C92: `[variable]` is the text of the word under the properties given for the variable; those given as `form_properties` play no
part. -/
theorem C92_by_properties (U : PyUni) (ext : Externals) (d : Dictionary) (name : Str) (f : WordForm) (he : GoodExternals ext)
    (hd : GoodDictionary d) (hf : ext.get? name = some f) :
    Substitution.getText U ⟨name, []⟩ ext d = (WordForm.new f.word (some f.properties)).form U := by
  have hg := he _ _ hf
  have hwp := (accepted_iff.mp hg.1).1
  have ha := getText_alone (U := U) (ps := []) he hd hf (by simp)
  rw [List.map_nil] at ha
  rw [ha, C86_word_form U _ (goodForm_new hg.1 (by rintro _ ⟨⟩; exact hg.2.1) (by simp))]
  congr 1
  funext g
  show _ = (Properties.new [.props f.properties, .props f.word.properties]).get g
  rw [new2_get hg.2.1 hwp]
  rfl

/-- C92 (partial): a variable built without `form_properties` is replaced by its own text. Missing: variables with
`form_properties`, for which the claim is false (`C92_violated`). -/
theorem C92_own_text_partial (U : PyUni) (ext : Externals) (d : Dictionary) (name : Str) (w : Word) (p : Option Properties)
    (he : GoodExternals ext) (hd : GoodDictionary d) (hp : ∀ q, p = some q → WFProps q) (hf : ext.get? name = some (WordForm.new w p)) :
    Substitution.getText U ⟨name, []⟩ ext d = (WordForm.new w p).form U := by
  rw [C92_by_properties U ext d name _ he hd hf]
  have hg := he _ _ hf
  have hw : Accepted w := hg.1
  have hwp := (accepted_iff.mp hw).1
  have hg1 : WFProps (WordForm.new w p).properties := hg.2.1
  show (WordForm.new w (some (WordForm.new w p).properties)).form U = _
  rw [C86_word_form U _ hg, C86_word_form U _ (goodForm_new hw (by rintro _ ⟨⟩; exact hg1) (by simp))]
  congr 1
  funext g
  show (Properties.new [.props (WordForm.new w p).properties, .props w.properties]).get g = (WordForm.new w p).properties.get g
  rw [new2_get hg1 hwp]
  split
  · rename_i h
    cases p with
    | none => rfl
    | some q =>
      show _ = (Properties.new [.props q, .props w.properties]).get g
      rw [new2_get (hp q rfl) hwp, if_pos h]
  · rfl

/-- C92 is false of the code: a variable with `form_properties` is replaced by another text than its own. -/
theorem C92_violated (U : PyUni) : ∃ (ext : Externals) (name : Str) (f : WordForm), GoodExternals ext ∧ ext.get? name = some f ∧
    f.form U = .ok (str! "c") ∧ ∀ d, GoodDictionary d → Substitution.getText U ⟨name, []⟩ ext d = .ok (str! "a") := by
  have hgood : GoodForm (WordForm.new exNoun none (some (.new [.record .CASE_DATIVE]))) :=
    goodForm_new exNoun_accepted (by simp) (by rintro _ ⟨⟩; exact wf_new (by intro p hp; simp at hp))
  have he : GoodExternals [(str! "x", WordForm.new exNoun none (some (.new [.record .CASE_DATIVE])))] := by
    intro n f hf
    simp only [Dict.get?] at hf
    split at hf
    · injection hf with hf; subst hf; exact hgood
    · cases hf
  refine ⟨_, str! "x", _, he, rfl, ?_, ?_⟩
  · unfold WordForm.form
    rw [getForm_lower (by decide +kernel)]
    decide +kernel
  · intro d hd
    rw [C92_by_properties U _ d _ _ he hd rfl]
    unfold WordForm.form
    rw [getForm_lower (by decide +kernel)]
    decide +kernel

/-- C93: a variable built from a word alone. `[variable]` is the normal form of the word, `[variable|properties]` its form for the
properties, unless a capital letter is asked for. -/
theorem C93_readme (U : PyUni) (ext : Externals) (d : Dictionary) (name : Str) (w : Word) (p : Properties) (he : GoodExternals ext)
    (hd : GoodDictionary d) (hp : WFProps p) (hf : ext.get? name = some (WordForm.new w)) :
    (effective w w.properties .WORD_CASE ≠ some .WORD_CASE_UPPER → Substitution.getText U ⟨name, []⟩ ext d = w.normalForm) ∧
    (effective w p .WORD_CASE ≠ some .WORD_CASE_UPPER → Substitution.getText U ⟨name, [.props p]⟩ ext d = w.form p) ∧
    (effective w p .WORD_CASE = some .WORD_CASE_UPPER → ∀ c cs, w.form p = .ok (c :: cs) →
      Substitution.getText U ⟨name, [.props p]⟩ ext d = .ok (U.upperC c ++ cs)) := by
  have hw : Accepted w := (he _ _ hf).1
  have hwp := (accepted_iff.mp hw).1
  have e0 : initialReading ext (WordForm.new w) [] = effective w w.properties := by
    funext g
    show (if _ then _ else w.properties.get g) = _
    rw [← effective_eq hwp hwp, new2_get hwp hwp]
    rfl
  have e1 : initialReading ext (WordForm.new w) [.props p] = effective w p := by
    funext g
    unfold effective
    show (if w.properties.isSpecified g = true then w.properties.get g else
      match (if p.isSpecified g then p.get g else none) with
      | some r => some r
      | none => w.properties.get g) = _
    split
    · rfl
    · rename_i h
      cases hs : p.isSpecified g with
      | true =>
        rw [if_pos rfl, if_pos rfl]
        obtain ⟨r, hr⟩ := isSpecified_iff.mp hs
        simp [Properties.get, hr]
      | false =>
        rw [get_eq_ite_default w.properties g, if_neg h]
        rfl
  have a0 := getText_alone (U := U) (ps := []) he hd hf (by simp)
  have a1 := getText_alone (U := U) (ps := [p]) he hd hf (by simpa using hp)
  simp only [List.map_nil, List.map_cons, show (WordForm.new w).word = w from rfl] at a0 a1
  rw [e0] at a0; rw [e1] at a1
  refine ⟨?_, ?_, ?_⟩
  · intro h
    rw [a0]
    unfold spoken Word.normalForm
    rw [if_neg h, (C86_word w w.properties hw hwp).1]
  · intro h
    rw [a1]
    unfold spoken
    rw [if_neg h, (C86_word w p hw hp).1]
  · intro h c cs hc
    rw [a1]
    unfold spoken
    rw [(C86_word w p hw hp).1] at hc
    injection hc with hc
    rw [if_pos h, hc]

/-- A noun with small and with capital letter. -/
example : (exMany 1).get? (str! "w") = some (WordForm.new exNoun) ∧
    effective exNoun (.new [.record .CASE_DATIVE]) .WORD_CASE ≠ some .WORD_CASE_UPPER ∧
    effective exNoun (.new [.record .CASE_DATIVE, .record .WORD_CASE_UPPER]) .WORD_CASE = some .WORD_CASE_UPPER ∧
    exNoun.form (.new [.record .CASE_DATIVE]) = .ok (str! "c") ∧ exNoun.normalForm = .ok (str! "a") :=
  ⟨by decide +kernel, by decide +kernel, by decide +kernel, by decide +kernel, by decide +kernel⟩

end Utg
