import Verif.Spec.AnyExternals
import Verif.Props.Failures
/-!
# C136: externals that are no word forms
-/

namespace Utg
open Py Spec

theorem listPropertiesAny_forms {ext : AnyExternals} {forms : Externals} {deps : List Dep}
    (h : ∀ name, Dep.ext name ∈ deps → ext.get? name = (forms.get? name).map .form) :
    listPropertiesAny ext deps = (listProperties forms deps).map fun r => (r.1, r.2.map .form) := by
  induction deps with
  | nil => rfl
  | cons dep deps ih =>
    have ih := ih fun name hn => h name (List.mem_cons_of_mem _ hn)
    cases dep with
    | ext n =>
      simp only [listPropertiesAny, listProperties, h n (by simp)]
      cases forms.get? n with
      | none => rfl
      | some f =>
        simp only [Option.map_some, Given.properties, ih, bind, Except.bind]
        cases listProperties forms deps <;> rfl
    | props p =>
      simp only [listPropertiesAny, listProperties, ih, bind, Except.bind]
      cases listProperties forms deps <;> rfl

theorem foldlM_forms {U : PyUni} {w : Word} (fs : List WordForm) (p : Properties) :
    (fs.map Given.form).foldlM (fun ps x => do transform U w ps (← x.asForm)) p = fs.foldlM (fun ps f => transform U w ps f) p := by
  induction fs generalizing p with
  | nil => rfl
  | cons f fs ih =>
    simp only [List.map_cons, List.foldlM_cons, Given.asForm, bind, Except.bind]
    cases transform U w p f with
    | error e => rfl
    | ok q => exact ih q

/-- C136: what is given for names that a variable does not mention does not matter; if what it mentions are word forms, its text is
computed from these. -/
theorem C136_forms (U : PyUni) (ext : AnyExternals) (forms : Externals) (d : Dictionary) (s : Substitution) (h : AreForms ext forms s) :
    s.getTextAny U ext d = s.getText U forms d := by
  unfold Substitution.getTextAny Substitution.getText
  rw [listPropertiesAny_forms fun name hn => h name (.inr hn)]
  have hb : s.baseAny ext d = (s.baseForm forms d).map .form := by
    unfold Substitution.baseAny Substitution.baseForm
    rw [h s.id (.inl rfl)]
    cases forms.get? s.id with
    | some f => rfl
    | none => cases d.getWord s.id <;> rfl
  rw [hb]
  cases s.baseForm forms d with
  | error e => rfl
  | ok base =>
    cases listProperties forms s.dependencies with
    | error e => rfl
    | ok r =>
      simp only [Except.map, bind, Except.bind, Given.asForm]
      have := foldlM_forms (U := U) (w := base.word) r.2 (base.properties.clone ((r.1 ++ [base.word.properties]).map .props))
      simp only [bind, Except.bind, Given.asForm] at this
      rw [this]

theorem listAny_wf {ext : AnyExternals} {deps : List Dep} {r : List Properties × List Given} (h : listPropertiesAny ext deps = .ok r)
    (hg : GoodGiven ext) (hs : ∀ p, Dep.props p ∈ deps → WFProps p) : ∀ p ∈ r.1, WFProps p := by
  induction deps generalizing r with
  | nil => injection h with h; subst h; simp
  | cons dep deps ih =>
    have ih := fun r h => @ih r h fun p hp => hs p (List.mem_cons_of_mem _ hp)
    cases hl : listPropertiesAny ext deps with
    | error e =>
      cases dep with
      | ext n =>
        simp only [listPropertiesAny, hl, bind, Except.bind] at h
        cases hx : ext.get? n with
        | none => rw [hx] at h; cases h
        | some x => rw [hx] at h; simp only at h; cases hp : x.properties <;> rw [hp] at h <;> cases h
      | props p => simp only [listPropertiesAny, hl, bind, Except.bind] at h; cases h
    | ok r' =>
      have ih := ih r' hl
      cases dep with
      | ext n =>
        simp only [listPropertiesAny, hl, bind, Except.bind] at h
        cases hx : ext.get? n with
        | none => rw [hx] at h; cases h
        | some x =>
          rw [hx] at h; simp only at h
          cases hp : x.properties with
          | error e => rw [hp] at h; cases h
          | ok p =>
            rw [hp] at h; injection h with h; subst h
            intro q hq
            rcases List.mem_cons.mp hq with rfl | hq
            · cases x with
              | form f => injection hp with hp; rw [← hp]; exact (hg.1 _ _ hx).2.1
              | word w => injection hp with hp; rw [← hp]; exact (accepted_iff.mp (hg.2 _ _ hx)).1
              | other => cases hp
            · exact ih q hq
      | props p =>
        simp only [listPropertiesAny, hl, bind, Except.bind] at h
        injection h with h; subst h
        intro q hq
        rcases List.mem_cons.mp hq with rfl | hq
        · exact hs _ (by simp)
        · exact ih q hq

theorem listAny_outcome {ext : AnyExternals} {deps : List Dep} :
    (∃ r, listPropertiesAny ext deps = .ok r ∧ ∀ x, x ∈ r.2 ↔ ∃ name, Dep.ext name ∈ deps ∧ ext.get? name = some x) ∨
    listPropertiesAny ext deps = .error .AttributeError ∨
    ∃ n, Dep.ext n ∈ deps ∧ ext.get? n = none ∧ listPropertiesAny ext deps = .error (.ExternalDependecyNotFoundError n) := by
  induction deps with
  | nil => exact .inl ⟨_, rfl, by simp⟩
  | cons dep deps ih =>
    cases dep with
    | ext n =>
      cases hx : ext.get? n with
      | none => exact .inr (.inr ⟨n, by simp, hx, by simp [listPropertiesAny, hx]⟩)
      | some x =>
        cases hp : x.properties with
        | error e =>
          refine .inr (.inl ?_)
          have : e = .AttributeError := by cases x <;> simp [Given.properties] at hp; exact hp.symm
          simp [listPropertiesAny, hx, hp, bind, Except.bind, this]
        | ok p =>
          rcases ih with ⟨r, hr, hm⟩ | hr | ⟨m, h1, h2, hr⟩
          · refine .inl ⟨(p :: r.1, x :: r.2), by simp [listPropertiesAny, hx, hp, hr, bind, Except.bind], ?_⟩
            intro y
            simp only [List.mem_cons, Dep.ext.injEq, hm]
            constructor
            · rintro (rfl | ⟨m, h1, h2⟩)
              · exact ⟨n, .inl rfl, hx⟩
              · exact ⟨m, .inr h1, h2⟩
            · rintro ⟨m, rfl | h1, h2⟩
              · rw [hx] at h2; injection h2 with h2; exact .inl h2.symm
              · exact .inr ⟨m, h1, h2⟩
          · exact .inr (.inl (by simp [listPropertiesAny, hx, hp, hr, bind, Except.bind]))
          · exact .inr (.inr ⟨m, by simp [h1], h2, by simp [listPropertiesAny, hx, hp, hr, bind, Except.bind]⟩)
    | props p =>
      rcases ih with ⟨r, hr, hm⟩ | hr | ⟨m, h1, h2, hr⟩
      · refine .inl ⟨(p :: r.1, r.2), by simp [listPropertiesAny, hr, bind, Except.bind], ?_⟩
        intro y; simp [hm]
      · exact .inr (.inl (by simp [listPropertiesAny, hr, bind, Except.bind]))
      · exact .inr (.inr ⟨m, by simp [h1], h2, by simp [listPropertiesAny, hr, bind, Except.bind]⟩)

theorem foldlM_misgiven {U : PyUni} {w : Word} {xs : List Given} {p : Properties} (hx : ∃ x ∈ xs, ∀ f, x ≠ Given.form f) :
    ∃ e, xs.foldlM (fun ps x => do transform U w ps (← x.asForm)) p = .error e ∧
      (Accepted w → WFProps p → (∀ f, Given.form f ∈ xs → GoodForm f) → e = .AttributeError ∨ w.type = .PREPOSITION ∧ e = .IndexError) := by
  induction xs generalizing p with
  | nil => obtain ⟨x, hx, -⟩ := hx; simp at hx
  | cons y xs ih =>
    simp only [List.foldlM_cons]
    cases y with
    | word v => exact ⟨_, rfl, fun _ _ _ => .inl rfl⟩
    | other => exact ⟨_, rfl, fun _ _ _ => .inl rfl⟩
    | form f =>
      have hx' : ∃ x ∈ xs, ∀ f, x ≠ Given.form f := by
        obtain ⟨x, h1, h2⟩ := hx
        rcases List.mem_cons.mp h1 with rfl | h1
        · exact absurd rfl (h2 f)
        · exact ⟨x, h1, h2⟩
      simp only [Given.asForm, bind, Except.bind]
      cases ht : transform U w p f with
      | error e =>
        refine ⟨e, rfl, fun hw hp hg => ?_⟩
        have hf := hg f (by simp)
        rcases transform_cases w f with h | ⟨h1, h2⟩ | ⟨h1, h2⟩ | ⟨h1, h2⟩
        · rcases transform_error (U := U) hw hf hp with ⟨q, hq⟩ | hq
          · rw [ht] at hq; cases hq
          · rw [ht] at hq; injection hq with hq; exact .inr ⟨h, hq⟩
        · rw [C40_other_pairs U w p f h1 h2] at ht; cases ht
        · obtain ⟨_, _, _, _, q, _, _, _, _, h, _⟩ := C38_never_fails U w p f hp h1 h2
          rw [ht] at h; cases h
        · obtain ⟨_, _, _, _, q, _, _, _, _, h, _⟩ := C39_never_fails U w p f hp h1 h2
          rw [ht] at h; cases h
      | ok q =>
        obtain ⟨e, he, hk⟩ := ih (p := q) hx'
        exact ⟨e, he, fun hw hp hg => hk hw (transform_wf hp ht) fun f hf => hg f (List.mem_cons_of_mem _ hf)⟩

/-- C136: if a variable mentions a name for which no word form was given, `get_text` raises: `AttributeError`, unless another problem is
met before (an unknown word, a missing external, or a preposition in front of an empty text). -/
theorem C136_raises (U : PyUni) (ext : AnyExternals) (d : Dictionary) (s : Substitution) (name : Str) (h : RefersTo s name) (hm : Misgiven ext name) :
    ∃ e, s.getTextAny U ext d = .error e ∧
      (GoodGiven ext → GoodDictionary d → GoodSubstitution s →
        e = .AttributeError ∨ (ext.get? s.id = none ∧ d.hasWord s.id = false ∧ e = .NoWordsFoundError s.id) ∨
        (∃ n, Dep.ext n ∈ s.dependencies ∧ ext.get? n = none ∧ e = .ExternalDependecyNotFoundError n) ∨
        ∃ base, s.baseAny ext d = .ok (.form base) ∧ base.word.type = .PREPOSITION ∧ e = .IndexError) := by
  obtain ⟨x, hx, hnf⟩ := hm
  unfold Substitution.getTextAny
  cases hb : s.baseAny ext d with
  | error e =>
    refine ⟨e, rfl, fun _ _ _ => .inr (.inl ?_)⟩
    unfold Substitution.baseAny at hb
    cases hi : ext.get? s.id with
    | some y => rw [hi] at hb; cases hb
    | none =>
      rw [hi] at hb
      unfold Dictionary.getWord at hb
      cases hg : Dict.get? d s.id with
      | some f => rw [hg] at hb; cases hb
      | none =>
        rw [hg] at hb
        simp only [bind, Except.bind] at hb
        injection hb with hb
        refine ⟨rfl, ?_, hb.symm⟩
        unfold Dictionary.hasWord Dict.contains
        rw [hg]; rfl
  | ok base =>
    rcases listAny_outcome (ext := ext) (deps := s.dependencies) with ⟨r, hr, hmem⟩ | hr | ⟨n, h1, h2, hr⟩
    · simp only [hr, bind, Except.bind]
      cases base with
      | word w => exact ⟨_, rfl, fun _ _ _ => .inl rfl⟩
      | other => exact ⟨_, rfl, fun _ _ _ => .inl rfl⟩
      | form f =>
        have hdep : Dep.ext name ∈ s.dependencies := by
          rcases h with h | h
          · unfold Substitution.baseAny at hb
            rw [h, hx] at hb
            injection hb with hb
            exact absurd hb (hnf f)
          · exact h
        obtain ⟨e, he, hk⟩ := foldlM_misgiven (U := U) (w := f.word)
          (p := f.properties.clone ((r.1 ++ [f.word.properties]).map .props)) ⟨x, (hmem x).mpr ⟨name, hdep, hx⟩, hnf⟩
        simp only [bind, Except.bind] at he
        simp only [Given.asForm] at he ⊢
        rw [he]
        refine ⟨e, rfl, fun hgood hd hs => ?_⟩
        have hf : GoodForm f := by
          unfold Substitution.baseAny at hb
          cases hi : ext.get? s.id with
          | some y => rw [hi] at hb; injection hb with hb; subst hb; exact hgood.1 _ _ hi
          | none =>
            rw [hi] at hb
            cases hg : d.getWord s.id with
            | error e => rw [hg] at hb; cases hb
            | ok g =>
              rw [hg] at hb; simp only [bind, Except.bind] at hb
              injection hb with hb; injection hb with hb; subst hb
              exact hd _ _ hg
        have hwf : WFProps (f.properties.clone ((r.1 ++ [f.word.properties]).map .props)) := by
          refine wf_new (wfargs_cons (by rintro _ ⟨⟩; exact hf.2.1) (wfargs_props ?_))
          intro p hp
          rcases List.mem_append.mp hp with hp | hp
          · exact listAny_wf hr hgood hs p hp
          · rw [List.mem_singleton.mp hp]; exact (accepted_iff.mp hf.1).1
        rcases hk hf.1 hwf (fun g hg => by obtain ⟨n, -, hn⟩ := (hmem _).mp hg; exact hgood.1 _ _ hn) with rfl | ⟨h1, rfl⟩
        · exact .inl rfl
        · exact .inr (.inr (.inr ⟨f, rfl, h1, rfl⟩))
    · refine ⟨.AttributeError, ?_, fun _ _ _ => .inl rfl⟩
      simp only [hr, bind, Except.bind]
    · refine ⟨.ExternalDependecyNotFoundError n, ?_, fun _ _ _ => .inr (.inr (.inl ⟨n, h1, h2, rfl⟩))⟩
      simp only [hr, bind, Except.bind]

/-- C136: exactly `AttributeError` if the variable is no preposition, its head is known, and something is given for every name. -/
theorem C136_attribute_error (U : PyUni) (ext : AnyExternals) (d : Dictionary) (s : Substitution) (name : Str) (h : RefersTo s name)
    (hm : Misgiven ext name) (hg : GoodGiven ext) (hd : GoodDictionary d) (hs : GoodSubstitution s)
    (hid : (∃ x, ext.get? s.id = some x) ∨ d.hasWord s.id = true) (hdeps : ∀ n, Dep.ext n ∈ s.dependencies → ∃ x, ext.get? n = some x)
    (hp : ∀ base, s.baseAny ext d = .ok (.form base) → base.word.type ≠ .PREPOSITION) :
    s.getTextAny U ext d = .error .AttributeError := by
  obtain ⟨e, he, hk⟩ := C136_raises U ext d s name h hm
  rw [he]
  rcases hk hg hd hs with rfl | ⟨h1, h2, -⟩ | ⟨n, h1, h2, -⟩ | ⟨base, h1, h2, -⟩
  · rfl
  · rcases hid with ⟨x, hx⟩ | hx
    · rw [h1] at hx; cases hx
    · rw [h2] at hx; cases hx
  · obtain ⟨x, hx⟩ := hdeps n h1; rw [h2] at hx; cases hx
  · exact absurd h2 (hp base h1)

/-- C136: so a template is filled only if word forms are given for all names it mentions, and then with their texts. -/
theorem C136_template (U : PyUni) (ext : AnyExternals) (d : Dictionary) (t : Template) :
    (∀ out, t.substituteAny U ext d = .ok out → ∀ s ∈ t.substitutions, ∀ name, RefersTo s name → ¬ Misgiven ext name) ∧
    ∀ forms, (∀ s ∈ t.substitutions, AreForms ext forms s) → t.substituteAny U ext d = t.substitute U forms d := by
  refine ⟨?_, ?_⟩
  · intro out ho s hs name hn hm
    obtain ⟨e, he, -⟩ := C136_raises U ext d s name hn hm
    unfold Template.substituteAny at ho
    cases hl : t.substitutions.mapM (fun s => s.getTextAny U ext d) with
    | error e => rw [hl] at ho; cases ho
    | ok texts =>
      obtain ⟨i, hi, rfl⟩ := List.mem_iff_getElem.mp hs
      have := List.forall₂_iff_get.mp (forall₂_of_mapM hl)
      have h2 := this.2 i hi (by rw [← this.1]; exact hi)
      simp only [List.get_eq_getElem, he] at h2
      cases h2
  · intro forms hf
    unfold Template.substituteAny Template.substitute
    have : t.substitutions.mapM (fun s => s.getTextAny U ext d) = t.substitutions.mapM (fun s => s.getText U forms d) := by
      have key : ∀ l : List Substitution, (∀ s ∈ l, AreForms ext forms s) →
          l.mapM (fun s => s.getTextAny U ext d) = l.mapM (fun s => s.getText U forms d) := by
        intro l hl
        induction l with
        | nil => rfl
        | cons s l ih =>
          rw [List.mapM_cons, List.mapM_cons, C136_forms U ext forms d s (hl s (by simp)), ih fun s' hs' => hl s' (List.mem_cons_of_mem _ hs')]
      exact key _ hf
    rw [this]
    rfl

/-- The hypotheses of C136 are met: `[a|n]` with the noun itself, not its form, given for `n`; and with a number given for `a`. -/
example : RefersTo ⟨str! "a", [.ext (str! "n")]⟩ (str! "n") ∧
    Misgiven [(str! "a", .form (WordForm.new exNoun)), (str! "n", .word exNoun)] (str! "n") ∧
    Substitution.getTextAny exPy ⟨str! "a", [.ext (str! "n")]⟩ [(str! "a", .form (WordForm.new exNoun)), (str! "n", .word exNoun)] [] =
      .error .AttributeError ∧
    Substitution.getTextAny exPy ⟨str! "a", []⟩ [(str! "a", .form (WordForm.new exNoun)), (str! "n", .word exNoun)] [] = .ok (str! "a") ∧
    Substitution.getTextAny exPy ⟨str! "a", []⟩ [(str! "a", .other)] [] = .error .AttributeError :=
  ⟨.inr (by simp), ⟨_, rfl, by simp⟩, by decide +kernel, by decide +kernel, by decide +kernel⟩

end Utg
