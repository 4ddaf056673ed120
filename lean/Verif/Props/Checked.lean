import Verif.Props.Counted
/-! # C48 - C51: externals, checks and serialization of templates -/

namespace Utg
open Py Spec

/-! ## C48 -/

/-- C48: if the id names an external, the dictionary is irrelevant. -/
theorem C48_external_shadows (U : PyUni) (ext : Externals) (d d' : Dictionary) (s : Substitution) (f : WordForm)
    (h : ext.get? s.id = some f) : s.getText U ext d = s.getText U ext d' := by
  unfold Substitution.getText Substitution.baseForm
  rw [h]

/-- C48: if the id names no external, only the dictionary entry of the id matters. -/
theorem C48_dictionary_entry (U : PyUni) (ext : Externals) (d d' : Dictionary) (s : Substitution)
    (h : d.getWord s.id = d'.getWord s.id) : s.getText U ext d = s.getText U ext d' := by
  unfold Substitution.getText Substitution.baseForm
  rw [h]

theorem listProperties_congr {ext ext' : Externals} {deps : List Dep} (h : ∀ n, Dep.ext n ∈ deps → ext.get? n = ext'.get? n) :
    listProperties ext deps = listProperties ext' deps := by
  induction deps with
  | nil => rfl
  | cons dep deps ih =>
    have ih := ih (fun n hn => h n (List.mem_cons_of_mem _ hn))
    cases dep with
    | props p => rw [listProperties, listProperties, ih]
    | ext n => rw [listProperties, listProperties, ih, h n (by simp)]

/-- C48: externals named neither by the id nor by a dependency are irrelevant. -/
theorem C48_irrelevant_externals (U : PyUni) (ext ext' : Externals) (d : Dictionary) (s : Substitution)
    (hid : ext.get? s.id = ext'.get? s.id) (h : ∀ n, Dep.ext n ∈ s.dependencies → ext.get? n = ext'.get? n) :
    s.getText U ext d = s.getText U ext' d := by
  unfold Substitution.getText Substitution.baseForm
  rw [hid, listProperties_congr h]

/-- C48: a whole template depends only on the externals and dictionary entries its substitutions name. -/
theorem C48_template (U : PyUni) (ext ext' : Externals) (d d' : Dictionary) (t : Template)
    (hid : ∀ s ∈ t.substitutions, ext.get? s.id = ext'.get? s.id)
    (hdep : ∀ s ∈ t.substitutions, ∀ n, Dep.ext n ∈ s.dependencies → ext.get? n = ext'.get? n)
    (hd : ∀ s ∈ t.substitutions, ext.get? s.id = none → d.getWord s.id = d'.getWord s.id) :
    t.substitute U ext d = t.substitute U ext' d' := by
  unfold Template.substitute
  have : (t.substitutions.mapM fun s => s.getText U ext d) = t.substitutions.mapM fun s => s.getText U ext' d' := by
    generalize t.substitutions = l at *
    induction l with
    | nil => rfl
    | cons s l ih =>
      rw [List.mapM_cons, List.mapM_cons, ih (fun x hx => hid x (by simp [hx])) (fun x hx => hdep x (by simp [hx])) (fun x hx => hd x (by simp [hx])),
        C48_irrelevant_externals U ext ext' d s (hid s (by simp)) (hdep s (by simp))]
      cases hn : ext'.get? s.id with
      | some f => rw [C48_external_shadows U ext' d d' s f hn]
      | none => rw [C48_dictionary_entry U ext' d d' s (hd s (by simp) (by rw [hid s (by simp), hn]))]
  rw [this]

/-- The number 5 is irrelevant to `[w|two]`. -/
example (U : PyUni) (d d' : Dictionary) : Substitution.getText U ⟨str! "w", [.ext (str! "two")]⟩ exNumbers d =
    Substitution.getText U ⟨str! "w", [.ext (str! "two")]⟩ (exNumbers.take 2) d' := by
  rw [C48_external_shadows U exNumbers d d' _ (WordForm.new exNoun) (by decide +kernel)]
  refine C48_irrelevant_externals U _ _ _ _ (by decide +kernel) ?_
  intro n hn; simp at hn; subst hn; decide +kernel

/-! ## C49 -/

/-- C49: `get_undictionaried_words` lists the unknown ids, in order and with repetitions. -/
theorem C49_exact (t : Template) (names : List Str) (d : Dictionary) :
    t.getUndictionariedWords names d =
      (t.substitutions.map Substitution.id).filter fun id => decide (id ∉ names) && !(d.hasWord id) := by
  unfold Template.getUndictionariedWords
  generalize t.substitutions = l
  induction l with
  | nil => rfl
  | cons s l ih =>
    rw [List.filterMap_cons, List.map_cons, List.filter_cons, ih]
    by_cases h1 : s.id ∈ names
    · simp [h1]
    · cases h2 : d.hasWord s.id <;> simp [h1]

theorem hasWord_iff (d : Dictionary) (t : Str) : d.hasWord t = true ↔ ∃ f, d.getWord t = .ok f := by
  unfold Dictionary.hasWord Dictionary.getWord Dict.contains
  cases Dict.get? d t <;> simp

theorem resolves_iff (ext : Externals) (d : Dictionary) (id : Str) :
    (∃ f, Resolves ext d id f) ↔ (∃ f, ext.get? id = some f) ∨ d.hasWord id = true := by
  rw [hasWord_iff]
  constructor
  · rintro ⟨f, h | ⟨_, h⟩⟩
    · exact .inl ⟨f, h⟩
    · exact .inr ⟨f, h⟩
  · rintro (⟨f, h⟩ | ⟨f, h⟩)
    · exact ⟨f, .inl h⟩
    · cases hx : ext.get? id with
      | none => exact ⟨f, .inr ⟨hx, h⟩⟩
      | some f' => exact ⟨f', .inl hx⟩

/-- Spelling a good word form fails only on an empty form to be capitalised. -/
theorem getForm_error {U : PyUni} {w : Word} {q : Properties} (hw : Accepted w) (hq : WFProps q) :
    (∃ text, WordForm.getForm U w q = .ok text) ∨ WordForm.getForm U w q = .error .IndexError := by
  obtain ⟨f, _, hf⟩ := formRaw_ok (accepted_iff.mp hw).2 hq
  rcases wordCase_cases q hq with h | h
  · rw [getForm_lower h, hf]; exact .inl ⟨f, rfl⟩
  · rw [getForm_upper h, hf]
    cases f with
    | nil => exact .inr rfl
    | cons c cs => exact .inl ⟨_, rfl⟩

theorem transform_error {U : PyUni} {w : Word} {f : WordForm} {p : Properties} (hw : Accepted w) (hf : GoodForm f) (hp : WFProps p) :
    (∃ q, transform U w p f = .ok q) ∨ transform U w p f = .error .IndexError := by
  rcases transform_cases w f with h | ⟨h1, h2⟩ | ⟨h1, h2⟩ | ⟨h1, h2⟩
  · obtain ⟨h3, h4⟩ := accepted_iff.mp hw
    obtain ⟨prep, _, hn⟩ : ∃ prep ∈ w.forms, w.normalForm = .ok prep := formRaw_ok h4 (wf_new2 h3 h3)
    by_cases hpn : prep = []
    · exact .inr (C42_empty_texts U w p f prep h hn (.inl hpn))
    · rcases getForm_error (U := U) hf.1 hf.2.2 with ⟨next, hx⟩ | hx
      · by_cases hne : next = []
        · subst hne; exact .inr (C42_empty_texts U w p f prep h hn (.inr hx))
        · obtain ⟨_, q, hq, _⟩ := C42_preposition U w p f prep next hp h hf.1 hn hpn hx hne
          exact .inl ⟨q, hq⟩
      · right
        have hx' : f.form U = .error .IndexError := hx
        have hl : ∃ c, Py.last prep = .ok c := by
          unfold Py.last
          cases hg : prep.getLast? with
          | none => exact absurd (List.getLast?_eq_none_iff.mp hg) hpn
          | some c => exact ⟨c, rfl⟩
        obtain ⟨c, hc⟩ := hl
        rw [transform_preposition h]
        unfold prepositionAny consonantPrepositionAny vowelsPrepositionAny
        simp only [hn, hc, hx', bind, Except.bind]
        split <;> rfl
  · exact .inl ⟨p, C40_other_pairs U w p f h1 h2⟩
  · obtain ⟨_, _, _, _, q, _, _, _, _, h, _⟩ := C38_never_fails U w p f hp h1 h2
    exact .inl ⟨q, h⟩
  · obtain ⟨_, _, _, _, q, _, _, _, _, h, _⟩ := C39_never_fails U w p f hp h1 h2
    exact .inl ⟨q, h⟩

theorem foldlM_error {U : PyUni} {w : Word} {fs : List WordForm} {p : Properties} (hw : Accepted w) (hf : ∀ f ∈ fs, GoodForm f)
    (hp : WFProps p) :
    (∃ q, fs.foldlM (fun ps external => transform U w ps external) p = .ok q ∧ WFProps q) ∨
      fs.foldlM (fun ps external => transform U w ps external) p = .error .IndexError := by
  induction fs generalizing p with
  | nil => exact .inl ⟨p, rfl, hp⟩
  | cons f fs ih =>
    rw [List.foldlM_cons]
    rcases transform_error (U := U) hw (hf f (by simp)) hp with ⟨q, h⟩ | h
    · rw [h]; exact ih (fun x hx => hf x (List.mem_cons_of_mem _ hx)) (transform_wf hp h)
    · rw [h]; exact .inr rfl

theorem depForms_good {ext : Externals} {deps : List Dep} (he : GoodExternals ext) : ∀ f ∈ deps.filterMap (depForm ext), GoodForm f := by
  intro f hf
  rw [List.mem_filterMap] at hf
  obtain ⟨dep, _, h⟩ := hf
  cases dep with
  | props p => simp [depForm] at h
  | ext n => exact he n f h

/-- C49: what a substitution can raise: an unknown id gives NoWordsFoundError; else a missing external gives
ExternalDependecyNotFoundError; else only IndexError is possible, for an empty form. -/
theorem C49_errors (U : PyUni) (ext : Externals) (d : Dictionary) (s : Substitution) (he : GoodExternals ext) (hd : GoodDictionary d)
    (hs : GoodSubstitution s) :
    ((¬ ∃ f, Resolves ext d s.id f) → s.getText U ext d = .error (.NoWordsFoundError s.id)) ∧
    ((∃ f, Resolves ext d s.id f) →
      (∀ pre n post, s.dependencies = pre ++ Dep.ext n :: post → (∀ m, Dep.ext m ∈ pre → ∃ f, ext.get? m = some f) → ext.get? n = none →
        s.getText U ext d = .error (.ExternalDependecyNotFoundError n)) ∧
      ((∀ n, Dep.ext n ∈ s.dependencies → ∃ f, ext.get? n = some f) →
        (∃ text, s.getText U ext d = .ok text) ∨ s.getText U ext d = .error .IndexError)) := by
  refine ⟨?_, ?_⟩
  · intro h
    rw [resolves_iff, hasWord_iff] at h
    unfold Substitution.getText Substitution.baseForm
    cases h1 : ext.get? s.id with
    | some f => exact absurd (.inl ⟨f, h1⟩) h
    | none =>
      have h2 : d.getWord s.id = .error (.NoWordsFoundError s.id) := by
        unfold Dictionary.getWord at h ⊢
        cases hx : Dict.get? d s.id with
        | none => rfl
        | some f => exact absurd (.inr ⟨f, by rw [hx]⟩) h
      simp only [h2]; rfl
  · rintro ⟨base, hr⟩
    have hb := resolves_good he hd hr
    refine ⟨?_, ?_⟩
    · intro pre n post h1 h2 h3
      unfold Substitution.getText
      rw [baseForm_resolves.mp hr, h1, listProperties_missing h2 h3]; rfl
    · intro hsup
      rw [getText_eq hr hsup]
      rcases foldlM_error (U := U) hb.1 (depForms_good he) (collected_wf he hb hs) with ⟨q, h, hq⟩ | h
      · rw [h]; exact getForm_error hb.1 hq
      · rw [h]; exact .inr rfl

/-- C49: the list is empty iff no substitution of the template raises NoWordsFoundError. -/
theorem C49_empty_iff (U : PyUni) (ext : Externals) (d : Dictionary) (t : Template) (names : List Str) (he : GoodExternals ext)
    (hd : GoodDictionary d) (hs : ∀ s ∈ t.substitutions, GoodSubstitution s) (hn : ∀ n, n ∈ names ↔ ∃ f, ext.get? n = some f) :
    t.getUndictionariedWords names d = [] ↔
      ∀ s ∈ t.substitutions, ∀ id, s.getText U ext d ≠ .error (.NoWordsFoundError id) := by
  rw [C49_exact, List.filter_eq_nil_iff]
  constructor
  · intro h s hsm id he'
    have h1 := h s.id (List.mem_map.mpr ⟨s, hsm, rfl⟩)
    have hr : ∃ f, Resolves ext d s.id f := by
      rw [resolves_iff]
      by_cases hx : s.id ∈ names
      · exact .inl ((hn _).mp hx)
      · right; simpa [hx] using h1
    obtain ⟨_, h3⟩ := C49_errors U ext d s he hd (hs s hsm)
    obtain ⟨h4, h5⟩ := h3 hr
    rcases missing_or ext s.dependencies with hsup | ⟨pre, n, post, k1, k2, k3⟩
    · rcases h5 hsup with ⟨x, hx⟩ | hx <;> rw [hx] at he' <;> simp at he'
    · rw [h4 pre n post k1 k2 k3] at he'; simp at he'
  · intro h id hid
    rw [List.mem_map] at hid
    obtain ⟨s, hsm, rfl⟩ := hid
    intro hc
    simp only [Bool.and_eq_true, decide_eq_true_eq, Bool.not_eq_true'] at hc
    apply h s hsm s.id
    apply (C49_errors U ext d s he hd (hs s hsm)).1
    rw [resolves_iff, ← hn]
    rintro (h1 | h1)
    · exact hc.1 h1
    · rw [hc.2] at h1; cases h1

/-- A template with two unknown ids, one of them twice. -/
example : Template.getUndictionariedWords ⟨[⟨str! "w", []⟩, ⟨str! "x", []⟩, ⟨str! "y", []⟩, ⟨str! "x", []⟩], none⟩ [str! "w"] [] =
    [str! "x", str! "y", str! "x"] := by decide

/-! ## C50 -/

theorem parseDependency_good {U : PyUni} {names : List Str} {slug : Str} {dep : Dep} (h : parseDependency U names slug = .ok dep) :
    (∀ n, dep = .ext n → n ∈ names) ∧ ∀ p, dep = .props p → WFProps p := by
  unfold parseDependency at h
  simp only at h
  split at h
  · rename_i hm
    injection h with h; subst h
    refine ⟨?_, by simp⟩
    intro n hn; injection hn with hn; subst hn; exact hm
  · unfold parseProperties at h
    cases hx : parsePropertiesLoop (split ',' (strip U (U.lower slug))) with
    | error e => simp [hx, bind, Except.bind] at h
    | ok rs =>
      simp [hx, bind, Except.bind] at h
      subst h
      refine ⟨by simp, ?_⟩
      intro p hp; injection hp with hp; subst hp
      exact wf_new (by intro p hp; simp at hp)

/-- Parsed variables have well-formed property lists and depend on the announced externals only. -/
theorem parse_good {U : PyUni} {names : List Str} {v : Str} {s : Substitution} (h : Substitution.parse U v names = .ok s) :
    GoodSubstitution s ∧ ∀ n, Dep.ext n ∈ s.dependencies → n ∈ names := by
  unfold Substitution.parse at h
  split at h
  · cases h
  · rename_i head slugs _
    split at h
    · cases h
    · cases hm : slugs.mapM (parseDependency U names) with
      | error e => simp [hm, bind, Except.bind] at h
      | ok deps =>
        cases hc : Py.first (strip U head) with
        | error e => simp [hm, hc, bind, Except.bind] at h
        | ok c =>
          simp [hm, hc, bind, Except.bind] at h
          have hall : ∀ dep ∈ deps, ∃ slug, parseDependency U names slug = .ok dep := by
            have h2 := forall₂_of_mapM hm
            intro dep hdep
            obtain ⟨i, hi⟩ := List.mem_iff_getElem?.mp hdep
            have hlen := h2.length_eq
            have hi' : i < deps.length := (List.getElem?_eq_some_iff.mp hi).1
            rw [List.forall₂_iff_get] at h2
            refine ⟨slugs[i], ?_⟩
            have h3 := h2.2 i (by omega) hi'
            simp only [List.get_eq_getElem] at h3
            rw [h3]
            rw [(List.getElem?_eq_some_iff.mp hi).2]
          have hprops : ∀ dep ∈ s.dependencies, dep ∈ deps ∨ dep = .props (.new [.record .WORD_CASE_UPPER]) := by
            subst h
            intro dep hdep
            simp only at hdep
            split at hdep
            · simpa using hdep
            · exact .inl hdep
          refine ⟨?_, ?_⟩
          · intro p hp
            rcases hprops _ hp with h1 | h1
            · obtain ⟨slug, h2⟩ := hall _ h1
              exact (parseDependency_good h2).2 p rfl
            · injection h1 with h1; subst h1; exact wf_new (by intro p hp; simp at hp)
          · intro n hn
            rcases hprops _ hn with h1 | h1
            · obtain ⟨slug, h2⟩ := hall _ h1
              exact (parseDependency_good h2).1 n rfl
            · cases h1

theorem forall₂_right {α β : Type} {R : α → β → Prop} {l : List α} {l' : List β} (h : List.Forall₂ R l l') :
    ∀ b ∈ l', ∃ a ∈ l, R a b := by
  induction h with
  | nil => simp
  | cons hr _ ih =>
    intro b hb
    rcases List.mem_cons.mp hb with rfl | hb
    · exact ⟨_, by simp, hr⟩
    · obtain ⟨a, ha, h⟩ := ih b hb; exact ⟨a, by simp [ha], h⟩

theorem template_good {U : PyUni} {names : List Str} {text : Str} {t : Template} (h : Template.empty.parse U text names = .ok t) :
    ∀ s ∈ t.substitutions, GoodSubstitution s ∧ ∀ n, Dep.ext n ∈ s.dependencies → n ∈ names := by
  obtain ⟨l, ps, hp, _⟩ := C45_pieces_unique text
  obtain ⟨h1, _⟩ := (C45_parse U names text l ps t hp).mp h
  intro s hs
  obtain ⟨a, _, ha⟩ := forall₂_right h1 s hs
  exact parse_good ha

theorem getForm_nonempty {U : PyUni} {w : Word} {q : Properties} (hU : ∀ c, U.upperC c ≠ []) (hw : Accepted w) (hq : WFProps q)
    (hne : ∀ x ∈ w.forms, x ≠ []) : ∃ text, WordForm.getForm U w q = .ok text ∧ text ≠ [] := by
  obtain ⟨f, hm, hf⟩ := formRaw_ok (accepted_iff.mp hw).2 hq
  have hfn := hne f hm
  rcases wordCase_cases q hq with h | h
  · rw [getForm_lower h, hf]; exact ⟨f, rfl, hfn⟩
  · rw [getForm_upper h, hf]
    cases f with
    | nil => exact absurd rfl hfn
    | cons c cs => exact ⟨_, rfl, by simp [hU c]⟩

theorem foldlM_total {U : PyUni} {w : Word} {fs : List WordForm} {p : Properties} (hU : ∀ c, U.upperC c ≠ []) (hw : Accepted w)
    (hwn : ∀ x ∈ w.forms, x ≠ []) (hf : ∀ f ∈ fs, GoodForm f ∧ NonEmptyForms f) (hp : WFProps p) :
    ∃ q, fs.foldlM (fun ps external => transform U w ps external) p = .ok q ∧ WFProps q := by
  induction fs generalizing p with
  | nil => exact ⟨p, rfl, hp⟩
  | cons f fs ih =>
    rw [List.foldlM_cons]
    obtain ⟨hfg, hfn⟩ := hf f (by simp)
    have : ∃ q, transform U w p f = .ok q := by
      rcases transform_cases w f with h | ⟨h1, h2⟩ | ⟨h1, h2⟩ | ⟨h1, h2⟩
      · obtain ⟨h3, h4⟩ := accepted_iff.mp hw
        obtain ⟨prep, hm, hn⟩ : ∃ prep ∈ w.forms, w.normalForm = .ok prep := formRaw_ok h4 (wf_new2 h3 h3)
        obtain ⟨next, hx, hne⟩ := getForm_nonempty hU hfg.1 hfg.2.2 hfn
        obtain ⟨_, q, hq, _⟩ := C42_preposition U w p f prep next hp h hfg.1 hn (hwn prep hm) hx hne
        exact ⟨q, hq⟩
      · exact ⟨p, C40_other_pairs U w p f h1 h2⟩
      · obtain ⟨_, _, _, _, q, _, _, _, _, h, _⟩ := C38_never_fails U w p f hp h1 h2
        exact ⟨q, h⟩
      · obtain ⟨_, _, _, _, q, _, _, _, _, h, _⟩ := C39_never_fails U w p f hp h1 h2
        exact ⟨q, h⟩
    obtain ⟨q, hq⟩ := this
    rw [hq]; exact ih (fun x hx => hf x (List.mem_cons_of_mem _ hx)) (transform_wf hp hq)

/-- C50: a substitution whose id is known, whose externals are supplied and whose words have no empty forms has a text. -/
theorem C50_substitution (U : PyUni) (ext : Externals) (d : Dictionary) (s : Substitution) (base : WordForm)
    (hU : ∀ c, U.upperC c ≠ []) (he : GoodExternals ext) (hd : GoodDictionary d) (hs : GoodSubstitution s)
    (hen : ∀ n f, ext.get? n = some f → NonEmptyForms f) (hdn : ∀ x f, d.getWord x = .ok f → NonEmptyForms f)
    (hr : Resolves ext d s.id base) (hsup : ∀ n, Dep.ext n ∈ s.dependencies → ∃ f, ext.get? n = some f) :
    ∃ text, s.getText U ext d = .ok text ∧ text ≠ [] := by
  have hb := resolves_good he hd hr
  have hbn : NonEmptyForms base := by
    rcases hr with h | ⟨_, h⟩
    · exact hen _ _ h
    · exact hdn _ _ h
  rw [getText_eq hr hsup]
  obtain ⟨q, h, hq⟩ := foldlM_total (fs := s.dependencies.filterMap (depForm ext)) hU hb.1 hbn
    (fun f hf => by
      rw [List.mem_filterMap] at hf
      obtain ⟨dep, _, h⟩ := hf
      cases dep with
      | props p => simp [depForm] at h
      | ext n => exact ⟨he n f h, hen n f h⟩)
    (collected_wf he hb hs)
  rw [h]
  exact getForm_nonempty hU hb.1 hq hbn

/-- C50: a checked template substitutes without error: it was parsed with the names of the externals supplied,
`get_undictionaried_words` reports nothing, and no form is empty. -/
theorem C50_checked_template (U : PyUni) (names : List Str) (ext : Externals) (d : Dictionary) (text : Str) (t : Template)
    (hU : ∀ c, U.upperC c ≠ []) (he : GoodExternals ext) (hd : GoodDictionary d)
    (hen : ∀ n f, ext.get? n = some f → NonEmptyForms f) (hdn : ∀ x f, d.getWord x = .ok f → NonEmptyForms f)
    (ht : Template.empty.parse U text names = .ok t) (hn : ∀ n, n ∈ names ↔ ∃ f, ext.get? n = some f)
    (hcheck : t.getUndictionariedWords names d = []) :
    ∃ result, t.substitute U ext d = .ok result := by
  obtain ⟨l, ps, hp, huniq⟩ := C45_pieces_unique text
  obtain ⟨h1, h2⟩ := (C45_parse U names text l ps t hp).mp ht
  have hgood := template_good ht
  rw [C49_exact, List.filter_eq_nil_iff] at hcheck
  have hall : ∀ s ∈ t.substitutions, ∃ x, s.getText U ext d = .ok x := by
    intro s hs
    obtain ⟨g1, g2⟩ := hgood s hs
    have hr : ∃ f, Resolves ext d s.id f := by
      rw [resolves_iff]
      have hc := hcheck s.id (List.mem_map.mpr ⟨s, hs, rfl⟩)
      by_cases hx : s.id ∈ names
      · exact .inl ((hn _).mp hx)
      · right; simpa [hx] using hc
    obtain ⟨base, hr⟩ := hr
    obtain ⟨x, hx, _⟩ := C50_substitution U ext d s base hU he hd g1 hen hdn hr (fun n hn' => (hn n).mp (g2 n hn'))
    exact ⟨x, hx⟩
  obtain ⟨texts, hm, hf⟩ := mapM_ok hall
  have hj : List.Forall₂ (fun (p : Str × Str) x => ∃ s, Substitution.parse U (doubled p.1) names = .ok s ∧ s.getText U ext d = .ok x) ps texts := by
    clear hp ht hm hall hcheck h2 hgood huniq
    generalize t.substitutions = subs at *
    induction h1 generalizing texts with
    | nil => cases hf; exact .nil
    | cons ha _ ih =>
      cases hf with
      | cons hb hrest => exact .cons ⟨_, ha, hb⟩ (ih _ hrest)
  obtain ⟨t', ht', hsub⟩ := C44_literal_text U names ext d text l ps texts hp hj
  rw [ht] at ht'
  injection ht' with ht'; subst ht'
  exact ⟨_, hsub⟩

/-- C50 applies to `[w|two]` with the example noun and the number two. -/
example : ∃ t, Template.empty.parse exPy (str! "[w|two]") (exNumbers.map Prod.fst) = .ok t ∧
    t.getUndictionariedWords (exNumbers.map Prod.fst) [] = [] ∧ t.substitutions ≠ [] ∧ (∀ n f, exNumbers.get? n = some f → NonEmptyForms f) ∧
    ∀ n, n ∈ exNumbers.map Prod.fst ↔ ∃ f, exNumbers.get? n = some f := by
  refine ⟨⟨[⟨str! "w", [.ext (str! "two")]⟩], some (str! "%s")⟩, by decide +kernel, by decide +kernel, by simp, ?_, ?_⟩
  · intro n f h
    have : ∀ p ∈ exNumbers, ∀ x ∈ p.2.word.forms, x ≠ [] := by decide +kernel
    exact this _ (Dict.mem_of_get? h)
  · intro n
    constructor
    · intro h
      have key : ∀ n ∈ exNumbers.map Prod.fst, (exNumbers.get? n).isSome = true := by decide +kernel
      exact Option.isSome_iff_exists.mp (key n h)
    · rintro ⟨f, h⟩
      exact List.mem_map.mpr ⟨_, Dict.mem_of_get? h, rfl⟩

/-! ## C51 -/

/-- C51: a template survives serialization exactly. -/
theorem C51_roundtrip (t : Template) (hs : ∀ s ∈ t.substitutions, GoodSubstitution s) : Template.deserialize t.serialize = .ok t := by
  have hdep : ∀ deps : List Dep, (∀ p, Dep.props p ∈ deps → WFProps p) → (deps.map Dep.serialize).mapM DepData.deserialize = .ok deps := by
    intro deps h
    induction deps with
    | nil => rfl
    | cons dep deps ih =>
      rw [List.map_cons, List.mapM_cons, ih (fun p hp => h p (List.mem_cons_of_mem _ hp))]
      cases dep with
      | ext n => rfl
      | props p =>
        simp only [Dep.serialize, DepData.deserialize, C13_roundtrip_exact p (h p (by simp)), bind, Except.bind, pure, Except.pure]
  have hsub : ∀ subs : List Substitution, (∀ s ∈ subs, GoodSubstitution s) →
      (subs.map Substitution.serialize).mapM Substitution.deserialize = .ok subs := by
    intro subs h
    induction subs with
    | nil => rfl
    | cons s subs ih =>
      rw [List.map_cons, List.mapM_cons, ih (fun x hx => h x (List.mem_cons_of_mem _ hx))]
      simp only [Substitution.serialize, Substitution.deserialize, hdep s.dependencies (h s (by simp)), bind, Except.bind, pure, Except.pure]
  unfold Template.deserialize Template.serialize
  simp only [hsub t.substitutions hs, bind, Except.bind]

/-- C51: parsed templates survive serialization. -/
theorem C51_parsed (U : PyUni) (names : List Str) (text : Str) (t : Template) (h : Template.empty.parse U text names = .ok t) :
    Template.deserialize t.serialize = .ok t := C51_roundtrip t fun s hs => (template_good h s hs).1

/-! ## C69: equal templates, and JSON -/

/-- Dependencies that compare equal. -/
def SameDeps (deps deps' : List Dep) : Prop := List.Forall₂ (fun a b => Dep.eq a b = true) deps deps'

theorem depsEq_iff (deps deps' : List Dep) : depsEq deps deps' = true ↔ SameDeps deps deps' := by
  unfold SameDeps
  induction deps generalizing deps' with
  | nil => cases deps' <;> simp [depsEq]
  | cons a deps ih => cases deps' <;> simp [depsEq, ih]

theorem subsEq_iff (l l' : List Substitution) : subsEq l l' = true ↔ List.Forall₂ (fun a b => Substitution.eq a b = true) l l' := by
  induction l generalizing l' with
  | nil => cases l' <;> simp [subsEq]
  | cons a l ih => cases l' <;> simp [subsEq, ih]

theorem same_lists {ext : Externals} {deps deps' : List Dep} (h : SameDeps deps deps') (hp : ∀ p, Dep.props p ∈ deps → WFProps p)
    (hp' : ∀ p, Dep.props p ∈ deps' → WFProps p) :
    deps.filterMap (depForm ext) = deps'.filterMap (depForm ext) ∧
    List.Forall₂ (fun a b => ∀ g, (depProps ext a).data.get? g = (depProps ext b).data.get? g) deps deps' ∧
    ∀ n, Dep.ext n ∈ deps ↔ Dep.ext n ∈ deps' := by
  unfold SameDeps at h
  induction h with
  | nil => exact ⟨rfl, .nil, by simp⟩
  | @cons a b as bs hab _ ih =>
    obtain ⟨h1, h2, h3⟩ := ih (fun p hx => hp p (List.mem_cons_of_mem _ hx)) (fun p hx => hp' p (List.mem_cons_of_mem _ hx))
    cases a with
    | ext n =>
      cases b with
      | ext m =>
        simp only [Dep.eq, decide_eq_true_eq] at hab
        subst hab
        refine ⟨by rw [List.filterMap_cons, List.filterMap_cons, h1], .cons (fun _ => rfl) h2, fun n => by simp [h3]⟩
      | props q => simp [Dep.eq] at hab
    | props p =>
      cases b with
      | ext m => simp [Dep.eq] at hab
      | props q =>
        simp only [Dep.eq] at hab
        have hab' := (eq_iff_get? (hp p (by simp)) (hp' q (by simp))).mp hab
        exact ⟨by rw [List.filterMap_cons_none rfl, List.filterMap_cons_none rfl, h1], .cons hab' h2, fun n => by simp [h3]⟩

theorem findSome?_congr₂ {α β : Type} {f : α → Option β} {l l' : List α} (h : List.Forall₂ (fun a b => f a = f b) l l') :
    l.findSome? f = l'.findSome? f := by
  induction h with
  | nil => rfl
  | cons hab _ ih => rw [List.findSome?_cons, List.findSome?_cons, hab, ih]

theorem getText_same (U : PyUni) (ext : Externals) (d : Dictionary) (s s' : Substitution) (he : GoodExternals ext) (hd : GoodDictionary d)
    (hs : GoodSubstitution s) (hs' : GoodSubstitution s') (h : s.eq s' = true) : s.getText U ext d = s'.getText U ext d := by
  unfold Substitution.eq at h
  simp only [Bool.and_eq_true, decide_eq_true_eq, depsEq_iff] at h
  obtain ⟨hid, hsame⟩ := h
  obtain ⟨h1, h2, h3⟩ := same_lists (ext := ext) hsame hs hs'
  by_cases hr : ∃ f, Resolves ext d s.id f
  · obtain ⟨base, hr⟩ := hr
    have hr' : Resolves ext d s'.id base := hid ▸ hr
    have hb := resolves_good he hd hr
    rcases missing_or ext s.dependencies with hsup | ⟨pre, n, post, k1, k2, k3⟩
    · rw [getText_eq hr hsup, getText_eq hr' (fun n hn => hsup n ((h3 n).mpr hn)), h1]
      refine fold_text_congr U base.word _ _ _ (collected_wf he hb hs) (collected_wf he hb hs') ?_
      intro g
      rw [collected_get? he hb hs, collected_get? he hb hs']
      congr 2
      refine findSome?_congr₂ ?_
      exact List.rel_reverse (h2.imp fun a b hab => hab g)
    · -- the first missing external is the same
      obtain ⟨pre', post', e1, e2⟩ : ∃ pre' post', s'.dependencies = pre' ++ .ext n :: post' ∧ SameDeps pre pre' := by
        rw [k1] at hsame
        unfold SameDeps at hsame ⊢
        clear k1 h1 h2 h3 k2
        generalize s'.dependencies = l at *
        induction pre generalizing l with
        | nil =>
          cases hsame with
          | @cons _ b _ bs hab _ =>
            cases b with
            | ext m => simp only [Dep.eq, decide_eq_true_eq] at hab; subst hab; exact ⟨[], bs, rfl, .nil⟩
            | props q => simp [Dep.eq] at hab
        | cons a pre ih =>
          cases hsame with
          | @cons _ b _ bs hab hrest =>
            obtain ⟨pre', post', e1, e2⟩ := ih bs hrest
            exact ⟨b :: pre', post', by rw [e1]; rfl, .cons hab e2⟩
      have h4 : ∀ m, Dep.ext m ∈ pre' → ∃ f, ext.get? m = some f := by
        have := same_lists (ext := ext) e2 (fun p hp => hs p (by rw [k1]; simp [hp])) (fun p hp => hs' p (by rw [e1]; simp [hp]))
        intro m hm; exact k2 m ((this.2.2 m).mpr hm)
      rw [((C49_errors U ext d s he hd hs).2 ⟨_, hr⟩).1 pre n post k1 k2 k3,
        ((C49_errors U ext d s' he hd hs').2 ⟨_, hr'⟩).1 pre' n post' e1 h4 k3]
  · rw [(C49_errors U ext d s he hd hs).1 hr, (C49_errors U ext d s' he hd hs').1 (hid ▸ hr), hid]

/-- C69: templates that compare equal substitute identically. -/
theorem C69_equal_templates (U : PyUni) (ext : Externals) (d : Dictionary) (t t' : Template) (he : GoodExternals ext) (hd : GoodDictionary d)
    (hs : ∀ s ∈ t.substitutions, GoodSubstitution s) (hs' : ∀ s ∈ t'.substitutions, GoodSubstitution s) (h : t.eq t' = true) :
    t.substitute U ext d = t'.substitute U ext d := by
  unfold Template.eq at h
  simp only [Bool.and_eq_true, decide_eq_true_eq, subsEq_iff] at h
  unfold Template.substitute
  rw [h.2]
  have : (t.substitutions.mapM fun s => s.getText U ext d) = t'.substitutions.mapM fun s => s.getText U ext d := by
    have h1 := h.1
    generalize t.substitutions = l at *
    generalize t'.substitutions = l' at *
    clear h
    induction h1 with
    | nil => rfl
    | cons hab _ ih =>
      rw [List.mapM_cons, List.mapM_cons, ih (fun x hx => hs x (by simp [hx])) (fun x hx => hs' x (by simp [hx])),
        getText_same U ext d _ _ he hd (hs _ (by simp)) (hs' _ (by simp)) hab]
  rw [this]

/-- C69 applies: the same properties in another order. -/
example : Template.eq ⟨[⟨str! "w", [.props (.new [.record .CASE_DATIVE, .record .NUMBER_PLURAL])]⟩], some (str! "%s")⟩
    ⟨[⟨str! "w", [.props (.new [.record .NUMBER_PLURAL, .record .CASE_DATIVE])]⟩], some (str! "%s")⟩ = true := by decide +kernel

/-- C51: a template that went through JSON is equal and substitutes identically. -/
theorem C51_json (U : PyUni) (t : Template) (data : TemplateData) (hs : ∀ s ∈ t.substitutions, GoodSubstitution s)
    (h : TemplateViaJson t.serialize data) :
    ∃ t', Template.deserialize data = .ok t' ∧ t'.eq t = true ∧
      ∀ ext d, GoodExternals ext → GoodDictionary d → t'.substitute U ext d = t.substitute U ext d := by
  obtain ⟨h1, h2⟩ := h
  have hdeps : ∀ (deps : List Dep) (ds : List DepData), (∀ p, Dep.props p ∈ deps → WFProps p) →
      List.Forall₂ DepViaJson (deps.map Dep.serialize) ds →
      ∃ deps', ds.mapM DepData.deserialize = .ok deps' ∧ SameDeps deps' deps ∧ ∀ p, Dep.props p ∈ deps' → WFProps p := by
    intro deps
    induction deps with
    | nil =>
      intro ds _ hj
      cases hj
      exact ⟨[], rfl, .nil, by simp⟩
    | cons dep deps ih =>
      intro ds hp hj
      rw [List.map_cons] at hj
      cases hj with
      | @cons _ b _ bs hab hrest =>
        obtain ⟨deps', e1, e2, e3⟩ := ih bs (fun p hx => hp p (List.mem_cons_of_mem _ hx)) hrest
        cases dep with
        | ext n =>
          cases hab
          refine ⟨.ext n :: deps', by rw [List.mapM_cons, e1]; rfl, .cons (by simp [Dep.eq]) e2, ?_⟩
          intro p hx; simp at hx; exact e3 p hx
        | props p =>
          simp only [Dep.serialize] at hab
          cases hab with
          | props _ e d' hv hperm =>
            obtain ⟨q, hq1, hq2⟩ := C13_roundtrip p (hp p (by simp)) e d' hv hperm
            refine ⟨.props q :: deps', ?_, .cons hq2 e2, ?_⟩
            · rw [List.mapM_cons, e1]
              simp only [DepData.deserialize, hq1, bind, Except.bind, pure, Except.pure]
            · intro x hx
              rcases List.mem_cons.mp hx with hx | hx
              · injection hx with hx; subst hx; exact deserialize_wf hq1
              · exact e3 x hx
  have hsubs : ∀ (subs : List Substitution) (ds : List SubstitutionData), (∀ s ∈ subs, GoodSubstitution s) →
      List.Forall₂ (fun s t => s.id = t.id ∧ List.Forall₂ DepViaJson s.dependencies t.dependencies) (subs.map Substitution.serialize) ds →
      ∃ subs', ds.mapM Substitution.deserialize = .ok subs' ∧ List.Forall₂ (fun a b => Substitution.eq a b = true) subs' subs ∧
        ∀ s ∈ subs', GoodSubstitution s := by
    intro subs
    induction subs with
    | nil =>
      intro ds _ hj
      cases hj
      exact ⟨[], rfl, .nil, by simp⟩
    | cons s subs ih =>
      intro ds hp hj
      rw [List.map_cons] at hj
      cases hj with
      | @cons _ b _ bs hab hrest =>
        obtain ⟨subs', e1, e2, e3⟩ := ih bs (fun p hx => hp p (List.mem_cons_of_mem _ hx)) hrest
        obtain ⟨hid, hd⟩ := hab
        obtain ⟨deps', k1, k2, k3⟩ := hdeps s.dependencies b.dependencies (hp s (by simp)) hd
        refine ⟨⟨b.id, deps'⟩ :: subs', ?_, .cons ?_ e2, ?_⟩
        · rw [List.mapM_cons, e1]
          simp only [Substitution.deserialize, k1, bind, Except.bind, pure, Except.pure]
        · simp only [Substitution.eq, Bool.and_eq_true, decide_eq_true_eq, depsEq_iff]
          exact ⟨hid.symm, k2⟩
        · intro x hx
          rcases List.mem_cons.mp hx with rfl | hx
          · exact k3
          · exact e3 x hx
  obtain ⟨subs', e1, e2, e3⟩ := hsubs t.substitutions data.substitutions hs h2
  have heq : Template.eq ⟨subs', data.template⟩ t = true := by
    simp only [Template.eq, Bool.and_eq_true, decide_eq_true_eq, subsEq_iff]
    exact ⟨e2, h1.symm⟩
  refine ⟨⟨subs', data.template⟩, ?_, heq, fun ext d he hd => C69_equal_templates U ext d _ t he hd e3 hs heq⟩
  unfold Template.deserialize
  simp only [e1, bind, Except.bind]

/-- A serialized template after JSON: the key of the property dictionary became a string. -/
example : TemplateViaJson (Template.serialize ⟨[⟨str! "w", [.ext (str! "n"), .props (.new [.record .CASE_DATIVE])]⟩], some (str! "%s")⟩)
    ⟨some (str! "%s"), [⟨str! "w", [.ext (str! "n"), .props [(.str (pyStr Group.CASE.code), Rec.CASE_DATIVE.value)]]⟩]⟩ := by
  refine ⟨rfl, .cons ⟨rfl, .cons (.ext _) (.cons ?_ .nil)⟩ .nil⟩
  exact .props _ _ _ (.cons (.stringified _ _) .nil) (.refl _)

end Utg
