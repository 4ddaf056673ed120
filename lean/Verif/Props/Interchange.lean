import Verif.Props.Checked
import Verif.Props.Histories
/-! # C85: equal objects are interchangeable -/

namespace Utg
open Py

namespace Spec

/-- The same names are given, and to word forms that compare equal (`==`). -/
def EqualExternals (ext ext' : Externals) : Prop :=
  ∀ n, (ext.get? n = none ∧ ext'.get? n = none) ∨ ∃ f g, ext.get? n = some f ∧ ext'.get? n = some g ∧ f.eq g = true

/-- The same texts are known, and lookups give word forms that compare equal (`==`). -/
def EqualLookups (d d' : Dictionary) : Prop :=
  ∀ t, (d.hasWord t = false ∧ d'.hasWord t = false) ∨ ∃ f g, d.getWord t = .ok f ∧ d'.getWord t = .ok g ∧ f.eq g = true

/-- Word forms of the same name are spelled the same. -/
def SameSpelling (U : PyUni) (ext ext' : Externals) : Prop :=
  ∀ n f g, ext.get? n = some f → ext'.get? n = some g → f.form U = g.form U

end Spec
open Spec

theorem word_eq_iff {v w : Word} : v.eq w = true ↔ v.type = w.type ∧ v.properties.eq w.properties = true ∧ v.forms = w.forms := by
  simp [Word.eq, and_assoc]

theorem formRaw_of_eq {v w : Word} {p q : Properties} (ht : v.type = w.type) (hf : v.forms = w.forms)
    (h : ∀ g, p.data.get? g = q.data.get? g) : v.formRaw p = w.formRaw q := by
  rw [formRaw_congr (fun g _ => get_congr (h g))]
  unfold Word.formRaw; rw [ht, hf]

theorem getForm_of_eq {U : PyUni} {v w : Word} {p q : Properties} (ht : v.type = w.type) (hf : v.forms = w.forms)
    (h : ∀ g, p.data.get? g = q.data.get? g) : WordForm.getForm U v p = WordForm.getForm U w q := by
  unfold WordForm.getForm Properties.getRec
  rw [formRaw_of_eq ht hf h, get_congr (h _)]

/-- C85: equal words have the same form for equal requests, and the same normal form. -/
theorem C85_word_forms (v w : Word) (p q : Properties) (hv : Accepted v) (hw : Accepted w) (hp : WFProps p) (hq : WFProps q)
    (h : v.eq w = true) (hpq : p.eq q = true) :
    v.form p = w.form q ∧ v.normalForm = w.normalForm ∧ v.numberOfSyllables = w.numberOfSyllables ∧
      v.hasFluentVowel = w.hasFluentVowel := by
  obtain ⟨ht, hpr, hf⟩ := word_eq_iff.mp h
  have h1 := (accepted_iff.mp hv).1
  have h2 := (accepted_iff.mp hw).1
  have hg := (eq_iff_get? h1 h2).mp hpr
  have hg' := (eq_iff_get? hp hq).mp hpq
  refine ⟨?_, ?_, by unfold Word.numberOfSyllables; rw [hf], by unfold Word.hasFluentVowel; rw [hf]⟩
  · exact formRaw_of_eq ht hf fun g => by rw [new2_get? hp h1, new2_get? hq h2, hg, hg']
  · exact formRaw_of_eq ht hf fun g => by rw [new2_get? h1 h1, new2_get? h2 h2, hg]

theorem normalForm_of_eq {v w : Word} (hv : Accepted v) (hw : Accepted w) (h : v.eq w = true) : v.normalForm = w.normalForm :=
  (C85_word_forms v w (.new []) (.new []) hv hw wf_empty wf_empty h (by decide)).2.1

/-- `transform` uses a word form only through its word and its spelling. -/
theorem transform_of_eq {U : PyUni} {v w : Word} {f g : WordForm} (hv : Accepted v) (hw : Accepted w) (h : v.eq w = true)
    (hfg : f.word.eq g.word = true) (hform : v.type = .PREPOSITION → f.form U = g.form U) (p : Properties) :
    transform U v p f = transform U w p g := by
  obtain ⟨ht, _, _⟩ := word_eq_iff.mp h
  obtain ⟨ht', _, hf'⟩ := word_eq_iff.mp hfg
  have hn := normalForm_of_eq hv hw h
  by_cases hprep : v.type = .PREPOSITION
  · have hfm := hform hprep
    have h1 : f.word.numberOfSyllables = g.word.numberOfSyllables := by unfold Word.numberOfSyllables; rw [hf']
    have h2 : f.word.hasFluentVowel = g.word.hasFluentVowel := by unfold Word.hasFluentVowel; rw [hf']
    have e1 : transform U v p f = prepositionAny U v p f := by unfold transform; rw [hprep]
    have e2 : transform U w p g = prepositionAny U w p g := by unfold transform; rw [← ht, hprep]
    rw [e1, e2]
    unfold prepositionAny consonantPrepositionAny vowelsPrepositionAny WordForm.startsWithConsonantCluster
    rw [hn, hfm, h1, h2]
  · unfold transform
    rw [← ht, ← ht']
    cases hv' : v.type <;> first | rfl | exact absurd hv' hprep | (cases f.word.type <;> rfl)

theorem foldlM_of_eq {U : PyUni} {v w : Word} {fs gs : List WordForm} (hv : Accepted v) (hw : Accepted w) (h : v.eq w = true)
    (hfg : List.Forall₂ (fun f g => f.word.eq g.word = true ∧ (v.type = .PREPOSITION → f.form U = g.form U)) fs gs) (p : Properties) :
    fs.foldlM (fun ps external => transform U v ps external) p = gs.foldlM (fun ps external => transform U w ps external) p := by
  induction hfg generalizing p with
  | nil => rfl
  | cons hab _ ih =>
    rw [List.foldlM_cons, List.foldlM_cons, transform_of_eq hv hw h hab.1 hab.2]
    congr 1
    funext q
    exact ih q

theorem filterMap_depForm_rel {ext ext' : Externals} (he : EqualExternals ext ext') {P : WordForm → WordForm → Prop}
    {deps : List Dep} (hP : ∀ n f g, Dep.ext n ∈ deps → ext.get? n = some f → ext'.get? n = some g → f.eq g = true → P f g) :
    List.Forall₂ P (deps.filterMap (depForm ext)) (deps.filterMap (depForm ext')) := by
  induction deps with
  | nil => exact .nil
  | cons dep deps ih =>
    have ih := ih fun n f g hn => hP n f g (List.mem_cons_of_mem _ hn)
    cases dep with
    | props p => rw [List.filterMap_cons_none rfl, List.filterMap_cons_none rfl]; exact ih
    | ext n =>
      rcases he n with ⟨h1, h2⟩ | ⟨f, g, h1, h2, h3⟩
      · rw [List.filterMap_cons_none (by simpa [depForm] using h1), List.filterMap_cons_none (by simpa [depForm] using h2)]; exact ih
      · rw [List.filterMap_cons_some (by simpa [depForm] using h1), List.filterMap_cons_some (by simpa [depForm] using h2)]
        exact .cons (hP n f g (by simp) h1 h2 h3) ih

theorem depProps_of_eq {ext ext' : Externals} (he : EqualExternals ext ext') (hg : GoodExternals ext) (hg' : GoodExternals ext') (dep : Dep)
    (g : Group) : (depProps ext dep).data.get? g = (depProps ext' dep).data.get? g := by
  cases dep with
  | props p => rfl
  | ext n =>
    simp only [depProps]
    rcases he n with ⟨h1, h2⟩ | ⟨f, f', h1, h2, h3⟩
    · rw [h1, h2]
    · rw [h1, h2]
      simp only [WordForm.eq, Bool.and_eq_true] at h3
      exact (eq_iff_get? (hg n f h1).2.1 (hg' n f' h2).2.1).mp h3.2 g

theorem getText_interchange (U : PyUni) (ext ext' : Externals) (d d' : Dictionary) (s : Substitution) (he : GoodExternals ext)
    (he' : GoodExternals ext') (hd : GoodDictionary d) (hd' : GoodDictionary d') (hs : GoodSubstitution s)
    (hE : EqualExternals ext ext') (hD : EqualLookups d d')
    (hform : ∀ base, Resolves ext d s.id base → base.word.type = .PREPOSITION →
      ∀ n f g, Dep.ext n ∈ s.dependencies → ext.get? n = some f → ext'.get? n = some g → f.form U = g.form U) :
    s.getText U ext d = s.getText U ext' d' := by
  have hres : (¬ (∃ f, Resolves ext d s.id f) ∧ ¬ ∃ f, Resolves ext' d' s.id f) ∨
      ∃ f g, Resolves ext d s.id f ∧ Resolves ext' d' s.id g ∧ f.eq g = true := by
    rcases hE s.id with ⟨h1, h2⟩ | ⟨f, g, h1, h2, h3⟩
    · rcases hD s.id with ⟨h4, h5⟩ | ⟨f, g, h4, h5, h6⟩
      · left
        constructor <;> rw [resolves_iff] <;> simp_all
      · exact .inr ⟨f, g, .inr ⟨h1, h4⟩, .inr ⟨h2, h5⟩, h6⟩
    · exact .inr ⟨f, g, .inl h1, .inl h2, h3⟩
  have hsome : ∀ n, (∃ f, ext.get? n = some f) ↔ ∃ f, ext'.get? n = some f := by
    intro n
    rcases hE n with ⟨h1, h2⟩ | ⟨f, g, h1, h2, h3⟩ <;> simp [h1, h2]
  rcases hres with ⟨h1, h2⟩ | ⟨base, base', h1, h2, h3⟩
  · rw [(C49_errors U ext d s he hd hs).1 h1, (C49_errors U ext' d' s he' hd' hs).1 h2]
  · have hb := resolves_good he hd h1
    have hb' := resolves_good he' hd' h2
    have h3' := h3
    simp only [WordForm.eq, Bool.and_eq_true] at h3'
    obtain ⟨ht, hpr, hf⟩ := word_eq_iff.mp h3'.1
    rcases missing_or ext s.dependencies with hsup | ⟨pre, n, post, k1, k2, k3⟩
    · rw [getText_eq h1 hsup, getText_eq h2 (fun n hn => (hsome n).mp (hsup n hn))]
      rw [foldlM_of_eq hb.1 hb'.1 h3'.1 (filterMap_depForm_rel hE fun n f g hn hx hy hxy => by
        simp only [WordForm.eq, Bool.and_eq_true] at hxy
        exact ⟨hxy.1, fun hp => hform base h1 hp n f g hn hx hy⟩)]
      have hget : ∀ g, (collected ext base s.dependencies).data.get? g = (collected ext' base' s.dependencies).data.get? g := by
        intro g
        rw [collected_get? he hb hs, collected_get? he' hb' hs, (eq_iff_get? (accepted_iff.mp hb.1).1 (accepted_iff.mp hb'.1).1).mp hpr g,
          (eq_iff_get? hb.2.1 hb'.2.1).mp h3'.2 g]
        congr 3
        funext dep
        exact depProps_of_eq hE he he' dep g
      rcases foldlM_adds U base'.word (s.dependencies.filterMap (depForm ext')) _ _ (collected_wf he hb hs) (collected_wf he' hb' hs) hget with
        ⟨e, e1, e2⟩ | ⟨q, q', e1, e2, _, _, e5⟩
      · rw [e1, e2]; rfl
      · rw [e1, e2]; exact getForm_of_eq ht hf e5
    · rw [((C49_errors U ext d s he hd hs).2 ⟨_, h1⟩).1 pre n post k1 k2 k3,
        ((C49_errors U ext' d' s he' hd' hs).2 ⟨_, h2⟩).1 pre n post k1 (fun m hm => (hsome m).mp (k2 m hm)) (by
          rcases hE n with ⟨_, h⟩ | ⟨f, g, h, _⟩
          · exact h
          · rw [h] at k3; cases k3)]

theorem substitute_of_getText {U : PyUni} {ext ext' : Externals} {d d' : Dictionary} {t : Template}
    (h : ∀ s ∈ t.substitutions, s.getText U ext d = s.getText U ext' d') : t.substitute U ext d = t.substitute U ext' d' := by
  unfold Template.substitute
  have : (t.substitutions.mapM fun s => s.getText U ext d) = t.substitutions.mapM fun s => s.getText U ext' d' := by
    generalize t.substitutions = l at *
    induction l with
    | nil => rfl
    | cons s l ih => rw [List.mapM_cons, List.mapM_cons, h s (by simp), ih (fun s hs => h s (by simp [hs]))]
  rw [this]

/-- C85: if the externals are replaced by equal ones that are also spelled the same, and the dictionary by one whose lookups are
equal, then every template gives the same text, or the same exception. -/
theorem C85_same_text (U : PyUni) (ext ext' : Externals) (d d' : Dictionary) (t : Template) (he : GoodExternals ext)
    (he' : GoodExternals ext') (hd : GoodDictionary d) (hd' : GoodDictionary d') (hs : ∀ s ∈ t.substitutions, GoodSubstitution s)
    (hE : EqualExternals ext ext') (hD : EqualLookups d d') (hsp : SameSpelling U ext ext') :
    t.substitute U ext d = t.substitute U ext' d' :=
  substitute_of_getText fun s hsm => getText_interchange U ext ext' d d' s he he' hd hd' (hs s hsm) hE hD
    fun _ _ _ n f g _ hf hg => hsp n f g hf hg

/-- C85 (partial): equality alone is enough if no variable of the template stands for a preposition. Missing: prepositions. -/
theorem C85_no_preposition_partial (U : PyUni) (ext ext' : Externals) (d d' : Dictionary) (t : Template) (he : GoodExternals ext)
    (he' : GoodExternals ext') (hd : GoodDictionary d) (hd' : GoodDictionary d') (hs : ∀ s ∈ t.substitutions, GoodSubstitution s)
    (hE : EqualExternals ext ext') (hD : EqualLookups d d')
    (hnp : ∀ s ∈ t.substitutions, ∀ base, Resolves ext d s.id base → base.word.type ≠ .PREPOSITION) :
    t.substitute U ext d = t.substitute U ext' d' :=
  substitute_of_getText fun s hsm => getText_interchange U ext ext' d d' s he he' hd hd' (hs s hsm) hE hD
    fun base hr hp => absurd hp (hnp s hsm base hr)

/-- A preposition that needs its alternative form before a vowel. -/
def exAbout : Word := ⟨.PREPOSITION, [str! "о", str! "об", str! "обо"], .new []⟩

theorem exAbout_accepted : Accepted exAbout := accepted_iff.mpr ⟨wf_empty, by decide +kernel⟩

/-- A noun with a vowel at the beginning of one form only. -/
def exIce : Word := ⟨.NOUN, (str! "лёд") :: List.replicate 17 (str! "оа"), .new []⟩

/-- C85 (violated): two word forms compare equal, but a preposition before them is spelled differently. They differ in the
separate `form_properties`, which `==` ignores. -/
theorem C85_violated :
    ∃ f g : WordForm, GoodForm f ∧ GoodForm g ∧ f.eq g = true ∧
      (Substitution.getText exPy ⟨str! "p", [.ext (str! "x")]⟩ [(str! "p", WordForm.new exAbout), (str! "x", f)] [] = .ok (str! "о")) ∧
      (Substitution.getText exPy ⟨str! "p", [.ext (str! "x")]⟩ [(str! "p", WordForm.new exAbout), (str! "x", g)] [] = .ok (str! "об")) := by
  have hice : Accepted exIce := accepted_iff.mpr ⟨wf_empty, by decide +kernel⟩
  refine ⟨WordForm.new exIce (some (.new [])) (some (.new [])), WordForm.new exIce (some (.new [])) (some (.new [.record .CASE_GENITIVE])),
    goodForm_new hice (by rintro x ⟨⟩; exact wf_empty) (by rintro x ⟨⟩; exact wf_empty),
    goodForm_new hice (by rintro x ⟨⟩; exact wf_empty) (by rintro x ⟨⟩; exact wf_new (by intro p hp; simp at hp)), ?_, ?_, ?_⟩ <;> decide +kernel

/-! ## Dictionaries of equal words -/

theorem registerAll_rel {cs cs' : List (Str × WordForm)}
    (h : List.Forall₂ (fun c c' => c.1 = c'.1 ∧ c.2.eq c'.2 = true ∧ WFProps c.2.properties ∧ WFProps c'.2.properties) cs cs') (d d' : Dictionary)
    (hd : ∀ t, (d.get? t = none ∧ d'.get? t = none) ∨ ∃ f g, d.get? t = some f ∧ d'.get? t = some g ∧ f.eq g = true ∧
      WFProps f.properties ∧ WFProps g.properties) :
    ∀ t, ((registerAll d cs).get? t = none ∧ (registerAll d' cs').get? t = none) ∨
      ∃ f g, (registerAll d cs).get? t = some f ∧ (registerAll d' cs').get? t = some g ∧ f.eq g = true ∧
        WFProps f.properties ∧ WFProps g.properties := by
  induction h generalizing d d' with
  | nil => exact hd
  | @cons c c' cs cs' hc _ ih =>
    obtain ⟨hc1, hc2, hc3, hc4⟩ := hc
    show ∀ t, ((registerAll (d.register c.1 c.2) cs).get? t = none ∧ (registerAll (d'.register c'.1 c'.2) cs').get? t = none) ∨ _
    refine ih _ _ fun t => ?_
    rw [register_get?, register_get?, ← hc1]
    by_cases ht : c.1 = t
    · rw [if_pos ht, if_pos ht]
      rcases hd t with ⟨h1, h2⟩ | ⟨f, g, h1, h2, h3, h4, h5⟩
      · rw [h1, h2]; exact .inr ⟨_, _, rfl, rfl, hc2, hc3, hc4⟩
      · rw [h1, h2]
        simp only
        have hrep : replaces c.2 f = replaces c'.2 g := by
          have hm : ∀ {a b : WordForm}, WFProps a.properties → WFProps b.properties → a.eq b = true →
              a.word.type = b.word.type ∧ a.word.forms = b.word.forms ∧ departures a.properties = departures b.properties := by
            intro a b ha hb hab
            simp only [WordForm.eq, Bool.and_eq_true] at hab
            obtain ⟨e1, _, e3⟩ := word_eq_iff.mp hab.1
            exact ⟨e1, e3, departures_congr fun g => get_congr ((eq_iff_get? ha hb).mp hab.2 g)⟩
          rw [Bool.eq_iff_iff, replaces_iff hc3 h4, replaces_iff hc4 h5]
          obtain ⟨a1, a2, a3⟩ := hm hc3 hc4 hc2
          obtain ⟨b1, b2, b3⟩ := hm h4 h5 h3
          unfold Better
          rw [a1, a2, a3, b1, b2, b3]
        rw [hrep]
        split
        · exact .inr ⟨_, _, rfl, rfl, hc2, hc3, hc4⟩
        · exact .inr ⟨_, _, rfl, rfl, h3, h4, h5⟩
    · rw [if_neg ht, if_neg ht]; exact hd t

theorem offered_rel {U : PyUni} {v w : Word} (hv : Accepted v) (hw : Accepted w) (h : v.eq w = true) :
    List.Forall₂ (fun c c' => c.1 = c'.1 ∧ c.2.eq c'.2 = true ∧ WFProps c.2.properties ∧ WFProps c'.2.properties) (offered U v) (offered U w) := by
  obtain ⟨h1, h2⟩ := accepted_iff.mp hv
  obtain ⟨h3, h4⟩ := accepted_iff.mp hw
  obtain ⟨ht, hp, hfo⟩ := word_eq_iff.mp h
  have hget := (eq_iff_get? h1 h3).mp hp
  unfold offered
  rw [allForms_spec h4, allForms_spec h2, ← ht]
  simp only
  have hkey : ∀ k : Key,
      (WordForm.new v (some (propertiesOfKey k))).form U = (WordForm.new w (some (propertiesOfKey k))).form U ∧
      (WordForm.new v (some (propertiesOfKey k))).eq (WordForm.new w (some (propertiesOfKey k))) = true := by
    intro k
    have hwk := wf_propertiesOfKey k
    have hg? : ∀ g, (Properties.new [.props (propertiesOfKey k), .props v.properties]).data.get? g =
        (Properties.new [.props (propertiesOfKey k), .props w.properties]).data.get? g := by
      intro g; rw [new2_get? hwk h1, new2_get? hwk h3, hget g]
    refine ⟨getForm_of_eq ht hfo hg?, ?_⟩
    simp only [WordForm.eq, Bool.and_eq_true]
    exact ⟨h, (eq_iff_get? (wf_new2 hwk h1) (wf_new2 hwk h3)).mpr hg?⟩
  generalize invertedCache v.type = ks
  induction ks with
  | nil => exact .nil
  | cons k ks ih =>
    simp only [List.map_cons, spelled]
    obtain ⟨hk1, hk2⟩ := hkey k
    rw [hk1]
    cases (WordForm.new w (some (propertiesOfKey k))).form U with
    | error e => exact .nil
    | ok s => exact .cons ⟨rfl, hk2, wf_new2 (wf_propertiesOfKey k) h1, wf_new2 (wf_propertiesOfKey k) h3⟩ ih

/-- C85: dictionaries built from equal words, in the same order, have equal lookups. -/
theorem C85_dictionary (U : PyUni) (ws ws' : List Word) (hws : ∀ w ∈ ws, Accepted w) (hws' : ∀ w ∈ ws', Accepted w)
    (h : List.Forall₂ (fun v w => Word.eq v w = true) ws ws') : EqualLookups (history U ws) (history U ws') := by
  have hc : List.Forall₂ (fun c c' => c.1 = c'.1 ∧ c.2.eq c'.2 = true ∧ WFProps c.2.properties ∧ WFProps c'.2.properties)
      (candidates U ws) (candidates U ws') := by
    unfold candidates
    induction h with
    | nil => exact .nil
    | cons hab _ ih =>
      rw [List.flatMap_cons, List.flatMap_cons]
      exact List.rel_append (offered_rel (hws _ (by simp)) (hws' _ (by simp)) hab)
        (ih (fun w hw => hws w (by simp [hw])) (fun w hw => hws' w (by simp [hw])))
  intro t
  rw [history_eq hws, history_eq hws']
  unfold Dictionary.hasWord Dictionary.getWord Dict.contains
  rcases registerAll_rel hc [] [] (fun t => .inl ⟨rfl, rfl⟩) t with ⟨h1, h2⟩ | ⟨f, g, h1, h2, h3, _⟩
  · left; rw [h1, h2]; exact ⟨rfl, rfl⟩
  · right; rw [h1, h2]; exact ⟨f, g, rfl, rfl, h3⟩

/-- Two spellings of one history: equal words, different objects (the properties were given in another order). -/
example : List.Forall₂ (fun v w => Word.eq v w = true)
    [exPlural, { exNoun with properties := .new [.record .CASE_DATIVE, .record .GENDER_NEUTER] }]
    [{ exPlural with properties := .new [.record .NUMBER_SINGULAR, .record .NUMBER_PLURAL] },
      { exNoun with properties := .new [.record .GENDER_NEUTER, .record .CASE_DATIVE] }] :=
  .cons (by decide +kernel) (.cons (by decide +kernel) .nil)

/-- Equal externals that are not the same object. -/
example : EqualExternals [(str! "x", ⟨exNoun, .new [.record .CASE_DATIVE, .record .NUMBER_PLURAL], .new []⟩)]
    [(str! "x", ⟨exNoun, .new [.record .NUMBER_PLURAL, .record .CASE_DATIVE], .new []⟩)] := by
  intro n
  by_cases h : n = str! "x"
  · subst h; exact .inr ⟨_, _, rfl, rfl, by decide +kernel⟩
  · left; constructor <;> simp [Dict.get?, Ne.symm h]

end Utg
