import Verif.Props.Templates
import Verif.Props.Transformators
/-! # C41, C43, C47 - C51: substitutions -/

namespace Utg
open Py Spec

/-! ## Collecting properties -/

/-- The properties a dependency contributes. -/
def depProps (ext : Externals) : Dep → Properties
  | .props p => p
  | .ext n => match ext.get? n with
    | none => .new []
    | some f => f.properties

/-- The external forms among the dependencies. -/
def depForm (ext : Externals) : Dep → Option WordForm
  | .props _ => none
  | .ext n => ext.get? n

theorem listProperties_ok {ext : Externals} {deps : List Dep} (h : ∀ n, Dep.ext n ∈ deps → ∃ f, ext.get? n = some f) :
    listProperties ext deps = .ok (deps.map (depProps ext), deps.filterMap (depForm ext)) := by
  induction deps with
  | nil => rfl
  | cons dep deps ih =>
    have ih := ih (fun n hn => h n (List.mem_cons_of_mem _ hn))
    cases dep with
    | props p =>
      rw [List.filterMap_cons_none (show depForm ext (.props p) = none from rfl)]
      simp [listProperties, ih, bind, Except.bind, depProps]
    | ext n =>
      obtain ⟨f, hf⟩ := h n (by simp)
      simp [listProperties, hf, ih, bind, Except.bind, depProps, depForm]

theorem listProperties_missing {ext : Externals} {pre post : List Dep} {n : Str} (h : ∀ m, Dep.ext m ∈ pre → ∃ f, ext.get? m = some f)
    (hn : ext.get? n = none) : listProperties ext (pre ++ .ext n :: post) = .error (.ExternalDependecyNotFoundError n) := by
  induction pre with
  | nil => simp [listProperties, hn]
  | cons dep deps ih =>
    have ih := ih (fun n hn => h n (List.mem_cons_of_mem _ hn))
    cases dep with
    | props p => simp [listProperties, ih, bind, Except.bind]
    | ext m =>
      obtain ⟨f, hf⟩ := h m (by simp)
      simp [listProperties, hf, ih, bind, Except.bind]

theorem missing_or (ext : Externals) (deps : List Dep) : (∀ n, Dep.ext n ∈ deps → ∃ f, ext.get? n = some f) ∨
    ∃ pre n post, deps = pre ++ Dep.ext n :: post ∧ (∀ m, Dep.ext m ∈ pre → ∃ f, ext.get? m = some f) ∧ ext.get? n = none := by
  induction deps with
  | nil => left; simp
  | cons dep deps ih =>
    cases dep with
    | props p =>
      rcases ih with ih | ⟨pre, n, post, h1, h2, h3⟩
      · left; intro n hn; exact ih n (by simpa using hn)
      · right; refine ⟨.props p :: pre, n, post, by rw [h1]; rfl, ?_, h3⟩
        intro m hm; exact h2 m (by simpa using hm)
    | ext n =>
      cases hn : ext.get? n with
      | none => right; exact ⟨[], n, deps, rfl, by simp, hn⟩
      | some f =>
        rcases ih with ih | ⟨pre, n', post, h1, h2, h3⟩
        · left; intro m hm
          rcases List.mem_cons.mp hm with e | hm
          · injection e with e; subst e; exact ⟨f, hn⟩
          · exact ih m hm
        · right; refine ⟨.ext n :: pre, n', post, by rw [h1]; rfl, ?_, h3⟩
          intro m hm
          rcases List.mem_cons.mp hm with e | hm
          · injection e with e; subst e; exact ⟨f, hn⟩
          · exact h2 m hm

/-- The properties before any agreement. -/
def collected (ext : Externals) (base : WordForm) (deps : List Dep) : Properties :=
  base.properties.clone ((deps.map (depProps ext) ++ [base.word.properties]).map .props)

theorem depProps_wf {ext : Externals} {deps : List Dep} (he : GoodExternals ext) (hp : ∀ p, Dep.props p ∈ deps → WFProps p) :
    ∀ dep ∈ deps, WFProps (depProps ext dep) := by
  intro dep hdep
  cases dep with
  | props p => exact hp p hdep
  | ext n =>
    simp only [depProps]
    cases h : ext.get? n with
    | none => exact wf_empty
    | some f => exact (he n f h).2.1

theorem collected_args_wf {ext : Externals} {base : WordForm} {deps : List Dep} (he : GoodExternals ext) (hb : GoodForm base)
    (hp : ∀ p, Dep.props p ∈ deps → WFProps p) :
    WFArgs (.props base.properties :: (deps.map (depProps ext) ++ [base.word.properties]).map .props) := by
  refine wfargs_cons (by rintro _ ⟨⟩; exact hb.2.1) (wfargs_props ?_)
  intro p hp'
  simp only [List.mem_append, List.mem_map, List.mem_singleton] at hp'
  rcases hp' with ⟨dep, hdep, rfl⟩ | rfl
  · exact depProps_wf he hp dep hdep
  · exact (accepted_iff.mp hb.1).1

theorem collected_wf {ext : Externals} {base : WordForm} {deps : List Dep} (he : GoodExternals ext) (hb : GoodForm base)
    (hp : ∀ p, Dep.props p ∈ deps → WFProps p) : WFProps (collected ext base deps) := wf_new (collected_args_wf he hb hp)

theorem collected_get? {ext : Externals} {base : WordForm} {deps : List Dep} (he : GoodExternals ext) (hb : GoodForm base)
    (hp : ∀ p, Dep.props p ∈ deps → WFProps p) (g : Group) :
    (collected ext base deps).data.get? g = (base.word.properties.data.get? g).or
      ((deps.reverse.findSome? fun dep => (depProps ext dep).data.get? g).or (base.properties.data.get? g)) := by
  unfold collected Properties.clone
  rw [new_get? (collected_args_wf he hb hp)]
  simp only [List.map_append, List.map_cons, List.map_nil, List.reverse_cons, List.reverse_append, List.reverse_nil, List.nil_append,
    List.cons_append, List.findSome?_append, List.findSome?_cons, List.map_map, ← List.map_reverse, List.findSome?_map, List.findSome?_nil]
  have e1 : ((fun a => argGet a g) ∘ Arg.props ∘ depProps ext) = fun dep => (depProps ext dep).data.get? g := rfl
  rw [e1]
  simp only [argGet]
  cases base.word.properties.data.get? g with
  | some v => simp
  | none =>
    simp only [Option.none_or]
    cases base.properties.data.get? g <;> rfl

theorem depSays_eq (ext : Externals) (dep : Dep) (g : Group) : depSays ext dep g = (depProps ext dep).data.get? g := by
  cases dep with
  | props p => exact (get?_eq_ite p g).symm
  | ext n =>
    simp only [depSays, depProps]
    cases h : ext.get? n with
    | none => rfl
    | some f => exact (get?_eq_ite f.properties g).symm

theorem collects {ext : Externals} {base : WordForm} {deps : List Dep} (he : GoodExternals ext) (hb : GoodForm base)
    (hp : ∀ p, Dep.props p ∈ deps → WFProps p) : Collects ext base deps (collected ext base deps) := by
  refine ⟨?_, ?_, ?_⟩
  · intro g hg
    apply get_congr
    obtain ⟨r, hr⟩ := isSpecified_iff.mp hg
    rw [collected_get? he hb hp, hr]; rfl
  · intro g pre dep post r hg hd hr hpost
    unfold Properties.get
    rw [collected_get? he hb hp, isSpecified_false.mp hg, hd]
    simp only [List.reverse_append, List.reverse_cons, List.findSome?_append, List.findSome?_cons, List.append_assoc, List.cons_append,
      List.nil_append]
    have : (post.reverse.findSome? fun dep => (depProps ext dep).data.get? g) = none := by
      rw [List.findSome?_eq_none_iff]; intro x hx
      rw [← depSays_eq]; exact hpost x (by simpa using hx)
    rw [this, ← depSays_eq, hr]; rfl
  · intro g hg hd
    apply get_congr
    rw [collected_get? he hb hp, isSpecified_false.mp hg]
    have : (deps.reverse.findSome? fun dep => (depProps ext dep).data.get? g) = none := by
      rw [List.findSome?_eq_none_iff]; intro x hx
      rw [← depSays_eq]; exact hd x (by simpa using hx)
    rw [this]; rfl

theorem baseForm_resolves {ext : Externals} {d : Dictionary} {s : Substitution} {f : WordForm} :
    Resolves ext d s.id f ↔ s.baseForm ext d = .ok f := by
  unfold Resolves Substitution.baseForm
  cases h : ext.get? s.id with
  | none => simp
  | some g => simp

theorem getText_eq {U : PyUni} {ext : Externals} {d : Dictionary} {s : Substitution} {base : WordForm} (hr : Resolves ext d s.id base)
    (hd : ∀ n, Dep.ext n ∈ s.dependencies → ∃ f, ext.get? n = some f) :
    s.getText U ext d = ((s.dependencies.filterMap (depForm ext)).foldlM (fun ps external => transform U base.word ps external)
      (collected ext base s.dependencies)).bind (WordForm.getForm U base.word) := by
  unfold Substitution.getText
  rw [baseForm_resolves.mp hr, listProperties_ok hd]
  rfl

theorem getForm_congr {U : PyUni} {w : Word} {p q : Properties} (h : ∀ g, p.get g = q.get g) :
    WordForm.getForm U w p = WordForm.getForm U w q := by
  unfold WordForm.getForm
  rw [formRaw_congr (fun g _ => h g)]
  unfold Properties.getRec
  rw [h]

theorem resolves_good {ext : Externals} {d : Dictionary} {id : Str} {f : WordForm} (he : GoodExternals ext) (hd : GoodDictionary d)
    (h : Resolves ext d id f) : GoodForm f := by
  rcases h with h | ⟨_, h⟩
  · exact he _ _ h
  · exact hd _ _ h

/-- Dictionaries built by adding accepted words are good. -/
theorem goodDictionary_history (U : PyUni) (ws : List Word) (hws : ∀ w ∈ ws, Accepted w) : GoodDictionary (history U ws) := by
  intro t f h
  obtain ⟨_, h2, fs, h3, h4⟩ := C25_lookup_sound U ws hws t f h
  have hw := hws _ h2
  obtain ⟨h5, h6⟩ := accepted_iff.mp hw
  rw [allForms_spec h6] at h3
  injection h3 with h3; subst h3
  simp only [List.mem_map] at h4
  obtain ⟨k, _, h7⟩ := h4
  refine ⟨hw, ?_, ?_⟩ <;> rw [← h7] <;> exact wf_new2 (wf_propertiesOfKey k) h5

theorem goodForm_new {w : Word} {p q : Option Properties} (hw : Accepted w) (hp : ∀ x, p = some x → WFProps x)
    (hq : ∀ x, q = some x → WFProps x) : GoodForm (WordForm.new w p q) := by
  have h1 := (accepted_iff.mp hw).1
  refine ⟨hw, ?_, ?_⟩
  · cases p with
    | none => exact h1
    | some x => exact wf_new2 (hp x rfl) h1
  · cases q with
    | none =>
      cases p with
      | none => exact h1
      | some x => exact wf_new2 (hp x rfl) h1
    | some x => exact wf_new2 (hq x rfl) h1

/-! ## C47, C43 -/

theorem getText_noAgreement {U : PyUni} {ext : Externals} {d : Dictionary} {s : Substitution} {base : WordForm}
    (hr : Resolves ext d s.id base) (hd : ∀ n, Dep.ext n ∈ s.dependencies → ∃ f, ext.get? n = some f)
    (hn : NoAgreement ext base s.dependencies) :
    s.getText U ext d = WordForm.getForm U base.word (collected ext base s.dependencies) := by
  rw [getText_eq hr hd]
  have key : ∀ (fs : List WordForm) (p : Properties), (∀ f ∈ fs, f.word.type ≠ .INTEGER ∨ base.word.type = .INTEGER ∨ base.word.type = .TEXT) →
      fs.foldlM (fun ps external => transform U base.word ps external) p = .ok p := by
    intro fs
    induction fs with
    | nil => intro p _; rfl
    | cons f fs ih =>
      intro p h
      rw [List.foldlM_cons, C40_other_pairs U base.word p f hn.1 (h f (by simp))]
      exact ih p (fun x hx => h x (List.mem_cons_of_mem _ hx))
  rw [key]
  · rfl
  · intro f hf
    rw [List.mem_filterMap] at hf
    obtain ⟨dep, h1, h2⟩ := hf
    cases dep with
    | props p => simp [depForm] at h2
    | ext n => exact hn.2 n f h1 h2

/-- C47: without agreement, the text is that of the word form whose properties are collected in the order of precedence. -/
theorem C47_precedence (U : PyUni) (ext : Externals) (d : Dictionary) (s : Substitution) (base : WordForm)
    (he : GoodExternals ext) (hd : GoodDictionary d) (hs : GoodSubstitution s)
    (hr : Resolves ext d s.id base) (hsup : ∀ n, Dep.ext n ∈ s.dependencies → ∃ f, ext.get? n = some f)
    (hn : NoAgreement ext base s.dependencies) :
    ∃ q, WFProps q ∧ Collects ext base s.dependencies q ∧ s.getText U ext d = (WordForm.new base.word (some q)).form U := by
  have hb := resolves_good he hd hr
  refine ⟨_, collected_wf he hb hs, collects he hb hs, ?_⟩
  rw [getText_noAgreement hr hsup hn]
  unfold WordForm.form WordForm.new
  apply getForm_congr
  intro g
  have hw := (accepted_iff.mp hb.1).1
  simp only
  rw [new2_get (collected_wf he hb hs) hw]
  split
  · rename_i hg; exact (collects he hb hs).1 g hg
  · rfl

/-- C47: `Collects` determines the value of every property. -/
theorem C47_determined (ext : Externals) (base : WordForm) (deps : List Dep) (q q' : Properties) (h : Collects ext base deps q)
    (h' : Collects ext base deps q') (g : Group) : q.get g = q'.get g := by
  cases hg : base.word.properties.isSpecified g with
  | true => rw [h.1 g hg, h'.1 g hg]
  | false =>
    by_cases hall : ∀ dep ∈ deps, depSays ext dep g = none
    · rw [h.2.2 g hg hall, h'.2.2 g hg hall]
    · have key : ∀ l : List Dep, (¬ ∀ dep ∈ l, depSays ext dep g = none) →
          ∃ pre dep post r, l = pre ++ dep :: post ∧ depSays ext dep g = some r ∧ ∀ x ∈ post, depSays ext x g = none := by
        intro l
        induction l with
        | nil => intro h; exact absurd (by simp) h
        | cons x xs ih =>
          intro h
          by_cases hx : ∀ dep ∈ xs, depSays ext dep g = none
          · cases hs : depSays ext x g with
            | none => exact absurd (by simpa [hs] using hx) h
            | some r => exact ⟨[], x, xs, r, rfl, hs, hx⟩
          · obtain ⟨pre, dep, post, r, h1, h2, h3⟩ := ih hx
            exact ⟨x :: pre, dep, post, r, by rw [h1]; rfl, h2, h3⟩
      obtain ⟨pre, dep, post, r, h1, h2, h3⟩ := key deps hall
      rw [h.2.1 g pre dep post r hg h1 h2 h3, h'.2.1 g pre dep post r hg h1 h2 h3]

/-- A noun with a fixed gender, after a form in the plural and a property list: the later dependency wins for the case, the
external supplies the number. -/
example : ∃ q, Collects [(str! "b", WordForm.new exVerb (some (.new [.record .NUMBER_PLURAL, .record .CASE_GENITIVE])))] (WordForm.new exNoun)
      [.ext (str! "b"), .props (.new [.record .CASE_DATIVE])] q ∧ q.get .CASE = some .CASE_DATIVE ∧ q.get .NUMBER = some .NUMBER_PLURAL ∧
      q.get .GENDER = some .GENDER_FEMININE := by
  refine ⟨_, collects ?_ (goodForm_new exNoun_accepted (by simp) (by simp)) ?_, by decide +kernel, by decide +kernel, by decide +kernel⟩
  · intro n f hf
    simp only [Dict.get?] at hf
    split at hf
    · injection hf with hf; subst hf
      exact goodForm_new ⟨exVerb.type, exVerb.forms, exVerb.properties, built_wf (.new _ (by simp)), by decide +kernel⟩
        (by rintro _ ⟨⟩; exact wf_new (by intro p hp; simp at hp)) (by simp)
    · cases hf
  · intro p hp; simp at hp; subst hp; exact wf_new (by intro p hp; simp at hp)

/-! ## What agreement does to well-formed properties -/

theorem nounAgreement_transform {U : PyUni} {w : Word} {p : Properties} {f : WordForm} (hp : WFProps p)
    (hw : w.type = .NOUN ∨ w.type = .PRONOUN) (hf : f.word.type = .INTEGER) :
    ∃ mode i case anim, p.get .DEPENDENCY_MODE = some mode ∧ p.get .INTEGER_FORM = some i ∧ p.get .CASE = some case ∧
      p.get .ANIMALITY = some anim ∧ transform U w p f = .ok (p.clone ((nounAgreement mode i case anim).map .record)) := by
  obtain ⟨mode, _, hm⟩ := get_mem_records hp (g := .DEPENDENCY_MODE) (by decide)
  obtain ⟨i, hi', hi⟩ := get_mem_records hp (g := .INTEGER_FORM) (by decide)
  obtain ⟨case, _, hc⟩ := get_mem_records hp (g := .CASE) (by decide)
  obtain ⟨anim, _, ha⟩ := get_mem_records hp (g := .ANIMALITY) (by decide)
  refine ⟨mode, i, case, anim, hm, hi, hc, ha, ?_⟩
  rw [← nounInteger_eq hm hi hc ha hi']
  unfold transform
  rcases hw with hw | hw <;> rw [hw, hf]

theorem adjectiveAgreement_transform {U : PyUni} {w : Word} {p : Properties} {f : WordForm} (hp : WFProps p)
    (hw : w.type = .ADJECTIVE ∨ w.type = .VERB ∨ w.type = .PARTICIPLE) (hf : f.word.type = .INTEGER) :
    ∃ mode i case gender, p.get .DEPENDENCY_MODE = some mode ∧ p.get .INTEGER_FORM = some i ∧ p.get .CASE = some case ∧
      p.get .GENDER = some gender ∧ transform U w p f = .ok (p.clone ((adjectiveAgreement mode i case gender).map .record)) := by
  obtain ⟨mode, _, hm⟩ := get_mem_records hp (g := .DEPENDENCY_MODE) (by decide)
  obtain ⟨i, hi', hi⟩ := get_mem_records hp (g := .INTEGER_FORM) (by decide)
  obtain ⟨case, _, hc⟩ := get_mem_records hp (g := .CASE) (by decide)
  obtain ⟨gender, hg', hg⟩ := get_mem_records hp (g := .GENDER) (by decide)
  refine ⟨mode, i, case, gender, hm, hi, hc, hg, ?_⟩
  rw [← adjectiveInteger_eq hm hi hc hg hi' hg']
  unfold transform
  rcases hw with hw | hw | hw <;> rw [hw, hf]

theorem transform_cases (w : Word) (f : WordForm) : w.type = .PREPOSITION ∨
    (w.type ≠ .PREPOSITION ∧ (f.word.type ≠ .INTEGER ∨ w.type = .INTEGER ∨ w.type = .TEXT)) ∨
    ((w.type = .NOUN ∨ w.type = .PRONOUN) ∧ f.word.type = .INTEGER) ∨
    ((w.type = .ADJECTIVE ∨ w.type = .VERB ∨ w.type = .PARTICIPLE) ∧ f.word.type = .INTEGER) := by
  by_cases hf : f.word.type = .INTEGER
  · cases hw : w.type <;> simp [hf]
  · by_cases hw : w.type = .PREPOSITION
    · exact .inl hw
    · exact .inr (.inl ⟨hw, .inl hf⟩)

/-- The properties with an optional record added. -/
def withForm (p : Properties) (o : Option Rec) : Properties :=
  match o with
  | none => p
  | some r => p.clone [.record r]

theorem bind_decision (X Y : Except PyErr Bool) (p : Properties) :
    (X >>= fun first => if first = true then (pure (p.clone [.record .PREPOSITION_FORM_ALTERNATIVE]) : Except PyErr Properties)
      else Y >>= fun second => if second = true then pure (p.clone [.record .PREPOSITION_FORM_ALTERNATIVE]) else pure p) =
    (X >>= fun first => if first = true then (pure (some Rec.PREPOSITION_FORM_ALTERNATIVE) : Except PyErr (Option Rec))
      else Y >>= fun second => if second = true then pure (some .PREPOSITION_FORM_ALTERNATIVE) else pure none).map (withForm p) := by
  rcases X with e | x
  · rfl
  · cases x
    · rcases Y with e | y
      · rfl
      · cases y <;> rfl
    · rfl

theorem consonant_decision (U : PyUni) (slave : Str) (f : WordForm) :
    ∃ dec : Except PyErr (Option Rec), ∀ p, consonantPrepositionAny U slave p f = dec.map (withForm p) := by
  unfold consonantPrepositionAny
  cases h1 : f.form U with
  | error e => exact ⟨.error e, fun p => rfl⟩
  | ok master =>
    refine ⟨_, fun p => Eq.trans ?_ (bind_decision
      (f.startsWithConsonantCluster U >>= fun b => if b = true then f.word.numberOfSyllables >>= fun n => if n = 1 then f.word.hasFluentVowel else .ok false else .ok false)
      (if slave = str! "в" ∨ slave = str! "с" then Py.first master >>= fun c => if slave = [c] then f.startsWithConsonantCluster U else .ok false else .ok false) p)⟩
    simp only [bind, Except.bind]
    cases h2 : f.startsWithConsonantCluster U with
    | error e => rfl
    | ok b =>
      cases b <;> dsimp only <;> simp only [Bool.false_eq_true, if_false, if_true]
      · by_cases hs : slave = str! "в" ∨ slave = str! "с" <;> simp only [hs, if_true, if_false, Bool.false_eq_true]
        cases h5 : Py.first master with
        | error e => rfl
        | ok c => by_cases hc : slave = [c] <;> simp only [hc, if_true, if_false, Bool.false_eq_true]
      · cases h3 : f.word.numberOfSyllables with
        | error e => rfl
        | ok k =>
          by_cases hk : k = 1 <;> simp only [hk, if_true, if_false]
          · cases h4 : f.word.hasFluentVowel with
            | error e => rfl
            | ok v =>
              cases v <;> simp only [Bool.false_eq_true, if_false, if_true]
              by_cases hs : slave = str! "в" ∨ slave = str! "с" <;> simp only [hs, if_true, if_false, Bool.false_eq_true]
              cases h5 : Py.first master with
              | error e => rfl
              | ok c => by_cases hc : slave = [c] <;> simp only [hc, if_true, if_false, Bool.false_eq_true]
          · by_cases hs : slave = str! "в" ∨ slave = str! "с" <;> simp only [hs, if_true, if_false, Bool.false_eq_true]
            cases h5 : Py.first master with
            | error e => rfl
            | ok c => by_cases hc : slave = [c] <;> simp only [hc, if_true, if_false, Bool.false_eq_true]

theorem vowel_decision (U : PyUni) (slave : Str) (f : WordForm) :
    ∃ dec : Except PyErr (Option Rec), ∀ p, vowelsPrepositionAny U slave p f = dec.map (withForm p) := by
  unfold vowelsPrepositionAny
  cases h1 : f.form U with
  | error e => exact ⟨.error e, fun p => rfl⟩
  | ok master =>
    by_cases hs : slave = str! "о" ∧ master ∈ [str! "всех", str! "мне", str! "всём", str! "что", str! "всей"]
    · exact ⟨.ok (some .PREPOSITION_FORM_SPECIAL), fun p => by simp only [bind, Except.bind, pure, Except.pure, Except.map, withForm, if_pos hs]⟩
    · cases h2 : Py.first master with
      | error e => exact ⟨.error e, fun p => by simp only [bind, Except.bind, pure, Except.pure, Except.map, withForm, if_neg hs, h2]⟩
      | ok c =>
        by_cases hc : NOT_J_VOWELS.contains c = true
        · exact ⟨.ok (some .PREPOSITION_FORM_ALTERNATIVE), fun p => by
            simp only [bind, Except.bind, pure, Except.pure, Except.map, withForm, if_neg hs, h2, if_pos hc]⟩
        · exact ⟨.ok none, fun p => by simp only [bind, Except.bind, pure, Except.pure, Except.map, withForm, if_neg hs, h2, if_neg hc]⟩

/-- The agreement of a preposition does not depend on the properties given. -/
theorem preposition_decision (U : PyUni) (w : Word) (f : WordForm) :
    ∃ dec : Except PyErr (Option Rec), ∀ p, prepositionAny U w p f = dec.map (withForm p) := by
  unfold prepositionAny
  cases h1 : w.normalForm with
  | error e => exact ⟨.error e, fun p => rfl⟩
  | ok slave =>
    cases h2 : Py.last slave with
    | error e => exact ⟨.error e, fun p => by simp [bind, Except.bind, Except.map, h2]⟩
    | ok c =>
      by_cases hc : CONSONANTS.contains c = true
      · obtain ⟨dec, h⟩ := consonant_decision U slave f
        exact ⟨dec, fun p => by simp only [bind, Except.bind, h2, if_pos hc, h p]⟩
      · obtain ⟨dec, h⟩ := vowel_decision U slave f
        exact ⟨dec, fun p => by simp only [bind, Except.bind, h2, if_neg hc, h p]⟩

theorem wf_withForm {p : Properties} (hp : WFProps p) (o : Option Rec) : WFProps (withForm p o) := by
  cases o with
  | none => exact hp
  | some r => exact wf_clone_records hp [r]

/-- Agreement adds some records, the same ones for properties that read the same. -/
theorem transform_adds (U : PyUni) (w : Word) (f : WordForm) (p p' : Properties) (hp : WFProps p) (hp' : WFProps p')
    (h : ∀ g, p.data.get? g = p'.data.get? g) :
    (∃ e, transform U w p f = .error e ∧ transform U w p' f = .error e) ∨
    ∃ q q', transform U w p f = .ok q ∧ transform U w p' f = .ok q' ∧ WFProps q ∧ WFProps q' ∧ ∀ g, q.data.get? g = q'.data.get? g := by
  have hget : ∀ g, p.get g = p'.get g := fun g => get_congr (h g)
  have hcl : ∀ rs : List Rec, ∀ g, (p.clone (rs.map .record)).data.get? g = (p'.clone (rs.map .record)).data.get? g := by
    intro rs g; rw [clone_records_get? hp, clone_records_get? hp', h]
  rcases transform_cases w f with hw | ⟨hw, hf⟩ | ⟨hw, hf⟩ | ⟨hw, hf⟩
  · rw [transform_preposition hw, transform_preposition hw]
    obtain ⟨dec, hd⟩ := preposition_decision U w f
    rw [hd p, hd p']
    cases dec with
    | error e => exact .inl ⟨e, rfl, rfl⟩
    | ok o =>
      refine .inr ⟨_, _, rfl, rfl, wf_withForm hp o, wf_withForm hp' o, ?_⟩
      cases o with
      | none => exact h
      | some r => exact hcl [r]
  · rw [C40_other_pairs U w p f hw hf, C40_other_pairs U w p' f hw hf]
    exact .inr ⟨_, _, rfl, rfl, hp, hp', h⟩
  · obtain ⟨mode, i, case, anim, h1, h2, h3, h4, h5⟩ := nounAgreement_transform (U := U) hp hw hf
    obtain ⟨mode', i', case', anim', h1', h2', h3', h4', h5'⟩ := nounAgreement_transform (U := U) hp' hw hf
    rw [hget, h1'] at h1; rw [hget, h2'] at h2; rw [hget, h3'] at h3; rw [hget, h4'] at h4
    injection h1 with h1; injection h2 with h2; injection h3 with h3; injection h4 with h4
    subst h1 h2 h3 h4
    exact .inr ⟨_, _, h5, h5', wf_clone_records hp _, wf_clone_records hp' _, hcl _⟩
  · obtain ⟨mode, i, case, anim, h1, h2, h3, h4, h5⟩ := adjectiveAgreement_transform (U := U) hp hw hf
    obtain ⟨mode', i', case', anim', h1', h2', h3', h4', h5'⟩ := adjectiveAgreement_transform (U := U) hp' hw hf
    rw [hget, h1'] at h1; rw [hget, h2'] at h2; rw [hget, h3'] at h3; rw [hget, h4'] at h4
    injection h1 with h1; injection h2 with h2; injection h3 with h3; injection h4 with h4
    subst h1 h2 h3 h4
    exact .inr ⟨_, _, h5, h5', wf_clone_records hp _, wf_clone_records hp' _, hcl _⟩

theorem transform_wf {U : PyUni} {w : Word} {f : WordForm} {p q : Properties} (hp : WFProps p) (h : transform U w p f = .ok q) :
    WFProps q := by
  rcases transform_adds U w f p p hp hp (fun _ => rfl) with ⟨e, h1, _⟩ | ⟨q1, _, h1, _, h2, _⟩
  · rw [h] at h1; cases h1
  · rw [h] at h1; injection h1 with h1; subst h1; exact h2

/-- The properties agreement may change. -/
def agreementGroups : List Group := [.NOUN_FORM, .NUMBER, .CASE, .PREPOSITION_FORM]

theorem transform_frame {U : PyUni} {w : Word} {f : WordForm} {p q : Properties} (hp : WFProps p) (h : transform U w p f = .ok q)
    (g : Group) (hg : g ∉ agreementGroups) : q.get g = p.get g := by
  simp only [agreementGroups, List.mem_cons, List.not_mem_nil, or_false, not_or] at hg
  by_cases hw : w.type = .PREPOSITION
  · exact (C40_preposition_frame U w p q f hp hw h g hg.2.2.2).1
  · by_cases hf : f.word.type = .INTEGER
    · exact (C40_number_frame U w p q f hp hf hw h g hg.1 hg.2.1 hg.2.2.1).1
    · rw [C40_other_pairs U w p f hw (.inl hf)] at h
      injection h with h; subst h; rfl

theorem foldlM_frame {U : PyUni} {w : Word} {fs : List WordForm} {p q : Properties} (hp : WFProps p)
    (h : fs.foldlM (fun ps external => transform U w ps external) p = .ok q) :
    WFProps q ∧ ∀ g, g ∉ agreementGroups → q.get g = p.get g := by
  induction fs generalizing p with
  | nil => injection h with h; subst h; exact ⟨hp, fun _ _ => rfl⟩
  | cons f fs ih =>
    rw [List.foldlM_cons] at h
    cases hx : transform U w p f with
    | error e => rw [hx] at h; cases h
    | ok p1 =>
      rw [hx] at h
      obtain ⟨h1, h2⟩ := ih (transform_wf hp hx) h
      exact ⟨h1, fun g hg => by rw [h2 g hg, transform_frame hp hx g hg]⟩

/-! ## C43 -/

theorem exPlural_forms (q : Properties) (hq : WFProps q) : exPlural.form q ≠ .ok (str! "a") := by
  obtain ⟨h1, h2⟩ := accepted_iff.mp exPlural_accepted
  obtain ⟨c, hc', hc⟩ := get_mem_records (wf_new2 hq h1) (g := .CASE) (by decide)
  obtain ⟨nf, hn', hn⟩ := get_mem_records (wf_new2 hq h1) (g := .NOUN_FORM) (by decide)
  rw [effective_eq h1 hq] at hc hn
  have hnum : effective exPlural q .NUMBER = some .NUMBER_PLURAL := rfl
  have key : ∀ (i : Nat), nounSlots[i]? = some [some nf, some .NUMBER_PLURAL, some c] → 6 ≤ i → exPlural.form q ≠ .ok (str! "a") := by
    intro i hi h6
    obtain ⟨f, hf1, hf2⟩ := C02_form_in_slot exPlural q (nounSlots.map some) i [some nf, some .NUMBER_PLURAL, some c]
      exPlural_accepted hq C02_documented_slots.1 (by rw [List.getElem?_map, hi]; rfl) (by
        intro j g r hg hr
        have hg' : [Group.NOUN_FORM, .NUMBER, .CASE][j]? = some g := hg
        match j with
        | 0 => simp at hg' hr; rw [← hg', ← hr]; exact hn
        | 1 => simp at hg' hr; rw [← hg', ← hr]; exact hnum
        | 2 => simp at hg' hr; rw [← hg', ← hr]; exact hc
        | j + 3 => simp at hr)
    rw [hf2]
    intro he; injection he with he; subst he
    have : i < 18 := by
      have := (List.getElem?_eq_some_iff.mp hf1).1
      simpa [exPlural] using this
    have : ∀ i < 18, 6 ≤ i → exPlural.forms[i]? ≠ some (str! "a") := by decide +kernel
    exact this i (by assumption) h6 hf1
  simp only [Group.records, List.mem_cons, List.not_mem_nil, or_false] at hc' hn'
  rcases hn' with rfl | rfl <;> rcases hc' with rfl | rfl | rfl | rfl | rfl | rfl
  · exact key 6 rfl (by decide)
  · exact key 7 rfl (by decide)
  · exact key 8 rfl (by decide)
  · exact key 9 rfl (by decide)
  · exact key 10 rfl (by decide)
  · exact key 11 rfl (by decide)
  · exact key 12 rfl (by decide)
  · exact key 13 rfl (by decide)
  · exact key 14 rfl (by decide)
  · exact key 15 rfl (by decide)
  · exact key 16 rfl (by decide)
  · exact key 17 rfl (by decide)

/-- Externals: a plural-only noun and the number 21. -/
def exCountedExternals : Externals := [(str! "w", WordForm.new exPlural), (str! "n", integerForm 21)]

theorem integerForm_good (n : Int) : GoodForm (integerForm n) := by
  have hw : WFProps (classifyInteger n.natAbs).properties := by
    rw [classify_properties]; exact wf_new (by intro p hp; simp at hp)
  exact goodForm_new ⟨.INTEGER, [pyStr n], _, hw, (C08_constructor _ _ _).1 rfl⟩ (by simp) (by simp)

theorem exCountedExternals_good : GoodExternals exCountedExternals := by
  intro n f hf
  simp only [exCountedExternals, Dict.get?] at hf
  split at hf
  · injection hf with hf; subst hf; exact goodForm_new exPlural_accepted (by simp) (by simp)
  · split at hf
    · injection hf with hf; subst hf; exact integerForm_good 21
    · cases hf

/-- C43 is false of the code: `[w|n]` with a plural-only noun and the number 21 gives a text the noun never gives on request. -/
theorem C43_violated (U : PyUni) : ∃ (ext : Externals) (s : Substitution) (base : WordForm) (text : Str),
    GoodExternals ext ∧ GoodSubstitution s ∧ (∀ d, Resolves ext d s.id base) ∧
    base.word.properties.isSpecified .NUMBER = true ∧ base.word.properties.get .NUMBER = some .NUMBER_PLURAL ∧
    (∀ d, s.getText U ext d = .ok text) ∧ ∀ q, WFProps q → base.word.form q ≠ .ok text := by
  refine ⟨exCountedExternals, ⟨str! "w", [.ext (str! "n")]⟩, WordForm.new exPlural, str! "a", exCountedExternals_good, ?_,
    fun d => .inl rfl, by decide +kernel, by decide +kernel, ?_, exPlural_forms⟩
  · intro p hp; simp at hp
  · intro d
    rw [getText_eq (base := WordForm.new exPlural) (.inl rfl) (by intro n hn; simp at hn; subst hn; exact ⟨_, rfl⟩)]
    have h1 : nounInteger (collected exCountedExternals (WordForm.new exPlural) [.ext (str! "n")]) =
        .ok (.new [.record .NUMBER_SINGULAR, .record .INTEGER_FORM_SINGULAR, .record .NOUN_FORM_NORMAL]) := by decide +kernel
    show (nounInteger (collected exCountedExternals (WordForm.new exPlural) [.ext (str! "n")]) >>= fun p => pure p).bind _ = _
    rw [h1]
    show WordForm.getForm U exPlural _ = _
    rw [getForm_lower (by decide +kernel)]
    decide +kernel

/-- C43, with agreement: every property the word fixes is honoured except noun form, number, case and preposition form. What
is missing is what `C43_violated` refutes. -/
theorem C43_frame_partial (U : PyUni) (ext : Externals) (d : Dictionary) (s : Substitution) (base : WordForm) (text : Str)
    (he : GoodExternals ext) (hd : GoodDictionary d) (hs : GoodSubstitution s)
    (hr : Resolves ext d s.id base) (ht : s.getText U ext d = .ok text) :
    ∃ q, WFProps q ∧ WordForm.getForm U base.word q = .ok text ∧
      ∀ g, base.word.properties.isSpecified g = true → g ≠ .NOUN_FORM → g ≠ .NUMBER → g ≠ .CASE → g ≠ .PREPOSITION_FORM →
        q.get g = base.word.properties.get g := by
  have hb := resolves_good he hd hr
  rcases missing_or ext s.dependencies with hsup | ⟨pre, n, post, h1, h2, h3⟩
  · rw [getText_eq hr hsup] at ht
    generalize hfs : (s.dependencies.filterMap (depForm ext)).foldlM (fun ps external => transform U base.word ps external)
      (collected ext base s.dependencies) = r at ht
    cases r with
    | error e => cases ht
    | ok q =>
      obtain ⟨hq, hfr⟩ := foldlM_frame (collected_wf he hb hs) hfs
      refine ⟨q, hq, ht, fun g hg g1 g2 g3 g4 => ?_⟩
      rw [hfr g (by simp [agreementGroups, g1, g2, g3, g4])]
      exact (collects he hb hs).1 g hg
  · unfold Substitution.getText at ht
    rw [baseForm_resolves.mp hr, h1, listProperties_missing h2 h3] at ht
    cases ht

/-- C43, without agreement: every property the word fixes is honoured. -/
theorem C43_no_agreement_partial (U : PyUni) (ext : Externals) (d : Dictionary) (s : Substitution) (base : WordForm) (text : Str)
    (he : GoodExternals ext) (hd : GoodDictionary d) (hs : GoodSubstitution s)
    (hr : Resolves ext d s.id base) (hn : NoAgreement ext base s.dependencies) (ht : s.getText U ext d = .ok text) :
    ∃ q, WFProps q ∧ WordForm.getForm U base.word q = .ok text ∧
      ∀ g, base.word.properties.isSpecified g = true → q.get g = base.word.properties.get g := by
  have hb := resolves_good he hd hr
  rcases missing_or ext s.dependencies with hsup | ⟨pre, n, post, h1, h2, h3⟩
  · rw [getText_noAgreement hr hsup hn] at ht
    exact ⟨_, collected_wf he hb hs, ht, (collects he hb hs).1⟩
  · unfold Substitution.getText at ht
    rw [baseForm_resolves.mp hr, h1, listProperties_missing h2 h3] at ht
    cases ht

/-- The witness of `C43_violated` meets the hypotheses of `C43_frame_partial`: the noun fixes its number, and a fixed gender
survives. -/
example : GoodExternals exCountedExternals ∧ GoodDictionary [] ∧ GoodSubstitution ⟨str! "w", [.ext (str! "n")]⟩ ∧
    Resolves exCountedExternals [] (str! "w") (WordForm.new exPlural) :=
  ⟨exCountedExternals_good, (by intro t f h; cases h), (by intro p hp; simp at hp), .inl rfl⟩

end Utg
