import Verif.Spec.AnyFilling
import Verif.Props.AnyDictionary
import Verif.Props.AnyWords
import Verif.Props.Phrase
/-!
# C154: filling a template with words loaded from any JSON documents
-/

namespace Utg
open Py Spec

/-- What agreement with a number does: it does not look at forms. -/
def agreeOnly (t : WordType) (p : Properties) (m : WordType) : Except PyErr Properties :=
  match t, m with
  | .NOUN, .INTEGER => nounInteger p
  | .ADJECTIVE, .INTEGER => adjectiveInteger p
  | .VERB, .INTEGER => adjectiveInteger p
  | .PRONOUN, .INTEGER => nounInteger p
  | .PARTICIPLE, .INTEGER => adjectiveInteger p
  | _, _ => .ok p

theorem transform_agree {U : PyUni} {w : Word} {p : Properties} {g : WordForm} (h : w.type ≠ .PREPOSITION) :
    transform U w p g = agreeOnly w.type p g.word.type := by
  unfold transform agreeOnly
  generalize w.type = t at *
  generalize g.word.type = m
  cases t <;> cases m <;> first | rfl | exact absurd rfl h

theorem transformLoaded_agree {U : PyUni} {w : LoadedWord} {p : Properties} {g : LoadedExternal} (h : w.type ≠ .PREPOSITION) :
    transformLoaded U w p g = liftErr (agreeOnly w.type p g.word.type) := by
  unfold transformLoaded agreeOnly
  generalize w.type = t at *
  generalize g.word.type = m
  cases t <;> cases m <;> first | rfl | exact absurd rfl h

theorem foldlM_agree {U : PyUni} {w : Word} (h : w.type ≠ .PREPOSITION) (gs : List WordForm) :
    ∀ p, gs.foldlM (fun ps external => transform U w ps external) p = (gs.map (·.word.type)).foldlM (agreeOnly w.type) p := by
  induction gs with
  | nil => intro p; rfl
  | cons g gs ih =>
    intro p
    rw [List.foldlM_cons, List.map_cons, List.foldlM_cons, transform_agree h]
    congr 1
    funext q
    exact ih q

theorem foldlM_agreeLoaded {U : PyUni} {w : LoadedWord} (h : w.type ≠ .PREPOSITION) (gs : List LoadedExternal) :
    ∀ p, gs.foldlM (transformLoaded U w) p = liftErr ((gs.map (·.word.type)).foldlM (agreeOnly w.type) p) := by
  induction gs with
  | nil => intro p; rfl
  | cons g gs ih =>
    intro p
    simp only [List.foldlM_cons, List.map_cons, transformLoaded_agree h, bind, Except.bind]
    cases agreeOnly w.type p g.word.type with
    | error e => rfl
    | ok q => exact ih q

theorem list_loaded {ext : LoadedExternals} (deps : List Dep) :
    (∃ n, listPropertiesLoaded ext deps = .error (.other (.ExternalDependecyNotFoundError n)) ∧
      ∀ ext', StandFor ext' ext → listProperties ext' deps = .error (.ExternalDependecyNotFoundError n)) ∨
    ∃ ps fs, listPropertiesLoaded ext deps = .ok (ps, fs) ∧ ((∀ n, .ext n ∉ deps) → fs = []) ∧
      ∀ ext', StandFor ext' ext → ∃ gs, listProperties ext' deps = .ok (ps, gs) ∧ List.Forall₂ (fun g f => StandsFor g f.toLoadedForm) gs fs := by
  induction deps with
  | nil => exact .inr ⟨[], [], rfl, fun _ => rfl, fun ext' _ => ⟨[], rfl, .nil⟩⟩
  | cons a deps ih =>
    cases a with
    | props p =>
      rcases ih with ⟨n, h1, h2⟩ | ⟨ps, fs, h1, h3, h2⟩
      · refine .inl ⟨n, ?_, fun ext' he => ?_⟩
        · simp only [listPropertiesLoaded, h1, bind, Except.bind]
        · simp only [listProperties, h2 ext' he, bind, Except.bind]
      · refine .inr ⟨p :: ps, fs, ?_, fun h => h3 fun n hn => h n (List.mem_cons_of_mem _ hn), fun ext' he => ?_⟩
        · simp only [listPropertiesLoaded, h1, bind, Except.bind]
        · obtain ⟨gs, h4, h5⟩ := h2 ext' he
          exact ⟨gs, by simp only [listProperties, h4, bind, Except.bind], h5⟩
    | ext n =>
      cases hf : ext.get? n with
      | none =>
        refine .inl ⟨n, ?_, fun ext' he => ?_⟩
        · simp only [listPropertiesLoaded, hf]
        · simp only [listProperties, (he n).1 hf]
      | some f =>
        rcases ih with ⟨m, h1, h2⟩ | ⟨ps, fs, h1, h3, h2⟩
        · refine .inl ⟨m, ?_, fun ext' he => ?_⟩
          · simp only [listPropertiesLoaded, hf, h1, bind, Except.bind]
          · obtain ⟨g, hg, -⟩ := (he n).2 f hf
            simp only [listProperties, hg, h2 ext' he, bind, Except.bind]
        · refine .inr ⟨f.properties :: ps, f :: fs, ?_, fun h => absurd (List.mem_cons_self ..) (h n), fun ext' he => ?_⟩
          · simp only [listPropertiesLoaded, hf, h1, bind, Except.bind]
          · obtain ⟨g, hg, hs⟩ := (he n).2 f hf
            obtain ⟨gs, h4, h5⟩ := h2 ext' he
            exact ⟨g :: gs, by simp only [listProperties, hg, h4, bind, Except.bind, hs.properties], .cons hs h5⟩

theorem stands_types {gs : List WordForm} {fs : List LoadedExternal} (h : List.Forall₂ (fun g f => StandsFor g f.toLoadedForm) gs fs) :
    gs.map (·.word.type) = fs.map (·.word.type) := by
  induction h with
  | nil => rfl
  | cons h _ ih => simp only [List.map_cons, ih, h.type]

theorem inCaseLoaded_eq (U : PyUni) (upper : Bool) (form : Json) :
    inCaseLoaded U upper form = if upper then form.upperFirst U else .ok form := by
  cases upper with
  | false => rfl
  | true =>
    cases form with
    | str s => cases s <;> rfl
    | arr l => cases l with
      | nil => rfl
      | cons x l => cases x <;> rfl
    | _ => rfl

/-- The position of the form that properties select. -/
def positionOf (t : WordType) (p : Properties) : Except PyErr Nat := do
  let cache ← rawWordsCache t
  match cache.get? (p.getRawKey t.schema) with
  | none => .error .KeyError
  | some index => .ok index

theorem positionOf_lt {t : WordType} {p : Properties} {i : Nat} (h : positionOf t p = .ok i) : i < (invertedCache t).length := by
  obtain ⟨cache, hc, hs⟩ := rawWordsCache_spec t
  simp only [positionOf, hc, bind, Except.bind] at h
  split at h
  · cases h
  · next index hi => injection h with h; subst h; exact hs.bound _ _ hi

theorem getRec_wordCase (p : Properties) : ∃ wc, p.getRec .WORD_CASE = .ok wc := by
  unfold Properties.getRec
  cases h : p.get .WORD_CASE with
  | some r => exact ⟨r, rfl⟩
  | none =>
    rw [get_eq_ite_default] at h
    split at h
    · next hs =>
      obtain ⟨r, hr⟩ := isSpecified_iff.mp hs
      simp [Properties.get, hr] at h
    · simp [documentedDefault] at h

theorem getForm_position {U : PyUni} {w : Word} {p : Properties} {wc : Rec} (hw : Accepted w) (hwc : p.getRec .WORD_CASE = .ok wc) :
    (∀ e, positionOf w.type p = .error e → WordForm.getForm U w p = .error e) ∧
    ∀ i, positionOf w.type p = .ok i → ∃ form, w.forms[i]? = some form ∧
      WordForm.getForm U w p = inCase U (decide (wc = .WORD_CASE_UPPER)) form := by
  have hlen := (accepted_iff.mp hw).2
  constructor
  · intro e he
    unfold positionOf at he
    unfold WordForm.getForm Word.formRaw
    simp only [bind, Except.bind] at he ⊢
    cases hc : rawWordsCache w.type with
    | error e' => rw [hc] at he; simp at he ⊢; exact he
    | ok cache =>
      rw [hc] at he
      simp only at he ⊢
      cases hk : cache.get? (p.getRawKey w.type.schema) with
      | none => rw [hk] at he; simp at he ⊢; exact he
      | some i => rw [hk] at he; cases he
  · intro i hi
    have hlt := positionOf_lt hi
    rw [← hlen] at hlt
    refine ⟨w.forms[i], List.getElem?_eq_getElem hlt, ?_⟩
    unfold positionOf at hi
    unfold WordForm.getForm Word.formRaw
    simp only [bind, Except.bind] at hi ⊢
    cases hc : rawWordsCache w.type with
    | error e' => rw [hc] at hi; cases hi
    | ok cache =>
      rw [hc] at hi
      simp only at hi ⊢
      cases hk : cache.get? (p.getRawKey w.type.schema) with
      | none => rw [hk] at hi; cases hi
      | some j =>
        rw [hk] at hi
        injection hi with hi
        subst hi
        simp only [List.getElem?_eq_getElem hlt, hwc]
        by_cases h : wc = .WORD_CASE_UPPER
        · rw [if_pos h, decide_eq_true h]
          cases w.forms[j] <;> rfl
        · rw [if_neg h, decide_eq_false h]
          rfl

theorem getFormLoaded_position {U : PyUni} {w : LoadedWord} {p : Properties} {wc : Rec} (hwc : p.getRec .WORD_CASE = .ok wc) :
    (∀ e, positionOf w.type p = .error e → w.getForm U p = .error (.other e)) ∧
    ∀ i, positionOf w.type p = .ok i → w.getForm U p = (w.forms.nth i).bind (inCaseLoaded U (decide (wc = .WORD_CASE_UPPER))) := by
  constructor
  · intro e he
    unfold positionOf at he
    unfold LoadedWord.getForm LoadedWord.formRaw
    simp only [bind, Except.bind] at he ⊢
    cases hc : rawWordsCache w.type with
    | error e' => rw [hc] at he; simp [liftErr] at he ⊢; exact he
    | ok cache =>
      rw [hc] at he
      simp only [liftErr] at he ⊢
      cases hk : cache.get? (p.getRawKey w.type.schema) with
      | none => rw [hk] at he; simp at he ⊢; exact he
      | some i => rw [hk] at he; cases he
  · intro i hi
    unfold positionOf at hi
    unfold LoadedWord.getForm LoadedWord.formRaw
    simp only [bind, Except.bind] at hi ⊢
    cases hc : rawWordsCache w.type with
    | error e' => rw [hc] at hi; cases hi
    | ok cache =>
      rw [hc] at hi
      simp only [liftErr] at hi ⊢
      cases hk : cache.get? (p.getRawKey w.type.schema) with
      | none => rw [hk] at hi; cases hi
      | some j =>
        rw [hk] at hi
        injection hi with hi
        subst hi
        simp only [hwc]
        cases w.forms.nth j with
        | error e => rfl
        | ok x =>
          simp only [inCaseLoaded_eq]
          by_cases h : wc = .WORD_CASE_UPPER <;> simp [h]

/-- C154: which form of a loaded word is taken does not depend on forms, if it is no preposition that depends on a variable: it is the one
at the same position, with the same letter size, as for any proper words of the same parts of speech and with the same properties. -/
theorem C154_position (U : PyUni) (s : Substitution) (ext : LoadedExternals) (d : LoadedDictionary) (base : LoadedForm)
    (hr : ResolvesLoaded ext d s.id base) (hp : base.word.type = .PREPOSITION → ∀ n, .ext n ∉ s.dependencies) :
    (∃ e, s.getLoaded U ext d = .error (.other e) ∧ ∀ ext' d' g, StandFor ext' ext → Resolves ext' d' s.id g → StandsFor g base →
      s.getText U ext' d' = .error e) ∨
    ∃ (i : Nat) (upper : Bool), s.getLoaded U ext d = (base.word.forms.nth i).bind (inCaseLoaded U upper) ∧
      ∀ ext' d' g, StandFor ext' ext → Resolves ext' d' s.id g → StandsFor g base →
        ∃ form, g.word.forms[i]? = some form ∧ s.getText U ext' d' = inCase U upper form := by
  have hb : s.baseLoaded ext d = .ok base := by
    unfold Substitution.baseLoaded
    rcases hr with ⟨_, h, rfl⟩ | ⟨h, h'⟩
    · rw [h]
    · rw [h]; exact h'
  have hb' : ∀ ext' d' g, Resolves ext' d' s.id g → s.baseForm ext' d' = .ok g := by
    intro ext' d' g h
    unfold Substitution.baseForm
    rcases h with h | ⟨h, h'⟩
    · rw [h]
    · rw [h]; exact h'
  rcases list_loaded (ext := ext) s.dependencies with ⟨n, h1, h2⟩ | ⟨ps, fs, h1, h3, h2⟩
  · refine .inl ⟨.ExternalDependecyNotFoundError n, ?_, fun ext' d' g he hg _ => ?_⟩
    · unfold Substitution.getLoaded; rw [hb]; simp only [bind, Except.bind, h1]
    · unfold Substitution.getText; rw [hb' _ _ _ hg]; simp only [bind, Except.bind, h2 ext' he]
  -- the properties
  obtain ⟨x, hx, hx'⟩ : ∃ x : Except PyErr Properties,
      fs.foldlM (transformLoaded U base.word) (base.properties.clone ((ps ++ [base.word.properties]).map .props)) = liftErr x ∧
      ∀ (g : WordForm) gs, StandsFor g base → List.Forall₂ (fun g f => StandsFor g f.toLoadedForm) gs fs →
        gs.foldlM (fun ps external => transform U g.word ps external) (g.properties.clone ((ps ++ [g.word.properties]).map .props)) = x := by
    by_cases ht : base.word.type = .PREPOSITION
    · have hn := h3 (hp ht)
      subst hn
      refine ⟨.ok _, rfl, fun g gs hg hgs => ?_⟩
      cases hgs
      rw [hg.properties, hg.own]
      rfl
    · refine ⟨_, foldlM_agreeLoaded ht fs _, fun g gs hg hgs => ?_⟩
      rw [foldlM_agree (by rw [hg.type]; exact ht), stands_types hgs, hg.type, hg.properties, hg.own]
  have hl : s.getLoaded U ext d = (liftErr x).bind fun fp => base.word.getForm U fp := by
    unfold Substitution.getLoaded
    rw [hb]
    simp only [bind, Except.bind, h1] at hx ⊢
    rw [hx]
  have hg : ∀ ext' d' g, StandFor ext' ext → Resolves ext' d' s.id g → StandsFor g base →
      s.getText U ext' d' = x.bind fun fp => WordForm.getForm U g.word fp := by
    intro ext' d' g he hg hs
    obtain ⟨gs, h4, h5⟩ := h2 ext' he
    unfold Substitution.getText
    rw [hb' _ _ _ hg]
    have := hx' g gs hs h5
    simp only [bind, Except.bind, h4] at this ⊢
    rw [this]
  cases x with
  | error e => exact .inl ⟨e, hl, fun ext' d' g h1 h2 h3 => hg ext' d' g h1 h2 h3⟩
  | ok fp =>
    obtain ⟨wc, hwc⟩ := getRec_wordCase fp
    cases hpos : positionOf base.word.type fp with
    | error e =>
      refine .inl ⟨e, ?_, fun ext' d' g h1 h2 h3 => ?_⟩
      · rw [hl]; exact (getFormLoaded_position hwc).1 e hpos
      · rw [hg ext' d' g h1 h2 h3]
        exact (getForm_position h3.accepted hwc).1 e (by rw [h3.type]; exact hpos)
    | ok i =>
      refine .inr ⟨i, decide (wc = .WORD_CASE_UPPER), ?_, fun ext' d' g h1 h2 h3 => ?_⟩
      · rw [hl]; exact (getFormLoaded_position hwc).2 i hpos
      · rw [hg ext' d' g h1 h2 h3]
        exact (getForm_position h3.accepted hwc).2 i (by rw [h3.type]; exact hpos)

/-- What a call of the code gives for words with lists of texts, as a call for loaded words gives it. -/
def lifted : Except PyErr Str → Except LoadErr Json
  | .error e => .error (.other e)
  | .ok s => .ok (.str s)

/-- A word form, as it is after its word was saved and loaded. -/
def asLoadedExternal (f : WordForm) : LoadedExternal := ⟨asLoadedForm f, f.formProperties⟩

theorem getForm_texts (U : PyUni) (w : Word) (p : Properties) : (asLoaded w).getForm U p = lifted (WordForm.getForm U w p) := by
  unfold LoadedWord.getForm LoadedWord.formRaw WordForm.getForm Word.formRaw
  simp only [asLoaded, bind, Except.bind]
  cases rawWordsCache w.type with
  | error e => rfl
  | ok cache =>
    simp only [liftErr]
    cases cache.get? (p.getRawKey w.type.schema) with
    | none => rfl
    | some i =>
      simp only [Json.nth, List.getElem?_map]
      cases w.forms[i]? with
      | none => rfl
      | some s =>
        simp only [Option.map]
        cases p.getRec .WORD_CASE with
        | error e => rfl
        | ok wc =>
          simp only
          by_cases h : wc = .WORD_CASE_UPPER
          · rw [if_pos h, if_pos h]; cases s <;> rfl
          · rw [if_neg h, if_neg h]; rfl

theorem form_texts (U : PyUni) (f : WordForm) : (asLoadedExternal f).form U = lifted (f.form U) := getForm_texts U _ _

theorem cluster_texts (U : PyUni) (f : WordForm) :
    (asLoadedExternal f).startsWithConsonantCluster U = liftErr (f.startsWithConsonantCluster U) := by
  unfold LoadedExternal.startsWithConsonantCluster WordForm.startsWithConsonantCluster
  rw [form_texts]
  cases f.form U with
  | error e => rfl
  | ok s =>
    match s with
    | [] => rfl
    | [c] =>
      simp only [lifted, bind, Except.bind, Json.nth, List.getElem?_cons_zero, Json.among, consonantCluster, Json.size]
      cases CONSONANTS.contains c <;> rfl
    | c :: d :: s =>
      simp only [lifted, bind, Except.bind, Json.nth, List.getElem?_cons_zero, List.getElem?_cons_succ, Json.among, consonantCluster, Json.size]
      cases CONSONANTS.contains c <;> rfl

theorem sounds_texts (U : PyUni) {w : Word} (hw : Accepted w) : ∃ n b, w.numberOfSyllables = .ok n ∧ w.hasFluentVowel = .ok b ∧
    (asLoaded w).numberOfSyllables = .ok n ∧ (asLoaded w).hasFluentVowel = .ok b := by
  obtain ⟨⟨n, h1, h2⟩, ⟨b, h3, h4⟩, -⟩ :=
    C149_proper U _ (asLoaded w) w.forms w.properties (accepted_iff.mp hw).1 (C142_save_load w hw) rfl
  exact ⟨n, b, h1, h3, h2, h4⟩

theorem consonant_texts (U : PyUni) (slave : Str) (p : Properties) (f : WordForm) (hf : Accepted f.word) :
    consonantPrepositionLoaded U (.str slave) p (asLoadedExternal f) = liftErr (consonantPrepositionAny U slave p f) := by
  obtain ⟨n, b, h1, h2, h3, h4⟩ := sounds_texts U hf
  have h3 : (asLoadedExternal f).word.numberOfSyllables = .ok n := h3
  have h4 : (asLoadedExternal f).word.hasFluentVowel = .ok b := h4
  unfold consonantPrepositionLoaded consonantPrepositionAny
  rw [form_texts, cluster_texts, h1, h2, h3, h4]
  cases f.form U with
  | error e => rfl
  | ok s =>
    have e1 : (decide (slave ∈ [str! "в", str! "с"]) = true) ↔ (slave = str! "в" ∨ slave = str! "с") := by simp
    simp only [lifted, bind, Except.bind, Json.isOneOf, e1]
    cases f.startsWithConsonantCluster U with
    | error e => rfl
    | ok c =>
      have hq : ∀ a, ((Json.str slave).eqv (.str [a]) = true) ↔ slave = [a] := by simp [Json.eqv, Json.hkey]
      by_cases hn : n = 1 <;> by_cases hs : slave = str! "в" ∨ slave = str! "с" <;> cases s with
      | nil => cases b <;> cases c <;> simp [hn, hs, Json.nth, Py.first, liftErr, pure, Except.pure]
      | cons a s =>
        simp only [Json.nth, List.getElem?_cons_zero, hq, hn, hs, if_true, if_false, Py.first]
        by_cases ha : slave = [a] <;> cases b <;> cases c <;> simp [ha, liftErr, pure, Except.pure]

theorem vowels_texts (U : PyUni) (slave : Str) (p : Properties) (f : WordForm) :
    vowelsPrepositionLoaded U (.str slave) p (asLoadedExternal f) = liftErr (vowelsPrepositionAny U slave p f) := by
  unfold vowelsPrepositionLoaded vowelsPrepositionAny
  rw [form_texts]
  cases f.form U with
  | error e => rfl
  | ok s =>
    simp only [lifted, bind, Except.bind]
    have hq : ((Json.str slave).isOneOf [str! "о"] && (Json.str s).isOneOf [str! "всех", str! "мне", str! "всём", str! "что", str! "всей"]) =
        decide (slave = str! "о" ∧ s ∈ [str! "всех", str! "мне", str! "всём", str! "что", str! "всей"]) := by
      simp [Json.isOneOf]
    rw [hq]
    by_cases h : slave = str! "о" ∧ s ∈ [str! "всех", str! "мне", str! "всём", str! "что", str! "всей"]
    · rw [if_pos h, if_pos (decide_eq_true h)]; rfl
    · rw [if_neg h, if_neg (by simpa only [decide_eq_true_eq] using h)]
      cases s with
      | nil => rfl
      | cons a s =>
        simp only [Json.nth, List.getElem?_cons_zero, Py.first, Json.among]
        cases NOT_J_VOWELS.contains a <;> rfl

theorem normalForm_texts (w : Word) : (asLoaded w).form (asLoaded w).properties = lifted w.normalForm := by
  unfold LoadedWord.form Word.normalForm Word.form Word.formRaw
  simp only [asLoaded, bind, Except.bind]
  cases rawWordsCache w.type with
  | error e => rfl
  | ok cache =>
    simp only
    cases cache.get? ((Properties.new [.props w.properties, .props w.properties]).getRawKey w.type.schema) with
    | none => rfl
    | some i =>
      simp only [Json.nth, List.getElem?_map]
      cases w.forms[i]? <;> rfl

theorem preposition_texts (U : PyUni) (w : Word) (p : Properties) (f : WordForm) (hf : Accepted f.word) :
    prepositionLoaded U (asLoaded w) p (asLoadedExternal f) = liftErr (prepositionAny U w p f) := by
  unfold prepositionLoaded prepositionAny
  rw [normalForm_texts]
  cases w.normalForm with
  | error e => rfl
  | ok s =>
    simp only [lifted, bind, Except.bind, Json.lastItem, Py.last]
    cases s.getLast? with
    | none => rfl
    | some c =>
      simp only [Json.among]
      cases CONSONANTS.contains c with
      | true => exact consonant_texts U s p f hf
      | false => exact vowels_texts U s p f

theorem transform_texts (U : PyUni) (w : Word) (p : Properties) (f : WordForm) (hf : Accepted f.word) :
    transformLoaded U (asLoaded w) p (asLoadedExternal f) = liftErr (transform U w p f) := by
  by_cases h : w.type = .PREPOSITION
  · have e1 : transformLoaded U (asLoaded w) p (asLoadedExternal f) = prepositionLoaded U (asLoaded w) p (asLoadedExternal f) := by
      unfold transformLoaded
      have : (asLoaded w).type = .PREPOSITION := h
      rw [this]
    have e2 : transform U w p f = prepositionAny U w p f := by
      unfold transform
      rw [h]
    rw [e1, e2]
    exact preposition_texts U w p f hf
  · rw [transform_agree h, transformLoaded_agree (w := asLoaded w) h]
    rfl

theorem get?_asLoadedExternals (ext : Externals) (n : Str) : (asLoadedExternals ext).get? n = (ext.get? n).map asLoadedExternal := by
  unfold asLoadedExternals
  induction ext with
  | nil => rfl
  | cons kv ext ih =>
    obtain ⟨k, v⟩ := kv
    rw [List.map_cons]
    unfold Dict.get?
    by_cases h : k = n
    · subst h; simp [asLoadedExternal]
    · rw [if_neg h, if_neg h]; exact ih

theorem listProperties_texts (ext : Externals) (deps : List Dep) :
    listPropertiesLoaded (asLoadedExternals ext) deps =
      match listProperties ext deps with
      | .error e => .error (.other e)
      | .ok (ps, fs) => .ok (ps, fs.map asLoadedExternal) := by
  induction deps with
  | nil => rfl
  | cons a deps ih =>
    cases a with
    | props p =>
      simp only [listPropertiesLoaded, listProperties, ih]
      cases listProperties ext deps <;> rfl
    | ext n =>
      simp only [listPropertiesLoaded, listProperties, ih, get?_asLoadedExternals]
      cases ext.get? n with
      | none => rfl
      | some f => cases listProperties ext deps <;> rfl

theorem listProperties_mem {ext : Externals} {deps : List Dep} {ps : List Properties} {fs : List WordForm}
    (h : listProperties ext deps = .ok (ps, fs)) : ∀ f ∈ fs, ∃ n, ext.get? n = some f := by
  induction deps generalizing ps fs with
  | nil => cases h; intro f hf; cases hf
  | cons a deps ih =>
    cases a with
    | props p =>
      simp only [listProperties] at h
      cases hl : listProperties ext deps with
      | error e => rw [hl] at h; cases h
      | ok x => rw [hl] at h; cases h; exact ih hl
    | ext n =>
      simp only [listProperties] at h
      cases hg : ext.get? n with
      | none => rw [hg] at h; cases h
      | some g =>
        rw [hg] at h
        cases hl : listProperties ext deps with
        | error e => rw [hl] at h; cases h
        | ok x =>
          rw [hl] at h
          cases h
          intro f hf
          rcases List.mem_cons.mp hf with rfl | hf
          · exact ⟨n, hg⟩
          · exact ih hl f hf

theorem transforms_texts (U : PyUni) (w : Word) (fs : List WordForm) (hf : ∀ f ∈ fs, Accepted f.word) :
    ∀ p, (fs.map asLoadedExternal).foldlM (transformLoaded U (asLoaded w)) p =
      liftErr (fs.foldlM (fun ps external => transform U w ps external) p) := by
  induction fs with
  | nil => intro p; rfl
  | cons f fs ih =>
    intro p
    rw [List.map_cons, List.foldlM_cons, List.foldlM_cons, transform_texts U w p f (hf f (List.mem_cons_self ..))]
    cases transform U w p f with
    | error e => rfl
    | ok q => exact ih (fun g hg => hf g (List.mem_cons_of_mem _ hg)) q

theorem getText_texts (U : PyUni) (s : Substitution) (ext : Externals) (d : Dictionary) (d' : LoadedDictionary)
    (he : ∀ n f, ext.get? n = some f → Accepted f.word)
    (hd : ∀ text, (∀ f, d.getWord text = .ok f → d'.getWord text = .ok (asLoadedForm f)) ∧
      (∀ e, d.getWord text = .error e → d'.getWord text = .error (.other e))) :
    s.getLoaded U (asLoadedExternals ext) d' = lifted (s.getText U ext d) := by
  have hb : s.baseLoaded (asLoadedExternals ext) d' = match s.baseForm ext d with
      | .error e => .error (.other e)
      | .ok f => .ok (asLoadedForm f) := by
    unfold Substitution.baseLoaded Substitution.baseForm
    rw [get?_asLoadedExternals]
    cases ext.get? s.id with
    | some f => rfl
    | none =>
      simp only [Option.map]
      cases h : d.getWord s.id with
      | ok f => exact (hd s.id).1 f h
      | error e => exact (hd s.id).2 e h
  unfold Substitution.getLoaded Substitution.getText
  rw [hb, listProperties_texts]
  cases s.baseForm ext d with
  | error e => rfl
  | ok f =>
    simp only [bind, Except.bind]
    cases hl : listProperties ext s.dependencies with
    | error e => rfl
    | ok x =>
      obtain ⟨ps, fs⟩ := x
      simp only
      have ht := transforms_texts U f.word fs (fun g hg => by
        obtain ⟨n, hn⟩ := listProperties_mem hl g hg
        exact he n g hn) (f.properties.clone ((ps ++ [f.word.properties]).map .props))
      have ht' : (fs.map asLoadedExternal).foldlM (transformLoaded U (asLoadedForm f).word)
          ((asLoadedForm f).properties.clone ((ps ++ [(asLoadedForm f).word.properties]).map .props)) = _ := ht
      rw [ht']
      cases fs.foldlM (fun ps external => transform U f.word ps external) (f.properties.clone ((ps ++ [f.word.properties]).map .props)) with
      | error e => rfl
      | ok q => exact getForm_texts U f.word q

/-- C154: with words whose forms are lists of texts a template is filled as the other claims say. -/
theorem C154_proper (numLess : Json → Json → Bool) (U : PyUni) (print : Json → Str) (t : Template) (ext : Externals) (ws : List Word)
    (he : ∀ n f, ext.get? n = some f → Accepted f.word) :
    (∀ text, t.substitute U ext (history U ws) = .ok text →
      t.fillLoaded U print (asLoadedExternals ext) (loadedHistory numLess U (ws.map asLoaded)) = .ok text) ∧
    (∀ e, t.substitute U ext (history U ws) = .error e →
      t.fillLoaded U print (asLoadedExternals ext) (loadedHistory numLess U (ws.map asLoaded)) = .error (.other e)) := by
  have hs : ∀ s : Substitution, s.getLoaded U (asLoadedExternals ext) (loadedHistory numLess U (ws.map asLoaded)) =
      lifted (s.getText U ext (history U ws)) := fun s => getText_texts U s ext _ _ he fun text => (C151_proper numLess U ws text).2
  have hm : ∀ subs : List Substitution,
      subs.mapM (fun s => s.getLoaded U (asLoadedExternals ext) (loadedHistory numLess U (ws.map asLoaded))) =
      match subs.mapM (fun s => s.getText U ext (history U ws)) with
      | .error e => .error (.other e)
      | .ok texts => .ok (texts.map .str) := by
    intro subs
    induction subs with
    | nil => rfl
    | cons s subs ih =>
      rw [List.mapM_cons, List.mapM_cons, ih, hs]
      cases s.getText U ext (history U ws) with
      | error e => rfl
      | ok x => cases subs.mapM (fun s => s.getText U ext (history U ws)) <;> rfl
  have h : t.fillLoaded U print (asLoadedExternals ext) (loadedHistory numLess U (ws.map asLoaded)) =
      liftErr (t.substitute U ext (history U ws)) := by
    unfold Template.fillLoaded Template.substitute
    rw [hm]
    cases t.substitutions.mapM (fun s => s.getText U ext (history U ws)) with
    | error e => rfl
    | ok texts =>
      simp only [bind, Except.bind]
      have : (texts.map Json.str).map (Json.shown print) = texts := by
        rw [List.map_map]
        exact List.map_id' texts
      rw [this]
      cases t.template <;> rfl
  rw [h]
  exact ⟨fun text ht => by rw [ht]; rfl, fun e ht => by rw [ht]; rfl⟩

/-- C154: a template made of a text gives the text with each variable replaced by what `%s` makes of its form; if no form can be found for a
variable, the exception of the first such variable is raised. -/
theorem C154_filled (U : PyUni) (print : Json → Str) (names : List Str) (text l : Str) (ps : List (Str × Str)) (t : Template)
    (ext : LoadedExternals) (d : LoadedDictionary) (h : Pieces text l ps) (ht : Template.empty.parse U text names = .ok t) :
    (∀ values, List.Forall₂ (fun s v => s.getLoaded U ext d = .ok v) t.substitutions values →
      t.fillLoaded U print ext d = .ok (filled l (values.map (Json.shown print)) (ps.map Prod.snd))) ∧
    (∀ pre s post e, t.substitutions = pre ++ s :: post → (∀ q ∈ pre, ∃ v, q.getLoaded U ext d = .ok v) → s.getLoaded U ext d = .error e →
      t.fillLoaded U print ext d = .error e) := by
  obtain ⟨hp, htm⟩ := (C45_parse U names text l ps t h).mp ht
  have hlen := hp.length_eq
  constructor
  · intro values hv
    have hm : t.substitutions.mapM (fun s => s.getLoaded U ext d) = .ok values := by
      clear htm hp hlen
      generalize t.substitutions = subs at hv
      induction hv with
      | nil => rfl
      | cons h _ ih => rw [List.mapM_cons, h, ih]; rfl
    unfold Template.fillLoaded
    rw [hm, htm]
    simp only [bind, Except.bind]
    rw [pyFormat_template _ _ _ _ (by rw [List.length_map, ← hv.length_eq, hlen])]
    rfl
  · intro pre s post e hs hpre he
    have hm : t.substitutions.mapM (fun s => s.getLoaded U ext d) = .error e := by
      rw [hs]
      clear hs
      induction pre with
      | nil => rw [List.nil_append, List.mapM_cons, he]; rfl
      | cons q pre ih =>
        obtain ⟨v, hv⟩ := hpre q (List.mem_cons_self ..)
        rw [List.cons_append, List.mapM_cons, hv, ih fun q' hq => hpre q' (List.mem_cons_of_mem _ hq)]
        rfl
    unfold Template.fillLoaded
    rw [hm]
    rfl

theorem listPropertiesLoaded_first {ext : LoadedExternals} {f : LoadedExternal} {n : Str} {post : List Dep} (pre : List Dep)
    (hpre : ∀ m, .ext m ∉ pre) (hf : ext.get? n = some f) (hall : ∀ m, .ext m ∈ post → ext.get? m ≠ none) :
    ∃ ps fs, listPropertiesLoaded ext (pre ++ .ext n :: post) = .ok (ps, f :: fs) := by
  have hok : ∀ deps : List Dep, (∀ m, .ext m ∈ deps → ext.get? m ≠ none) → ∃ x, listPropertiesLoaded ext deps = .ok x := by
    intro deps
    induction deps with
    | nil => exact fun _ => ⟨_, rfl⟩
    | cons a deps ih =>
      intro ha
      obtain ⟨x, hx⟩ := ih fun m hm => ha m (List.mem_cons_of_mem _ hm)
      cases a with
      | props p => exact ⟨_, by simp only [listPropertiesLoaded, hx, bind, Except.bind]; rfl⟩
      | ext m =>
        cases hg : ext.get? m with
        | none => exact absurd hg (ha m (List.mem_cons_self ..))
        | some g => exact ⟨_, by simp only [listPropertiesLoaded, hg, hx, bind, Except.bind]; rfl⟩
  induction pre with
  | nil =>
    obtain ⟨x, hx⟩ := hok post hall
    exact ⟨_, _, by simp only [List.nil_append, listPropertiesLoaded, hf, hx, bind, Except.bind]; rfl⟩
  | cons a pre ih =>
    obtain ⟨ps, fs, h⟩ := ih fun m hm => hpre m (List.mem_cons_of_mem _ hm)
    cases a with
    | ext m => exact absurd (List.mem_cons_self ..) (hpre m)
    | props p => exact ⟨p :: ps, fs, by simp only [List.cons_append, listPropertiesLoaded, h, bind, Except.bind]⟩

/-- C154: a preposition that depends on a variable needs the first letter of its form: it raises what happens without. -/
theorem C154_preposition (U : PyUni) (s : Substitution) (ext : LoadedExternals) (d : LoadedDictionary) (base : LoadedForm)
    (hr : ResolvesLoaded ext d s.id base) (hb : base.word.type = .PREPOSITION) (own : Str) (c : Char)
    (hown : base.word.form base.word.properties = .ok (.str (own ++ [c]))) (pre post : List Dep) (n : Str) (f : LoadedExternal)
    (hdeps : s.dependencies = pre ++ .ext n :: post) (hpre : ∀ m, .ext m ∉ pre) (hf : ext.get? n = some f)
    (hall : ∀ m, .ext m ∈ post → ext.get? m ≠ none) :
    (∀ e, f.form U = .error e → s.getLoaded U ext d = .error e) ∧
    (∀ x e, f.form U = .ok x → NoFirstLetter x e → s.getLoaded U ext d = .error e) := by
  have hbase : s.baseLoaded ext d = .ok base := by
    unfold Substitution.baseLoaded
    rcases hr with ⟨_, h, rfl⟩ | ⟨h, h'⟩
    · rw [h]
    · rw [h]; exact h'
  obtain ⟨ps, fs, hl⟩ := listPropertiesLoaded_first pre hpre hf hall
  have ht : ∀ p, transformLoaded U base.word p f = prepositionLoaded U base.word p f := by
    intro p
    unfold transformLoaded
    rw [hb]
  have key : ∀ e, (∀ p, prepositionLoaded U base.word p f = .error e) → s.getLoaded U ext d = .error e := by
    intro e he
    unfold Substitution.getLoaded
    rw [hbase, hdeps, hl]
    simp only [bind, Except.bind, List.foldlM_cons, ht, he]
  constructor
  · intro e he
    refine key e fun p => ?_
    unfold prepositionLoaded
    rw [hown]
    simp only [bind, Except.bind, Json.lastItem, List.getLast?_append, List.getLast?_singleton, Option.some_or, Json.among]
    cases CONSONANTS.contains c with
    | true => simp only [if_true, consonantPrepositionLoaded, he, bind, Except.bind]
    | false => simp only [Bool.false_eq_true, if_false, vowelsPrepositionLoaded, he, bind, Except.bind]
  · intro x e hx hn
    have h0 : (x.nth 0 = .error e) ∨ ∃ y, x.nth 0 = .ok y ∧ ∀ letters, y.among letters = .error e := by
      cases hn with
      | list y ys hy => exact .inr ⟨y, rfl, fun letters => by cases hy <;> rfl⟩
      | _ => exact .inl rfl
    have hnot : ∀ texts, [] ∉ texts → x.isOneOf texts = false := by
      intro texts ht
      cases hn with
      | emptyText => simpa [Json.isOneOf] using ht
      | _ => rfl
    refine key e fun p => ?_
    unfold prepositionLoaded
    rw [hown]
    simp only [bind, Except.bind, Json.lastItem, List.getLast?_append, List.getLast?_singleton, Option.some_or, Json.among]
    cases CONSONANTS.contains c with
    | true =>
      simp only [if_true, consonantPrepositionLoaded, hx, LoadedExternal.startsWithConsonantCluster, bind, Except.bind]
      rcases h0 with h0 | ⟨y, h0, hy⟩
      · rw [h0]
      · rw [h0]; simp only [hy]
    | false =>
      simp only [Bool.false_eq_true, if_false, vowelsPrepositionLoaded, hx, bind, Except.bind]
      rw [hnot _ (by simp), Bool.and_false]
      rcases h0 with h0 | ⟨y, h0, hy⟩
      · rw [h0]; simp
      · rw [h0]; simp [hy]

/-- C154: a preposition that depends on a variable also needs the last letter of its own text. -/
theorem C154_own_letter (U : PyUni) (s : Substitution) (ext : LoadedExternals) (d : LoadedDictionary) (base : LoadedForm)
    (hr : ResolvesLoaded ext d s.id base) (hb : base.word.type = .PREPOSITION) (x : Json) (e : LoadErr)
    (hown : base.word.form base.word.properties = .ok x) (hx : NoLastLetter x e) (pre post : List Dep) (n : Str) (f : LoadedExternal)
    (hdeps : s.dependencies = pre ++ .ext n :: post) (hpre : ∀ m, .ext m ∉ pre) (hf : ext.get? n = some f)
    (hall : ∀ m, .ext m ∈ post → ext.get? m ≠ none) : s.getLoaded U ext d = .error e := by
  have hbase : s.baseLoaded ext d = .ok base := by
    unfold Substitution.baseLoaded
    rcases hr with ⟨_, h, rfl⟩ | ⟨h, h'⟩
    · rw [h]
    · rw [h]; exact h'
  obtain ⟨ps, fs, hl⟩ := listPropertiesLoaded_first pre hpre hf hall
  have ht : ∀ p, transformLoaded U base.word p f = .error e := by
    intro p
    unfold transformLoaded
    rw [hb]
    dsimp only
    unfold prepositionLoaded
    rw [hown]
    cases hx with
    | list ys y hy =>
      simp only [bind, Except.bind, Json.lastItem, List.getLast?_append, List.getLast?_singleton, Option.some_or]
      cases hy <;> rfl
    | object items => exact congrArg (fun k => Except.error (LoadErr.KeyError k)) (by decide +kernel : pyStr (-1) = str! "-1")
    | _ => rfl
  unfold Substitution.getLoaded
  rw [hbase, hdeps, hl]
  simp only [bind, Except.bind, List.foldlM_cons, ht]

/-- A preposition whose text is a list that ends with a list. -/
example (U : PyUni) : Substitution.getLoaded U ⟨str! "p", [.ext (str! "y")]⟩
    [(str! "p", ⟨⟨⟨.PREPOSITION, .arr [.arr [.str (str! "в"), .arr []], .null, .null], .new []⟩, .new []⟩, .new []⟩),
      (str! "y", ⟨⟨⟨.TEXT, .arr [.str (str! "власть")], .new []⟩, .new []⟩, .new []⟩)] [] = .error .TypeError :=
  C154_own_letter U _ _ _ _ (.inl ⟨_, rfl, rfl⟩) rfl (.arr [.str (str! "в"), .arr []]) _ rfl (.list [.str (str! "в")] (.arr []) (.arr []))
    [] [] _ _ rfl (by simp) rfl (by simp)

/-- A text that is a number, and a text that is a text. -/
def exOddExternals : LoadedExternals :=
  [(str! "x", ⟨⟨⟨.TEXT, .arr [.int 5], .new []⟩, .new []⟩, .new []⟩),
    (str! "y", ⟨⟨⟨.TEXT, .arr [.str (str! "власть")], .new []⟩, .new []⟩, .new []⟩)]

/-- A preposition with a number among its forms. -/
def exOddDictionary : LoadedDictionary := [(.text (str! "в"), ⟨exNumberForm, .new []⟩)]

/-- Proper words instead. -/
def exStandIns : Externals :=
  [(str! "x", ⟨⟨.TEXT, [str! "ночь"], .new []⟩, .new [], .new []⟩), (str! "y", ⟨exVlast, .new [], .new []⟩)]

example : ResolvesLoaded exOddExternals exOddDictionary (str! "x") ⟨⟨.TEXT, .arr [.int 5], .new []⟩, .new []⟩ ∧
    ResolvesLoaded exOddExternals exOddDictionary (str! "в") ⟨exNumberForm, .new []⟩ := ⟨.inl ⟨_, rfl, rfl⟩, .inr ⟨rfl, rfl⟩⟩

example : StandFor exStandIns exOddExternals := by
  intro n
  by_cases hx : n = str! "x"
  · subst hx
    exact ⟨fun h => (by cases h), fun f hf => by cases hf; exact ⟨_, rfl, exText_accepted _ _ wf_empty, rfl, rfl, rfl⟩⟩
  · by_cases hy : n = str! "y"
    · subst hy
      exact ⟨fun h => (by cases h), fun f hf => by cases hf; exact ⟨_, rfl, exText_accepted _ _ wf_empty, rfl, rfl, rfl⟩⟩
    · have e1 : exOddExternals.get? n = none := by
        simp only [exOddExternals, Dict.get?, Ne.symm hx, Ne.symm hy, if_false]
      have e2 : exStandIns.get? n = none := by
        simp only [exStandIns, Dict.get?, Ne.symm hx, Ne.symm hy, if_false]
      rw [e1, e2]
      exact ⟨fun _ => rfl, fun f hf => by cases hf⟩

/-- C154: a number among the forms is printed, and a preposition cannot depend on it. -/
theorem C154_number (U : PyUni) (print : Json → Str) :
    (Template.fillLoaded U print ⟨[⟨str! "x", []⟩], some (str! "%s!")⟩ exOddExternals exOddDictionary = .ok (print (.int 5) ++ str! "!")) ∧
    (Substitution.getLoaded U ⟨str! "в", [.ext (str! "y")]⟩ exOddExternals exOddDictionary = .ok (.int 5)) ∧
    (Substitution.getLoaded U ⟨str! "в", [.ext (str! "x")]⟩ exOddExternals exOddDictionary = .error .TypeError) := by
  refine ⟨?_, rfl, ?_⟩
  · have h := pyFormat_template U [] [([], str! "!")] [print (.int 5)] rfl
    rw [show filled [] [print (.int 5)] ([([], str! "!")].map Prod.snd) = print (.int 5) ++ str! "!" by simp [filled]] at h
    exact congrArg liftErr h
  · exact (C154_preposition U _ _ _ ⟨exNumberForm, .new []⟩ (.inr ⟨rfl, rfl⟩) rfl [] 'в' rfl [] [] _ _ rfl (by simp) rfl (by simp)).2 (.int 5) _ rfl (.int 5)

end Utg
