import Verif.Props.Substitutions
import Verif.Props.Locality
/-! # C73, C74: a word written in brackets without further instructions -/

namespace Utg
open Py Spec

theorem goodExternals_nil : GoodExternals [] := by intro n f h; simp [Dict.get?] at h

theorem wordCase_notin (t : WordType) : Group.WORD_CASE ∉ t.schema := by cases t <;> decide

/-- A registered form has the same properties for choosing the form and for agreement, and they include the word's own. -/
theorem registered_form {U : PyUni} {ws : List Word} (hws : ∀ w ∈ ws, Accepted w) {t : Str} {f : WordForm}
    (h : (history U ws).getWord t = .ok f) :
    f.formProperties = f.properties ∧ (∀ g r, f.word.properties.data.get? g = some r → f.properties.data.get? g = some r) ∧
    (f.word.properties.data.get? .WORD_CASE = none → f.properties.data.get? .WORD_CASE = none) := by
  obtain ⟨_, h2, fs, h3, h4⟩ := C25_lookup_sound U ws hws t f h
  obtain ⟨h5, h6⟩ := accepted_iff.mp (hws _ h2)
  have h6' := h6
  rw [allForms_spec h6] at h3
  injection h3 with h3; subst h3
  simp only [List.mem_map] at h4
  obtain ⟨k, hk, h7⟩ := h4
  have e1 : f.properties = .new [.props (propertiesOfKey k), .props f.word.properties] := by rw [← h7]; rfl
  refine ⟨by rw [← h7]; rfl, ?_, ?_⟩
  · intro g r hg
    rw [e1, new2_get? (wf_propertiesOfKey k) h5, hg]; rfl
  · intro hg
    rw [e1, new2_get? (wf_propertiesOfKey k) h5, hg, Option.none_or]
    exact propertiesOfKey_outside (invertedCache_fits hk) (wordCase_notin _)

/-- C73: a text the dictionary knows, put in brackets without further instructions, is replaced by itself. -/
theorem C73_bare_word (U : PyUni) (ws : List Word) (hws : ∀ w ∈ ws, Accepted w) (t : Str) (ext : Externals)
    (h : (history U ws).hasWord t = true) (hx : ext.get? t = none) :
    Substitution.getText U ⟨t, []⟩ ext (history U ws) = .ok t := by
  obtain ⟨f, hf⟩ := (C26_known_texts U ws hws t).1.mp h
  obtain ⟨h1, _⟩ := C25_lookup_sound U ws hws t f hf
  obtain ⟨h2, h3, _⟩ := registered_form hws hf
  have hgood := goodDictionary_history U ws hws t f hf
  rw [getText_eq (base := f) (.inr ⟨hx, hf⟩) (by simp)]
  show WordForm.getForm U f.word (collected [] f []) = .ok t
  rw [← h1]
  unfold WordForm.form
  apply getForm_congr
  intro g
  apply get_congr
  rw [collected_get? goodExternals_nil hgood (by simp), h2]
  cases e : f.word.properties.data.get? g with
  | none => rfl
  | some r => simp [h3 g r e]

/-- C73: with a capital letter the text is replaced by itself with a capital letter, unless the word says otherwise. -/
theorem C73_capital (U : PyUni) (ws : List Word) (hws : ∀ w ∈ ws, Accepted w) (c : Char) (cs : Str) (f : WordForm) (ext : Externals)
    (h : (history U ws).getWord (c :: cs) = .ok f) (hcase : f.word.properties.isSpecified .WORD_CASE = false)
    (hx : ext.get? (c :: cs) = none) :
    Substitution.getText U ⟨c :: cs, [.props (.new [.record .WORD_CASE_UPPER])]⟩ ext (history U ws) = .ok (U.upperC c ++ cs) := by
  obtain ⟨h1, _⟩ := C25_lookup_sound U ws hws _ f h
  obtain ⟨h2, h3, h4⟩ := registered_form hws h
  have hgood := goodDictionary_history U ws hws _ f h
  have hwf : ∀ p, Dep.props p ∈ [Dep.props (.new [.record .WORD_CASE_UPPER])] → WFProps p := by
    intro p hp; simp at hp; subst hp; exact wf_new (wfargs_records [.WORD_CASE_UPPER])
  have hnone := isSpecified_false.mp hcase
  rw [getText_eq (base := f) (.inr ⟨hx, h⟩) (by simp)]
  show WordForm.getForm U f.word (collected [] f [.props (.new [.record .WORD_CASE_UPPER])]) = _
  have hget := collected_get? (ext := []) (base := f) goodExternals_nil hgood hwf
  rw [getForm_upper]
  · have e : f.word.formRaw (collected [] f [.props (.new [.record .WORD_CASE_UPPER])]) = f.word.formRaw f.formProperties := by
      apply formRaw_congr
      intro g hg
      apply get_congr
      rw [hget, h2]
      cases e : f.word.properties.data.get? g with
      | some r => simp [h3 g r e]
      | none =>
        have : g ≠ .WORD_CASE := fun e => wordCase_notin _ (e ▸ hg)
        simp [depProps, Properties.new, Properties.updateOne, Dict.set, Dict.get?, Rec.group, this.symm]
    rw [e]
    have h5 : f.form U = f.word.formRaw f.formProperties := by
      unfold WordForm.form
      rw [getForm_lower]
      unfold Properties.get
      rw [h2, h4 hnone]; rfl
    rw [← h5, h1]; rfl
  · unfold Properties.get
    rw [hget, hnone]; rfl

/-- C73, in a text: `[слово]`, possibly with blanks and capitals, where the lower-case text is known to the dictionary and names
no external. -/
theorem C73_in_text (U : PyUni) (ws : List Word) (hws : ∀ w ∈ ws, Accepted w) (names : List Str) (head : Str) (c : Char) (cs : Str)
    (hbar : '|' ∉ head) (hbr : ']' ∉ head) (hpc : '%' ∉ head) (hs : Stripped U head (c :: cs)) (hc : U.isUpper c = false)
    (hw : (history U ws).hasWord (U.lower (c :: cs)) = true) :
    ∃ t, Template.empty.parse U (bracketed head []) names = .ok t ∧
      ∀ ext : Externals, ext.get? (U.lower (c :: cs)) = none →
        t.substitute U ext (history U ws) = .ok (U.lower (c :: cs)) := by
  have hv : IsVariable (bracketed head []) := ⟨head, by simp [bracketed], by
    rintro rfl; obtain ⟨a, b, e, _⟩ := hs; simp at e, hbr⟩
  have hp : Pieces (bracketed head []) [] [(bracketed head [], [])] := by
    have := Pieces.var [] (bracketed head []) [] [] [] isLiteral_nil hv (.last [] (isFinal_of_isLiteral isLiteral_nil))
    simpa using this
  have hd : doubled (bracketed head []) = bracketed head [] := doubled_of_not_mem (by simp [bracketed, hpc])
  have hparse := C46_parse U names head [] [] c cs hbar (by simp) hs .nil
  simp only [hc, if_false, Bool.false_eq_true, List.append_nil] at hparse
  refine ⟨_, parse_ok_of (subs := [_]) hp (.cons (by rw [hd]; exact hparse) .nil), ?_⟩
  intro ext hx
  rw [show (Template.empty.substitutions ++ [(⟨U.lower (c :: cs), []⟩ : Substitution)]) = [⟨U.lower (c :: cs), []⟩] from rfl]
  rw [substitute_parsed (ps := [(bracketed head [], [])]) rfl]
  simp only [List.mapM_cons, List.mapM_nil, C73_bare_word U ws hws _ ext hw hx, bind, Except.bind, pure, Except.pure, List.map_cons,
    List.map_nil, filled]
  simp

/-- C73, in a text, with a capital letter: `[Слово]` gives the text with a capital letter, unless the word says otherwise. -/
theorem C73_in_text_capital (U : PyUni) (ws : List Word) (hws : ∀ w ∈ ws, Accepted w) (names : List Str) (head : Str) (c : Char) (cs : Str)
    (hbar : '|' ∉ head) (hbr : ']' ∉ head) (hpc : '%' ∉ head) (hs : Stripped U head (c :: cs)) (hc : U.isUpper c = true)
    (c' : Char) (cs' : Str) (hl : U.lower (c :: cs) = c' :: cs') (f : WordForm) (hw : (history U ws).getWord (c' :: cs') = .ok f)
    (hcase : f.word.properties.isSpecified .WORD_CASE = false) :
    ∃ t, Template.empty.parse U (bracketed head []) names = .ok t ∧
      ∀ ext : Externals, ext.get? (c' :: cs') = none → t.substitute U ext (history U ws) = .ok (U.upperC c' ++ cs') := by
  have hv : IsVariable (bracketed head []) := ⟨head, by simp [bracketed], by
    rintro rfl; obtain ⟨a, b, e, _⟩ := hs; simp at e, hbr⟩
  have hp : Pieces (bracketed head []) [] [(bracketed head [], [])] := by
    have := Pieces.var [] (bracketed head []) [] [] [] isLiteral_nil hv (.last [] (isFinal_of_isLiteral isLiteral_nil))
    simpa using this
  have hd : doubled (bracketed head []) = bracketed head [] := doubled_of_not_mem (by simp [bracketed, hpc])
  have hparse := C46_parse U names head [] [] c cs hbar (by simp) hs .nil
  simp only [hc, if_true, List.nil_append, hl] at hparse
  refine ⟨_, parse_ok_of (subs := [_]) hp (.cons (by rw [hd]; exact hparse) .nil), ?_⟩
  intro ext hx
  rw [show (Template.empty.substitutions ++ [(⟨c' :: cs', [.props (.new [.record .WORD_CASE_UPPER])]⟩ : Substitution)]) =
    [⟨c' :: cs', [.props (.new [.record .WORD_CASE_UPPER])]⟩] from rfl]
  rw [substitute_parsed (ps := [(bracketed head [], [])]) rfl]
  simp only [List.mapM_cons, List.mapM_nil, C73_capital U ws hws c' cs' f ext hw hcase hx, bind, Except.bind, pure, Except.pure,
    List.map_cons, List.map_nil, filled]
  simp

/-- The capital case applies: `[Ух]` with a dictionary that knows `ух`. -/
example : Stripped exPy (str! "Ух") (str! "Ух") ∧ exPy.isUpper 'У' = true ∧ exPy.lower (str! "Ух") = str! "ух" ∧
    (history exPy [exText (str! "ух")]).hasWord (str! "ух") = true ∧ exPy.upperC 'у' ++ str! "х" = str! "Ух" :=
  ⟨⟨[], [], rfl, by simp, by simp, by decide, by decide⟩, by decide +kernel, by decide +kernel, by decide +kernel, by decide +kernel⟩

/-- C73 applies: `[ a ]` with the dictionary of four words. -/
example : Stripped exUni (str! " a ") (str! "a") ∧ (history exUni exWords).hasWord (exUni.lower (str! "a")) = true := by
  refine ⟨⟨[' '], [' '], rfl, by simp [exUni], by simp [exUni], by simp [exUni], by simp [exUni]⟩, by decide +kernel⟩

/-- C74: ids are lower case, so a text that is not the lower case of anything is never looked up ... -/
theorem C74_ids_lower (U : PyUni) (v : Str) (names : List Str) (s : Substitution) (h : Substitution.parse U v names = .ok s) :
    ∃ x, s.id = U.lower x := by
  unfold Substitution.parse at h
  split at h
  · cases h
  · rename_i head slugs _
    split at h
    · cases h
    · cases e : slugs.mapM (parseDependency U names) with
      | error e' => rw [e] at h; simp [bind, Except.bind] at h
      | ok deps =>
        simp only [e, bind, Except.bind] at h
        cases e2 : Py.first (strip U head) with
        | error e' => rw [e2] at h; cases h
        | ok c =>
          rw [e2] at h
          simp only at h
          injection h with h
          exact ⟨strip U head, by rw [← h]⟩

/-- C74 fails: the dictionary knows the text `Ух`, but a template that uses it cannot be filled. -/
theorem C74_violated : ∃ (ws : List Word) (t : Str) (tpl : Template), (∀ w ∈ ws, Accepted w) ∧ (history exPy ws).hasWord t = true ∧
    Template.empty.parse exPy (bracketed t []) [] = .ok tpl ∧
    tpl.substitute exPy [] (history exPy ws) = .error (.NoWordsFoundError (str! "ух")) := by
  refine ⟨[exText (str! "Ух")], str! "Ух", ⟨[⟨str! "ух", [.props (.new [.record .WORD_CASE_UPPER])]⟩], some (str! "%s")⟩, ?_,
    by decide +kernel, by decide +kernel, by decide +kernel⟩
  intro w hw; simp at hw; subst hw; exact exText_accepted _ _ wf_empty

/-- C74 (partial): a known text that is its own lower case, has no blanks at the ends, no `|`, `]` or `%`, is not empty and does
not begin with an upper-case letter, can be used. Missing: texts with capitals (never found) and with markup characters. -/
theorem C74_usable_partial (U : PyUni) (ws : List Word) (hws : ∀ w ∈ ws, Accepted w) (names : List Str) (c : Char) (cs : Str)
    (hlow : U.lower (c :: cs) = c :: cs) (hc : U.isUpper c = false) (hbar : '|' ∉ c :: cs) (hbr : ']' ∉ c :: cs) (hpc : '%' ∉ c :: cs)
    (hs : Stripped U (c :: cs) (c :: cs)) (hw : (history U ws).hasWord (c :: cs) = true) :
    ∃ t, Template.empty.parse U (bracketed (c :: cs) []) names = .ok t ∧
      ∀ ext : Externals, ext.get? (c :: cs) = none → t.substitute U ext (history U ws) = .ok (c :: cs) := by
  have := C73_in_text U ws hws names (c :: cs) c cs hbar hbr hpc hs hc (by rw [hlow]; exact hw)
  rw [hlow] at this
  exact this

/-- C74 applies to `ух`. -/
example : exPy.lower (str! "ух") = str! "ух" ∧ exPy.isUpper 'у' = false ∧ Stripped exPy (str! "ух") (str! "ух") ∧
    (history exPy [exText (str! "ух")]).hasWord (str! "ух") = true :=
  ⟨by decide +kernel, by decide +kernel, ⟨[], [], rfl, by simp, by simp, by decide, by decide⟩, by decide +kernel⟩

end Utg
