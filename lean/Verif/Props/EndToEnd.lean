import Verif.Props.Interchange
import Verif.Props.Lexicon
import Verif.Props.Autofill
/-! # C82 - C84: lexicon, dictionary and templates together -/

namespace Utg
open Py

namespace Spec

/-- The effect of a JSON round trip on a serialized word: integer keys of the property dictionary may become strings, its items
may be reordered. -/
def WordViaJson (a b : WordData) : Prop :=
  a.type = b.type ∧ a.forms = b.forms ∧ ∃ e, List.Forall₂ ViaJson a.properties e ∧ b.properties.Perm e

end Spec
open Spec

/-! ## C82 -/

section
variable {K R : Type} [DecidableEq K] [DecidableEq R]

theorem nonEmpty_history {U : PyUni} {ws : List Word} (hws : ∀ w ∈ ws, Accepted w) (hne : ∀ w ∈ ws, ∀ x ∈ w.forms, x ≠ []) :
    ∀ x f, (history U ws).getWord x = .ok f → NonEmptyForms f := by
  intro x f hf y hy
  exact hne _ (C25_lookup_sound U ws hws x f hf).2.1 y hy

/-- C82: words with all their forms, a lexicon of templates that were parsed and checked with the names of the externals, the
externals themselves: whatever is asked and whatever is drawn, if some template is applicable then a most specific one is chosen
and it can be filled. -/
theorem C82_served (U : PyUni) (names : List Str) (ext : Externals) (ws : List Word) (calls : List (Added K Template R)) (key : K)
    (rs : Finset R) (draw : Nat) (hU : ∀ c, U.upperC c ≠ []) (hws : ∀ w ∈ ws, Accepted w) (hne : ∀ w ∈ ws, ∀ x ∈ w.forms, x ≠ [])
    (he : GoodExternals ext) (hen : ∀ n f, ext.get? n = some f → NonEmptyForms f) (hn : ∀ n, n ∈ names ↔ ∃ f, ext.get? n = some f)
    (hcalls : ∀ c ∈ calls, ∃ text, Template.empty.parse U text names = .ok c.template ∧
      c.template.getUndictionariedWords names (history U ws) = [])
    (happ : ∃ c ∈ calls, Applicable key rs c) :
    (∃ c ∈ calls, MostSpecific calls key rs c ∧ (lexiconOf calls).getRandomNearestTemplate key rs draw = .ok c.template ∧
      ∃ result, c.template.substitute U ext (history U ws) = .ok result) ∧
    (∃ c ∈ calls, Applicable key rs c ∧ (lexiconOf calls).getRandomTemplate key rs draw = .ok c.template ∧
      ∃ result, c.template.substitute U ext (history U ws) = .ok result) := by
  have hsub : ∀ c ∈ calls, ∃ result, c.template.substitute U ext (history U ws) = .ok result := by
    intro c hc
    obtain ⟨text, h1, h2⟩ := hcalls c hc
    exact C50_checked_template U names ext _ text _ hU he (goodDictionary_history U ws hws) hen (nonEmpty_history hws hne) h1 hn h2
  constructor
  · obtain ⟨c, hc, h1, h2⟩ := (C33_nearest_template calls key rs).1 draw happ
    exact ⟨c, hc, h1, h2, hsub c hc⟩
  · obtain ⟨c, hc, h1, h2⟩ := (C32_random_template calls key rs).2.2.1 draw happ
    exact ⟨c, hc, h1, h2, hsub c hc⟩
end

/-- A lexicon with two templates for one key, of which the second needs the restriction 7; both have been checked. -/
def exServed : List (Added Nat Template Nat) :=
  [⟨1, ⟨[⟨str! "a", []⟩], some (str! "%s")⟩, ∅⟩, ⟨1, ⟨[⟨str! "a", [.ext (str! "x")]⟩, ⟨str! "x", []⟩], some (str! "%s %s!")⟩, {7}⟩]

example : (∀ c ∈ exServed, ∃ text, Template.empty.parse exPy text [str! "x"] = .ok c.template ∧
      c.template.getUndictionariedWords [str! "x"] (history exPy exWords) = []) ∧
    (∃ c ∈ exServed, Applicable 1 {7, 8} c) ∧ (∃ c ∈ exServed, ¬ MostSpecific exServed 1 {7, 8} c ∧ Applicable 1 {7, 8} c) := by
  refine ⟨?_, ⟨_, List.mem_cons_self, by decide⟩, ⟨_, List.mem_cons_self, ?_, by decide⟩⟩
  · intro c hc
    simp only [exServed, List.mem_cons, List.not_mem_nil, or_false] at hc
    rcases hc with rfl | rfl
    · exact ⟨str! "[a]", by decide +kernel, by decide +kernel⟩
    · exact ⟨str! "[a|x] [x]!", by decide +kernel, by decide +kernel⟩
  · intro h
    have := h.2 _ (List.mem_cons_of_mem _ List.mem_cons_self) (by decide)
    simp at this

theorem deserialize_word_json {w : Word} (hw : Accepted w) {data : WordData} (h : WordViaJson w.serialize data) :
    ∃ w', Word.deserialize data = .ok w' ∧ Accepted w' ∧ Word.eq w w' = true := by
  obtain ⟨h1, h2, e, h3, h4⟩ := h
  obtain ⟨w', hd, he⟩ := C15_roundtrip_json w hw e data.properties h3 h4
  have hdata : ({ w.serialize with properties := data.properties } : WordData) = data := by
    cases data; simp_all [Word.serialize]
  rw [hdata] at hd
  have hw' : Accepted w' := by
    obtain ⟨hp, hf⟩ := accepted_iff.mp hw
    have hint : ∀ kv ∈ data.properties, ∃ n, kv.1.toInt = .ok n := by
      intro kv hkv
      have hmem := h4.mem_iff.mp hkv
      have hser : ∀ kv ∈ w.serialize.properties, ∃ n, kv.1 = JKey.int n := by
        intro kv hkv
        simp only [Word.serialize, Properties.serialize, List.mem_map] at hkv
        obtain ⟨x, _, rfl⟩ := hkv
        exact ⟨_, rfl⟩
      obtain ⟨a, ha, hv⟩ := forall₂_right h3 kv hmem
      obtain ⟨n, hn⟩ := hser a ha
      cases hv with
      | same => exact ⟨n, by rw [hn]; rfl⟩
      | stringified m v => exact ⟨m, pyInt_pyStr m⟩
    have hout := C15_deserialize_outcome data hint
    have ht : (w.type.value : Int) = data.type := h1
    by_cases hlen : data.forms.length = slotCount w.type
    · obtain ⟨w'', e1, e2, _⟩ := (hout.2 w.type ht).1 hlen
      rw [hd] at e1; injection e1 with e1; subst e1; exact e2
    · have := (hout.2 w.type ht).2 hlen
      rw [hd] at this; cases this
  refine ⟨w', hd, hw', ?_⟩
  exact C16_eq_equivalence.2.1 w' w hw' hw he

/-- C82: the words and the template may have been saved as JSON and loaded again: the text is the same, whatever the
externals. -/
theorem C82_saved (U : PyUni) (ws : List Word) (datas : List WordData) (t : Template) (tdata : TemplateData)
    (hws : ∀ w ∈ ws, Accepted w) (hs : ∀ s ∈ t.substitutions, GoodSubstitution s)
    (hdatas : List.Forall₂ (fun w data => WordViaJson w.serialize data) ws datas) (htdata : TemplateViaJson t.serialize tdata) :
    ∃ ws' t', datas.mapM Word.deserialize = .ok ws' ∧ Template.deserialize tdata = .ok t' ∧
      (∀ names, t'.getUndictionariedWords names (history U ws') = t.getUndictionariedWords names (history U ws)) ∧
      ∀ ext, GoodExternals ext → t'.substitute U ext (history U ws') = t.substitute U ext (history U ws) := by
  obtain ⟨ws', hm, hacc, heq⟩ : ∃ ws', datas.mapM Word.deserialize = .ok ws' ∧ (∀ w ∈ ws', Accepted w) ∧
      List.Forall₂ (fun v w => Word.eq v w = true) ws ws' := by
    induction hdatas with
    | nil => exact ⟨[], rfl, by simp, .nil⟩
    | cons hab _ ih =>
      obtain ⟨ws', e1, e2, e3⟩ := ih (fun w hw => hws w (by simp [hw]))
      obtain ⟨w', f1, f2, f3⟩ := deserialize_word_json (hws _ (by simp)) hab
      refine ⟨w' :: ws', by rw [List.mapM_cons, f1, e1]; rfl, ?_, .cons f3 e3⟩
      intro x hx
      rcases List.mem_cons.mp hx with rfl | hx
      · exact f2
      · exact e2 x hx
  obtain ⟨t', ht', hteq, hsub⟩ := C51_json U t tdata hs htdata
  have hlook := C85_dictionary U ws ws' hws hacc heq
  refine ⟨ws', t', hm, ht', ?_, ?_⟩
  · intro names
    have hhas : ∀ x, (history U ws').hasWord x = (history U ws).hasWord x := by
      intro x
      rcases hlook x with ⟨h1, h2⟩ | ⟨f, g, h1, h2, _⟩
      · rw [h1, h2]
      · rw [(hasWord_iff _ _).mpr ⟨f, h1⟩, (hasWord_iff _ _).mpr ⟨g, h2⟩]
    have hids : t'.substitutions.map Substitution.id = t.substitutions.map Substitution.id := by
      unfold Template.eq at hteq
      simp only [Bool.and_eq_true, subsEq_iff] at hteq
      have h1 := hteq.1
      clear hsub ht' hteq htdata hs
      generalize t'.substitutions = l at *
      generalize t.substitutions = l' at *
      induction h1 with
      | nil => rfl
      | cons hab _ ih =>
        simp only [Substitution.eq, Bool.and_eq_true, decide_eq_true_eq] at hab
        rw [List.map_cons, List.map_cons, hab.1, ih]
    rw [C49_exact, C49_exact, hids]
    exact List.filter_congr fun x _ => by rw [hhas x]
  · intro ext he
    rw [hsub ext _ he (goodDictionary_history U ws' hacc)]
    exact (C85_same_text U ext ext _ _ t he he (goodDictionary_history U ws hws) (goodDictionary_history U ws' hacc) hs
      (fun n => by
        rcases Option.eq_none_or_eq_some (ext.get? n) with h | ⟨f, h⟩
        · exact .inl ⟨h, h⟩
        · refine .inr ⟨f, f, h, h, ?_⟩
          have hg := he n f h
          simp only [WordForm.eq, Bool.and_eq_true]
          exact ⟨C16_eq_equivalence.1 _ hg.1, C12_eq_equivalence.1 _ hg.2.1⟩)
      hlook (fun n f g hf hg => by rw [hf] at hg; injection hg with hg; rw [hg])).symm

/-! ## C83 -/

theorem history_append (U : PyUni) (ws more : List Word) :
    history U (ws ++ more) = more.foldl (fun d w => (d.addWord U w).1) (history U ws) := by
  simp [history, List.foldl_append]

theorem known_append {U : PyUni} {ws more : List Word} (hws : ∀ w ∈ ws, Accepted w) (hmore : ∀ w ∈ more, Accepted w) {t : Str}
    (h : (history U ws).hasWord t = true) : (history U (ws ++ more)).hasWord t = true := by
  have hall : ∀ w ∈ ws ++ more, Accepted w := fun w hw => (List.mem_append.mp hw).elim (hws w) (hmore w)
  rw [(C26_known_texts U _ hall t).2.1]
  obtain ⟨v, hv, f, hf⟩ := (C26_known_texts U ws hws t).2.1.mp h
  exact ⟨v, by simp [hv], f, hf⟩

/-- C83: a template that has been checked stays checked when words are added to the dictionary. -/
theorem C83_stays_checked (U : PyUni) (t : Template) (names : List Str) (ws more : List Word) (hws : ∀ w ∈ ws, Accepted w)
    (hmore : ∀ w ∈ more, Accepted w) (h : t.getUndictionariedWords names (history U ws) = []) :
    t.getUndictionariedWords names (history U (ws ++ more)) = [] := by
  rw [C49_exact, List.filter_eq_nil_iff] at h ⊢
  intro id hid hx
  refine h id hid ?_
  simp only [Bool.and_eq_true, decide_eq_true_eq, Bool.not_eq_true'] at hx ⊢
  refine ⟨hx.1, ?_⟩
  by_contra hc
  have := known_append hws hmore (by simpa using hc : (history U ws).hasWord id = true)
  rw [hx.2] at this; cases this

/-- C83: adding words changes a lookup only to a better word form, and one of an added word. -/
theorem C83_lookup_improves (U : PyUni) (ws more : List Word) (hws : ∀ w ∈ ws, Accepted w) (hmore : ∀ w ∈ more, Accepted w) (t : Str)
    (f : WordForm) (h : (history U ws).getWord t = .ok f) :
    ∃ g, (history U (ws ++ more)).getWord t = .ok g ∧ (g = f ∨ Better g f ∧ g.word ∈ more) := by
  have hall : ∀ w ∈ ws ++ more, Accepted w := fun w hw => (List.mem_append.mp hw).elim (hws w) (hmore w)
  have hcand : candidatesFor U (ws ++ more) t = candidatesFor U ws t ++ candidatesFor U more t := by
    unfold candidatesFor candidates; rw [List.flatMap_append, List.filterMap_append]
  obtain ⟨pre, post, e1, e2, e3⟩ := C27_first_best U ws hws t f h
  rcases getWord_history (U := U) hall t with ⟨h1, _⟩ | ⟨g, h1, _, pre', post', g1, g2, g3⟩
  · rw [hcand, e1] at h1; simp at h1
  · refine ⟨g, h1, ?_⟩
    rw [hcand, e1, List.append_assoc, List.cons_append] at g1
    rcases List.append_eq_append_iff.mp g1 with ⟨a, ha1, ha2⟩ | ⟨a, ha1, ha2⟩
    · -- `pre' = pre ++ a`, `f :: (post ++ new) = a ++ g :: post'`
      cases a with
      | nil => simp at ha2; exact .inl ha2.1.symm
      | cons x a =>
        simp only [List.cons_append, List.cons.injEq] at ha2
        obtain ⟨rfl, ha2⟩ := ha2
        have hb : Better g f := g2 f (by rw [ha1]; simp)
        refine .inr ⟨hb, ?_⟩
        rcases List.append_eq_append_iff.mp ha2 with ⟨b, hb1, hb2⟩ | ⟨b, hb1, hb2⟩
        · have hg : g ∈ candidatesFor U more t := by rw [hb2]; simp
          obtain ⟨w, hw, hm⟩ := mem_candidatesFor.mp hg
          rw [(offered_word (hmore w hw) hm).1]; exact hw
        · cases b with
          | nil =>
            have hg : g ∈ candidatesFor U more t := by
              simp only [List.nil_append] at hb2; rw [← hb2]; simp
            obtain ⟨w, hw, hm⟩ := mem_candidatesFor.mp hg
            rw [(offered_word (hmore w hw) hm).1]; exact hw
          | cons y b =>
            simp only [List.cons_append, List.cons.injEq] at hb2
            exact absurd hb (e3 g (by rw [hb1, hb2.1]; simp))
    · cases a with
      | nil => simp at ha2; exact .inl ha2.1
      | cons x a =>
        simp only [List.cons_append, List.cons.injEq] at ha2
        have hgf : Better f g := e2 g (by rw [ha1, ha2.1]; simp)
        exact absurd hgf (g3 f (by rw [ha2.2]; simp))

theorem getWord_unchanged {U : PyUni} {ws more : List Word} (hws : ∀ w ∈ ws, Accepted w) (hmore : ∀ w ∈ more, Accepted w) {id : Str}
    (hnew : ∀ w ∈ more, ∀ fs, w.allForms = .ok fs → ∀ f ∈ fs, f.form U ≠ .ok id) :
    (history U (ws ++ more)).getWord id = (history U ws).getWord id := by
  have hall : ∀ w ∈ ws ++ more, Accepted w := fun w hw => (List.mem_append.mp hw).elim (hws w) (hmore w)
  have hno : ∀ g, g ∉ candidatesFor U more id := by
    intro g hg
    obtain ⟨w, hw, hm⟩ := mem_candidatesFor.mp hg
    obtain ⟨_, h2, fs, h3, h4⟩ := offered_word (hmore w hw) hm
    exact hnew w hw fs h3 g h4 h2
  rcases getWord_history (U := U) hws id with ⟨h1, h2, _⟩ | ⟨f, h1, _, _⟩
  · rw [h2]
    rcases getWord_history (U := U) hall id with ⟨_, h4, _⟩ | ⟨g, _, _, h6⟩
    · exact h4
    · have := firstBest_mem h6
      unfold candidatesFor candidates at this h1
      rw [List.flatMap_append, List.filterMap_append, h1, List.nil_append] at this
      exact absurd this (hno g)
  · obtain ⟨g, hg1, hg2⟩ := C83_lookup_improves U ws more hws hmore id f h1
    rw [h1, hg1]
    rcases hg2 with rfl | ⟨_, hm⟩
    · rfl
    · obtain ⟨_, h2, fs, h3, h4⟩ := C25_lookup_sound U _ hall id g hg1
      obtain ⟨w, hw, hof⟩ := mem_candidatesFor.mp (firstBest_mem (C27_first_best U _ hall id g hg1))
      obtain ⟨e1, e2, fs', e3, e4⟩ := offered_word (hall w hw) hof
      subst e1
      exact absurd e2 (hnew _ hm fs' e3 g e4)

/-- C83: if no added word has a form spelled like a variable of the template, the template gives the same text as before. -/
theorem C83_same_text (U : PyUni) (t : Template) (ext : Externals) (ws more : List Word) (hws : ∀ w ∈ ws, Accepted w)
    (hmore : ∀ w ∈ more, Accepted w)
    (hnew : ∀ s ∈ t.substitutions, ∀ w ∈ more, ∀ fs, w.allForms = .ok fs → ∀ f ∈ fs, f.form U ≠ .ok s.id) :
    t.substitute U ext (history U (ws ++ more)) = t.substitute U ext (history U ws) := by
  refine substitute_of_getText fun s hs => ?_
  have hlook := getWord_unchanged hws hmore (hnew s hs)
  unfold Substitution.getText Substitution.baseForm
  rw [hlook]

/-- The text does change if an added word claims it: `a` was a text, now it is a noun, which `n` turns into the dative. -/
example : ∃ t, Template.empty.parse exPy (str! "[a|дт]") [] = .ok t ∧
    t.substitute exPy [] (history exPy [exText (str! "a")]) = .ok (str! "a") ∧
    t.substitute exPy [] (history exPy ([exText (str! "a")] ++ [exNoun])) = .ok (str! "c") := by
  refine ⟨⟨[⟨str! "a", [.props (.new [.record .CASE_DATIVE])]⟩], some (str! "%s")⟩, by decide +kernel, by decide +kernel, by decide +kernel⟩

/-! ## C84 -/

/-- A word with a form, autofilled, can be added, and offers every non-empty text it offered before. -/
theorem offered_autofilled {U : PyUni} {w w' : Word} (hw : Accepted w) (h : w.autofillMissedForms = .ok w') {t : Str} (ht : t ≠ [])
    {f : WordForm} (hf : (t, f) ∈ offered U w) : Accepted w' ∧ Spellable U w' ∧ ∃ f', (t, f') ∈ offered U w' := by
  obtain ⟨h1, h2⟩ := accepted_iff.mp hw
  obtain ⟨w0, e0, t0, p0, l0, keep⟩ := C20_keeps_present w hw
  rw [h] at e0; injection e0 with e0; subst e0
  have hw' : Accepted w' := accepted_iff.mpr ⟨p0 ▸ h1, by rw [l0, h2, t0]⟩
  have hf0 := hf
  unfold offered at hf0
  rw [allForms_spec h2] at hf0
  obtain ⟨hmem, hform⟩ := mem_spelled hf0
  obtain ⟨k, hk, rfl⟩ := List.mem_map.mp hmem
  have hwk := wf_propertiesOfKey k
  -- the slot that is read
  have hraw : ∃ x, x ≠ [] ∧ x ∈ w.forms ∧ w'.formRaw (Properties.new [.props (propertiesOfKey k), .props w.properties]) = .ok x ∧
      w.formRaw (Properties.new [.props (propertiesOfKey k), .props w.properties]) = .ok x := by
    have hform' : WordForm.getForm U w (Properties.new [.props (propertiesOfKey k), .props w.properties]) = .ok t := hform
    unfold WordForm.getForm at hform'
    cases hr : w.formRaw (Properties.new [.props (propertiesOfKey k), .props w.properties]) with
    | error e => rw [hr] at hform'; cases hform'
    | ok x =>
      have hx : x ≠ [] := by
        rintro rfl
        rw [hr] at hform'
        simp only [bind, Except.bind] at hform'
        split at hform'
        · cases hform'
        · split at hform'
          · cases hform'
          · injection hform' with hform'; exact ht hform'.symm
      refine ⟨x, hx, ?_, ?_, rfl⟩
      · obtain ⟨i, y, e1, e2, _⟩ := formRaw_spec h2 (wf_new2 hwk h1)
        rw [hr] at e1; injection e1 with e1; subst e1
        exact List.mem_of_getElem? e2
      · unfold Word.formRaw at hr ⊢
        rw [t0]
        cases hc : rawWordsCache w.type with
        | error e => rw [hc] at hr; cases hr
        | ok cache =>
          rw [hc] at hr
          simp only [bind, Except.bind] at hr ⊢
          cases hg : cache.get? ((Properties.new [.props (propertiesOfKey k), .props w.properties]).getRawKey w.type.schema) with
          | none => rw [hg] at hr; cases hr
          | some i =>
            rw [hg] at hr
            simp only at hr ⊢
            cases hi : w.forms[i]? with
            | none => rw [hi] at hr; cases hr
            | some y =>
              rw [hi] at hr
              injection hr with hr; subst hr
              rw [keep i y hi hx]
  obtain ⟨x, hx, hxm, hx', hxr⟩ := hraw
  have hne : ∀ y ∈ w'.forms, y ≠ [] := by
    intro y hy
    obtain ⟨i, hi⟩ := List.mem_iff_getElem?.mp hy
    exact ((C21_completes w w' hw h).1 ⟨x, hxm, hx⟩ i y hi).1
  have hsp := (C26_spellable U w' hw' (.inr hne)).1
  refine ⟨hw', hsp, WordForm.new w' (some (propertiesOfKey k)), ?_⟩
  rw [C26_offered_all U w' hsp]
  refine ⟨_, allForms_spec (accepted_iff.mp hw').2, List.mem_map.mpr ⟨k, by rw [t0]; exact hk, rfl⟩, ?_⟩
  show WordForm.getForm U w' (Properties.new [.props (propertiesOfKey k), .props w'.properties]) = .ok t
  have hform' : WordForm.getForm U w (Properties.new [.props (propertiesOfKey k), .props w.properties]) = .ok t := hform
  rw [p0]
  unfold WordForm.getForm at hform' ⊢
  rw [hx']
  rw [hxr] at hform'
  exact hform'

/-- C84: autofilling the words before they are added loses no text: every non-empty text known without autofilling is known with
it. -/
theorem C84_autofilled_known (U : PyUni) (ws ws' : List Word) (hws : ∀ w ∈ ws, Accepted w)
    (h : List.Forall₂ (fun w w' => Word.autofillMissedForms w = .ok w') ws ws') (t : Str) (ht : t ≠ [])
    (hk : (history U ws).hasWord t = true) : (history U ws').hasWord t = true := by
  have hws' : ∀ w ∈ ws', Accepted w := by
    intro w' hw'
    obtain ⟨w, hw, haf⟩ := forall₂_right h w' hw'
    obtain ⟨w0, e0, t0, p0, l0, _⟩ := C20_keeps_present w (hws w hw)
    rw [haf] at e0; injection e0 with e0; subst e0
    obtain ⟨h1, h2⟩ := accepted_iff.mp (hws w hw)
    exact accepted_iff.mpr ⟨p0 ▸ h1, by rw [l0, h2, t0]⟩
  obtain ⟨w, hw, f, hf⟩ := (C26_known_texts U ws hws t).2.1.mp hk
  obtain ⟨w', hw', haf⟩ : ∃ w' ∈ ws', w.autofillMissedForms = .ok w' := by
    clear hk hf hws' hws
    induction h with
    | nil => simp at hw
    | cons hab _ ih =>
      rcases List.mem_cons.mp hw with rfl | hw
      · exact ⟨_, by simp, hab⟩
      · obtain ⟨w', h1, h2⟩ := ih hw
        exact ⟨w', by simp [h1], h2⟩
  obtain ⟨_, _, f', hf'⟩ := offered_autofilled (hws w hw) haf ht hf
  exact (C26_known_texts U ws' hws' t).2.1.mpr ⟨w', hw', f', hf'⟩

/-- C84: a word that has some form can be added once it is autofilled, also if it is written with a capital letter; and then every
template variable with one of its texts can be filled without an empty result. -/
theorem C84_addable (U : PyUni) (w w' : Word) (hw : Accepted w) (h : w.autofillMissedForms = .ok w') (hf : ∃ f ∈ w.forms, f ≠ []) :
    Accepted w' ∧ (∀ d : Dictionary, (d.addWord U w').2 = none) ∧ ∀ x f, (history U [w']).getWord x = .ok f → NonEmptyForms f := by
  obtain ⟨h1, h2⟩ := accepted_iff.mp hw
  obtain ⟨w0, e0, t0, p0, l0, keep⟩ := C20_keeps_present w hw
  rw [h] at e0; injection e0 with e0; subst e0
  have hw' : Accepted w' := accepted_iff.mpr ⟨p0 ▸ h1, by rw [l0, h2, t0]⟩
  have hne : ∀ y ∈ w'.forms, y ≠ [] := by
    intro y hy
    obtain ⟨i, hi⟩ := List.mem_iff_getElem?.mp hy
    exact ((C21_completes w w' hw h).1 hf i y hi).1
  refine ⟨hw', (C26_spellable U w' hw' (.inr hne)).2, ?_⟩
  exact nonEmpty_history (by simpa using hw') (by simpa using hne)

/-- Without autofilling, such a word cannot be added: `exGaps` written with a capital letter. -/
example : ∃ w' : Word, Word.autofillMissedForms ⟨.NOUN, [[], str! "b"] ++ List.replicate 16 [], .new [.record .WORD_CASE_UPPER]⟩ = .ok w' ∧
    (Dictionary.addWord exPy [] ⟨.NOUN, [[], str! "b"] ++ List.replicate 16 [], .new [.record .WORD_CASE_UPPER]⟩).2 = some .IndexError ∧
    (Dictionary.addWord exPy [] w').2 = none := by
  refine ⟨⟨.NOUN, List.replicate 18 (str! "b"), .new [.record .WORD_CASE_UPPER]⟩, by decide +kernel, by decide +kernel, by decide +kernel⟩

end Utg
