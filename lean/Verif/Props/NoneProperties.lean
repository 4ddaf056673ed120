import Verif.Spec.NoneProperties
import Verif.Props.Dictionary
import Verif.Props.Templates
import Verif.Props.MixedProperties
/-! # C157: a word whose properties are `None` -/

namespace Utg
open Py Spec

theorem updateOne_opt (d : Dict Group Rec) (o : Option Properties) :
    Properties.updateOne d (optArg o) = Properties.updateOne d (.props (o.getD (.new []))) := by cases o <;> rfl

theorem foldl_opt (os : List (Option Properties)) : ∀ d : Dict Group Rec,
    (os.map optArg).foldl Properties.updateOne d = (os.map fun o => Arg.props (o.getD (.new []))).foldl Properties.updateOne d := by
  induction os with
  | nil => exact fun _ => rfl
  | cons o os ih =>
    intro d
    simp only [List.map_cons, List.foldl_cons, updateOne_opt]
    exact ih _

theorem new_opt (os : List (Option Properties)) :
    Properties.new (os.map optArg) = .new (os.map fun o => .props (o.getD (.new []))) := by
  show Properties.mk _ = Properties.mk _
  rw [foldl_opt]

theorem clone_opt (p : Properties) (os : List (Option Properties)) :
    p.clone (os.map optArg) = p.clone (os.map fun o => .props (o.getD (.new []))) := by
  show Properties.mk _ = Properties.mk _
  rw [List.foldl_cons, foldl_opt]
  rfl

/-- C157: `Word(type, forms, properties)` is accepted exactly with the right number of forms, and keeps what it was given. -/
theorem C157_constructor (t : WordType) (forms : List Str) (p : Option Properties) (w : BareWord) :
    BareWord.new t forms p = .ok w ↔ forms.length = slotCount t ∧ w = ⟨t, forms, p⟩ := by
  unfold BareWord.new
  have h : (wordsCache t).length = slotCount t := by cases t <;> decide +kernel
  grind

theorem formRaw_proper (w : BareWord) (p : Properties) : w.formRaw (some p) = (proper w).formRaw p := rfl

/-- C157: the word has the forms of the word made with `Properties()`, whatever is asked for. -/
theorem C157_form (w : BareWord) (p : Option Properties) :
    w.form p = (proper w).form (p.getD (.new [])) ∧ w.normalForm = (proper w).normalForm := by
  have key : ∀ p : Option Properties, w.form p = (proper w).form (p.getD (.new [])) := by
    intro p
    unfold BareWord.form Word.form
    rw [formRaw_proper]
    exact congrArg _ (new_opt [p, w.properties])
  exact ⟨key p, key w.properties⟩

/-- C157: such a word cannot be saved. -/
theorem C157_save (w : BareWord) :
    (w.properties = none → w.serialize = .error .AttributeError) ∧
    (w.properties ≠ none → w.serialize = .ok (proper w).serialize) := by
  obtain ⟨t, f, p⟩ := w
  cases p with
  | none => exact ⟨fun _ => rfl, fun h => absurd rfl h⟩
  | some p => exact ⟨fun h => (by cases h), fun _ => rfl⟩

/-- C157: it equals the words of its type and forms whose properties are `None` too, and no other word. -/
theorem C157_equal (w v : BareWord) (hw : w.properties = none) :
    (w.eq v = true ↔ v = w) ∧ (v.eq w = true ↔ v = w) := by
  obtain ⟨t, f, p⟩ := w
  obtain ⟨t', f', p'⟩ := v
  subst hw
  cases p' <;> (simp [BareWord.eq, optPropertiesEq]; try grind)

/-- C157: words that have properties are equal as ever. -/
theorem C157_equal_other (w v : BareWord) (hw : w.properties ≠ none) (hv : v.properties ≠ none) :
    w.eq v = (proper w).eq (proper v) := by
  obtain ⟨t, f, p⟩ := w
  obtain ⟨t', f', p'⟩ := v
  cases p with
  | none => exact absurd rfl hw
  | some p => cases p' with
    | none => exact absurd rfl hv
    | some p' => rfl

theorem getForm_proper (U : PyUni) (w : BareWord) (p : Properties) : BareForm.getForm U w (some p) = WordForm.getForm U (proper w) p := rfl

theorem form_proper (U : PyUni) {f : BareForm} (hf : f.formProperties ≠ none) : f.form U = (properForm f).form U := by
  obtain ⟨w, p, q⟩ := f
  cases q with
  | none => exact absurd rfl hf
  | some q => rfl

theorem formNew_proper (w : BareWord) (p q : Option Properties) : properForm (BareForm.new w p q) = WordForm.new (proper w) p q := by
  obtain ⟨t, f, o⟩ := w
  cases o <;> cases p <;> cases q <;> rfl

theorem getForm_none (U : PyUni) (w : BareWord) : BareForm.getForm U w none = .error .AttributeError := by
  unfold BareForm.getForm BareWord.formRaw
  cases h : rawWordsCache w.type with
  | ok c => rfl
  | error e =>
    obtain ⟨c, hc, -⟩ := rawWordsCache_spec w.type
    rw [h] at hc
    cases hc

/-- C157: `WordForm(word, properties, form_properties)` spells what it does for the word made with `Properties()`, unless no properties are given at all. -/
theorem C157_word_form (U : PyUni) (w : BareWord) (p q : Option Properties) :
    (w.properties = none ∧ p = none ∧ q = none → (BareForm.new w p q).form U = .error .AttributeError) ∧
    (¬ (w.properties = none ∧ p = none ∧ q = none) → (BareForm.new w p q).form U = (WordForm.new (proper w) p q).form U) := by
  constructor
  · rintro ⟨h, rfl, rfl⟩
    unfold BareForm.form BareForm.new
    dsimp only
    rw [h]
    exact getForm_none U w
  · intro h
    rw [← formNew_proper]
    refine form_proper U ?_
    unfold BareForm.new
    cases p <;> cases q <;> (simp at h ⊢; try exact h)

/-- Forms in a dictionary always have properties: `all_forms` gives them. -/
def WithProperties (d : Dict Str BareForm) : Prop := ∀ t f, (t, f) ∈ d → f.properties ≠ none ∧ f.formProperties ≠ none

theorem get?_proper (d : Dict Str BareForm) (n : Str) : (properForms d).get? n = (Dict.get? d n).map properForm := by
  induction d with
  | nil => rfl
  | cons a d ih =>
    show Dict.get? ((a.1, properForm a.2) :: properForms d) n = _
    simp only [Dict.get?]
    split
    · rfl
    · exact ih

theorem set_proper (d : Dict Str BareForm) (n : Str) (f : BareForm) :
    properForms (Dict.set d n f) = Dict.set (properForms d) n (properForm f) := by
  induction d with
  | nil => rfl
  | cons a d ih =>
    show _ = Dict.set ((a.1, properForm a.2) :: properForms d) n _
    simp only [Dict.set]
    split
    · rfl
    · show (a.1, properForm a.2) :: properForms (Dict.set d n f) = _
      rw [ih]

theorem withProps_set {d : Dict Str BareForm} (hd : WithProperties d) (n : Str) {f : BareForm} (hf : f.properties ≠ none ∧ f.formProperties ≠ none) :
    WithProperties (Dict.set d n f) := by
  intro t g h
  rcases mem_dict_set h with h | h
  · cases h; exact hf
  · exact hd t g h

theorem nthForm_proper (w : BareWord) (i : Nat) : (proper w).nthForm i = (w.nthForm i).map properForm := by
  unfold Word.nthForm BareWord.nthForm
  show (match (invertedCacheProperties w.type)[i]? with | none => _ | some p => _) = _
  cases (invertedCacheProperties w.type)[i]? with
  | none => rfl
  | some p => simp only [Except.map, formNew_proper]

theorem nthForm_given {w : BareWord} {i : Nat} {f : BareForm} (h : w.nthForm i = .ok f) :
    f.properties ≠ none ∧ f.formProperties ≠ none ∧ f.word = w := by
  unfold BareWord.nthForm at h
  cases hi : (invertedCacheProperties w.type)[i]? with
  | none => rw [hi] at h; cases h
  | some p => rw [hi] at h; cases h; exact ⟨by simp [BareForm.new], by simp [BareForm.new], rfl⟩

theorem replaces_proper {f g : BareForm} (hf : f.properties ≠ none) (hg : g.properties ≠ none) :
    replacesBare f g = .ok (replaces (properForm f) (properForm g)) := by
  obtain ⟨w, p, q⟩ := f
  obtain ⟨v, p', q'⟩ := g
  cases p with
  | none => exact absurd rfl hf
  | some p => cases p' with
    | none => exact absurd rfl hg
    | some p' =>
      show replacesBare _ _ = Except.ok (ite _ _ _)
      unfold replacesBare
      simp only [BareForm.distance, bind, Except.bind, properForm, proper, Option.getD]
      split_ifs <;> (simp_all; try grind)

theorem register_proper {d : BareDictionary} (hd : WithProperties d) (text : Str) {f : BareForm} (hf : f.properties ≠ none ∧ f.formProperties ≠ none) :
    ∃ d', BareDictionary.register d text f = .ok d' ∧ WithProperties d' ∧ properForms d' = Dictionary.register (properForms d) text (properForm f) := by
  unfold BareDictionary.register Dictionary.register
  rw [get?_proper]
  cases h : Dict.get? d text with
  | none => exact ⟨_, rfl, withProps_set hd text hf, set_proper ..⟩
  | some g =>
    have hg := hd text g (Dict.mem_of_get? h)
    simp only [replaces_proper hf.1 hg.1, bind, Except.bind, Option.map]
    refine ⟨_, rfl, ?_, ?_⟩
    · split_ifs
      · exact withProps_set hd text hf
      · exact hd
    · split_ifs
      · exact set_proper ..
      · rfl

theorem addForms_proper (U : PyUni) (w : BareWord) : ∀ (is : List Nat) (d : BareDictionary), WithProperties d →
    WithProperties (BareDictionary.addForms U w d is).1 ∧
    (properForms (BareDictionary.addForms U w d is).1, (BareDictionary.addForms U w d is).2) =
      Dictionary.addForms U (proper w) (properForms d) is := by
  intro is
  induction is with
  | nil => exact fun d hd => ⟨hd, rfl⟩
  | cons i is ih =>
    intro d hd
    unfold BareDictionary.addForms Dictionary.addForms
    rw [nthForm_proper]
    cases hn : w.nthForm i with
    | error e => exact ⟨hd, rfl⟩
    | ok f =>
      obtain ⟨h1, h2, -⟩ := nthForm_given hn
      simp only [Except.map]
      rw [← form_proper U h2]
      cases f.form U with
      | error e => exact ⟨hd, rfl⟩
      | ok text =>
        obtain ⟨d', k1, k2, k3⟩ := register_proper hd text ⟨h1, h2⟩
        simp only [k1, ← k3]
        exact ih d' k2

theorem bareHistory_proper (U : PyUni) (ws : List BareWord) :
    WithProperties (bareHistory U ws) ∧ properForms (bareHistory U ws) = history U (ws.map proper) := by
  have key : ∀ (ws : List BareWord) (d : BareDictionary), WithProperties d →
      WithProperties (ws.foldl (fun (d : BareDictionary) w => (d.addWord U w).1) d) ∧
      properForms (ws.foldl (fun (d : BareDictionary) w => (d.addWord U w).1) d) =
        (ws.map proper).foldl (fun (d : Dictionary) w => (d.addWord U w).1) (properForms d) := by
    intro ws
    induction ws with
    | nil => exact fun d hd => ⟨hd, rfl⟩
    | cons w ws ih =>
      intro d hd
      obtain ⟨h1, h2⟩ := addForms_proper U w (List.range w.forms.length) d hd
      obtain ⟨h3, h4⟩ := ih _ h1
      refine ⟨h3, h4.trans ?_⟩
      have : properForms (BareDictionary.addForms U w d (List.range w.forms.length)).1 =
        (Dictionary.addForms U (proper w) (properForms d) (List.range w.forms.length)).1 := by rw [← h2]
      rw [this]
      rfl
  exact key ws [] (fun t f h => (by cases h))

/-- C157: a dictionary takes such words, and knows the same texts, with the same word forms, as one filled with the words made with `Properties()`. -/
theorem C157_add (U : PyUni) (ws : List BareWord) (w : BareWord) :
    properForms (bareHistory U ws) = history U (ws.map proper) ∧
    ((bareHistory U ws).addWord U w).2 = ((history U (ws.map proper)).addWord U (proper w)).2 := by
  obtain ⟨h1, h2⟩ := bareHistory_proper U ws
  refine ⟨h2, ?_⟩
  rw [← h2]
  exact congrArg Prod.snd (addForms_proper U w (List.range w.forms.length) _ h1).2

/-! ### `get_words` -/

theorem bareSetAdd_mem {s : List BareWord} {w v : BareWord} (h : v ∈ bareSetAdd s w) : v ∈ s ∨ v = w := by
  unfold bareSetAdd at h
  split at h
  · exact .inl h
  · simpa using h

theorem foldl_bareSet (l : List BareWord) : ∀ s : List BareWord,
    (∀ v ∈ l.foldl bareSetAdd s, v ∈ s ∨ v ∈ l) ∧ (∀ v ∈ s, v ∈ l.foldl bareSetAdd s) := by
  induction l with
  | nil => exact fun s => ⟨fun v h => .inl h, fun v h => h⟩
  | cons w l ih =>
    intro s
    obtain ⟨h1, h2⟩ := ih (bareSetAdd s w)
    refine ⟨fun v hv => ?_, fun v hv => h2 v ?_⟩
    · rcases h1 v hv with h | h
      · rcases bareSetAdd_mem h with h | rfl
        · exact .inl h
        · exact .inr (List.mem_cons_self ..)
      · exact .inr (List.mem_cons_of_mem _ h)
    · unfold bareSetAdd
      split
      · exact hv
      · exact List.mem_append_left _ hv

theorem foldl_bareSet_has (l : List BareWord) (he : ∀ w ∈ l, w.eq w = true) : ∀ (s : List BareWord), ∀ w ∈ l, ∃ v ∈ l.foldl bareSetAdd s, v.eq w = true := by
  induction l with
  | nil => exact fun _ w hw => (by cases hw)
  | cons a l ih =>
    intro s w hw
    rcases List.mem_cons.mp hw with rfl | hw
    · have : ∃ v ∈ bareSetAdd s w, v.eq w = true := by
        unfold bareSetAdd
        split
        · rename_i h
          obtain ⟨v, hv, hv'⟩ := List.any_eq_true.mp h
          exact ⟨v, hv, hv'⟩
        · exact ⟨w, by simp, he w (List.mem_cons_self ..)⟩
      obtain ⟨v, hv, hv'⟩ := this
      exact ⟨v, (foldl_bareSet l _).2 v hv, hv'⟩
    · exact ih (fun w hw => he w (List.mem_cons_of_mem _ hw)) _ w hw

theorem foldl_bareSet_apart (l : List BareWord) : ∀ s : List BareWord, s.Pairwise (fun v w => v.eq w = false) →
    (l.foldl bareSetAdd s).Pairwise (fun v w => v.eq w = false) := by
  induction l with
  | nil => exact fun s hs => hs
  | cons x l ih =>
    intro s hs
    refine ih _ ?_
    unfold bareSetAdd
    split
    · exact hs
    · rename_i h
      rw [List.pairwise_append]
      refine ⟨hs, by simp, ?_⟩
      intro a ha b hb
      simp at hb; subst hb
      by_contra hne
      exact h (List.any_eq_true.mpr ⟨a, ha, by simpa using hne⟩)

theorem addForms_words (U : PyUni) (w : BareWord) : ∀ (is : List Nat) (d : BareDictionary) (t : Str) (f : BareForm),
    (t, f) ∈ (BareDictionary.addForms U w d is).1 → (t, f) ∈ d ∨ f.word = w := by
  intro is
  induction is with
  | nil => exact fun d t f h => .inl h
  | cons i is ih =>
    intro d t f h
    unfold BareDictionary.addForms at h
    cases hn : w.nthForm i with
    | error e => rw [hn] at h; exact .inl h
    | ok g =>
      simp only [hn] at h
      cases hg : g.form U with
      | error e => rw [hg] at h; exact .inl h
      | ok text =>
        simp only [hg] at h
        cases hr : BareDictionary.register d text g with
        | error e => rw [hr] at h; exact .inl h
        | ok d' =>
          simp only [hr] at h
          rcases ih d' t f h with h | h
          · have : d' = d ∨ d' = Dict.set d text g := by
              unfold BareDictionary.register at hr
              cases hq : Dict.get? d text with
              | none => rw [hq] at hr; cases hr; exact .inr rfl
              | some r =>
                simp only [hq] at hr
                cases hb : replacesBare g r with
                | error e => rw [hb] at hr; cases hr
                | ok b => rw [hb] at hr; cases hr; cases b <;> simp
            rcases this with rfl | rfl
            · exact .inl h
            · rcases mem_dict_set h with h | h
              · cases h; exact .inr (nthForm_given hn).2.2
              · exact .inl h
          · exact .inr h

theorem bareHistory_words (U : PyUni) (ws : List BareWord) : ∀ t f, (t, f) ∈ bareHistory U ws → f.word ∈ ws := by
  have key : ∀ (ws : List BareWord) (d : BareDictionary) (t : Str) (f : BareForm),
      (t, f) ∈ ws.foldl (fun (d : BareDictionary) w => (d.addWord U w).1) d → (t, f) ∈ d ∨ f.word ∈ ws := by
    intro ws
    induction ws with
    | nil => exact fun d t f h => .inl h
    | cons w ws ih =>
      intro d t f h
      rcases ih _ t f h with h | h
      · rcases addForms_words U w _ d t f h with h | h
        · exact .inl h
        · exact .inr (by rw [h]; exact List.mem_cons_self ..)
      · exact .inr (List.mem_cons_of_mem _ h)
  intro t f h
  rcases key ws [] t f h with h | h
  · cases h
  · exact h

/-- C157: `get_words` gives the words that own a text, no two of them equal; a word made with `None` that owns a text is one of them. -/
theorem C157_words (U : PyUni) (ws : List BareWord) (hws : ∀ w ∈ ws, Accepted (proper w)) :
    (∀ w ∈ (bareHistory U ws).getWords, w ∈ ws ∧ ∃ t f, Dict.get? (bareHistory U ws) t = some f ∧ f.word = w) ∧
    (∀ t f, Dict.get? (bareHistory U ws) t = some f → ∃ w ∈ (bareHistory U ws).getWords, w.eq f.word = true) ∧
    (∀ t f, Dict.get? (bareHistory U ws) t = some f → f.word.properties = none → f.word ∈ (bareHistory U ws).getWords) ∧
    (bareHistory U ws).getWords.Pairwise (fun v w => v.eq w = false) := by
  have hnd : (Dict.keys (bareHistory U ws)).Nodup := by
    have h : Dict.keys (properForms (bareHistory U ws)) = Dict.keys (bareHistory U ws) := by
      simp [Dict.keys, properForms, Function.comp_def]
    rw [← h, (bareHistory_proper U ws).2, history_eq (by simpa using hws)]
    exact registerAll_nodup _ _ (by simp [Dict.keys])
  have hrefl : ∀ w ∈ ws, w.eq w = true := by
    intro w hw
    by_cases h : w.properties = none
    · exact ((C157_equal w w h).1).mpr rfl
    · rw [C157_equal_other w w h h]; exact C16_eq_equivalence.1 _ (hws w hw)
  have hown : ∀ t f, Dict.get? (bareHistory U ws) t = some f → ∃ w ∈ (bareHistory U ws).getWords, w.eq f.word = true := by
    intro t f h
    refine foldl_bareSet_has _ ?_ [] _ (List.mem_map.mpr ⟨(t, f), Dict.mem_of_get? h, rfl⟩)
    intro w hw
    obtain ⟨⟨u, g⟩, hg, rfl⟩ := List.mem_map.mp hw
    exact hrefl _ (bareHistory_words U ws u g hg)
  refine ⟨?_, hown, ?_, foldl_bareSet_apart _ [] List.Pairwise.nil⟩
  · intro w hw
    rcases (foldl_bareSet _ []).1 w hw with h | h
    · cases h
    · obtain ⟨⟨u, g⟩, hg, rfl⟩ := List.mem_map.mp h
      exact ⟨bareHistory_words U ws u g hg, u, g, Dict.get?_of_mem hnd hg, rfl⟩
  · intro t f h hp
    obtain ⟨w, hw, he⟩ := hown t f h
    rw [← ((C157_equal f.word w hp).2).mp he]
    exact hw

/-! ### Templates -/

theorem cluster_proper (U : PyUni) {f : BareForm} (hf : f.formProperties ≠ none) :
    f.startsWithConsonantCluster U = (properForm f).startsWithConsonantCluster U := by
  unfold BareForm.startsWithConsonantCluster WordForm.startsWithConsonantCluster
  rw [form_proper U hf]

theorem preposition_proper (U : PyUni) (w : BareWord) (p : Properties) {f : BareForm} (hf : f.formProperties ≠ none) :
    prepositionBare U w p f = prepositionAny U (proper w) p (properForm f) := by
  unfold prepositionBare prepositionAny
  rw [(C157_form w none).2]
  unfold consonantPrepositionBare consonantPrepositionAny vowelsPrepositionBare vowelsPrepositionAny
  rw [form_proper U hf, cluster_proper U hf]
  rfl

theorem transform_proper (U : PyUni) (w : BareWord) (p : Properties) {f : BareForm} (hf : w.type = .PREPOSITION → f.formProperties ≠ none) :
    transformBare U w p f = transform U (proper w) p (properForm f) := by
  unfold transformBare transform
  rw [show (proper w).type = w.type from rfl, show (properForm f).word.type = f.word.type from rfl]
  generalize f.word.type = s
  cases hT : w.type <;> cases s <;> dsimp only <;> first | rfl | exact preposition_proper U w p (hf hT)

theorem foldlM_proper (U : PyUni) (w : BareWord) : ∀ (fs : List BareForm), (w.type = .PREPOSITION → ∀ f ∈ fs, f.formProperties ≠ none) →
    ∀ p : Properties, fs.foldlM (fun ps external => transformBare U w ps external) p =
      (fs.map properForm).foldlM (fun ps external => transform U (proper w) ps external) p := by
  intro fs
  induction fs with
  | nil => exact fun _ _ => rfl
  | cons f fs ih =>
    intro h p
    rw [List.map_cons, List.foldlM_cons, List.foldlM_cons, transform_proper U w p fun hT => h hT f (List.mem_cons_self ..)]
    congr 1
    funext q
    exact ih (fun hT f hf => h hT f (List.mem_cons_of_mem _ hf)) q

theorem list_proper (ext : BareExternals) : ∀ deps : List Dep,
    listProperties (properForms ext) deps =
      (listPropertiesBare ext deps).map fun pf => (pf.1.map fun o => o.getD (.new []), pf.2.map properForm) := by
  intro deps
  induction deps with
  | nil => rfl
  | cons a deps ih =>
    cases a with
    | ext n =>
      rw [listPropertiesBare, listProperties, get?_proper]
      cases Dict.get? ext n with
      | none => rfl
      | some f =>
        simp only [Option.map, ih]
        cases listPropertiesBare ext deps <;> rfl
    | props p =>
      rw [listPropertiesBare, listProperties, ih]
      cases listPropertiesBare ext deps <;> rfl

theorem list_mentions (ext : BareExternals) : ∀ (deps : List Dep) {ps : List (Option Properties)} {fs : List BareForm},
    listPropertiesBare ext deps = .ok (ps, fs) →
    (∀ f ∈ fs, ∃ n, Dep.ext n ∈ deps ∧ Dict.get? ext n = some f) := by
  intro deps
  induction deps with
  | nil => intro ps fs h; cases h; simp
  | cons a deps ih =>
    intro ps fs h
    cases a with
    | ext n =>
      rw [listPropertiesBare] at h
      cases hg : Dict.get? ext n with
      | none => rw [hg] at h; cases h
      | some g =>
        simp only [hg] at h
        cases hl : listPropertiesBare ext deps with
        | error e => rw [hl] at h; cases h
        | ok x =>
          rw [hl] at h; cases h
          intro f hf
          rcases List.mem_cons.mp hf with rfl | hf
          · exact ⟨n, List.mem_cons_self .., hg⟩
          · obtain ⟨m, h1, h2⟩ := ih hl f hf
            exact ⟨m, List.mem_cons_of_mem _ h1, h2⟩
    | props p =>
      rw [listPropertiesBare] at h
      cases hl : listPropertiesBare ext deps with
      | error e => rw [hl] at h; cases h
      | ok x =>
        rw [hl] at h; cases h
        intro f hf
        obtain ⟨m, h1, h2⟩ := ih hl f hf
        exact ⟨m, List.mem_cons_of_mem _ h1, h2⟩

theorem base_proper (s : Substitution) (ext : BareExternals) (d : BareDictionary) :
    s.baseForm (properForms ext) (properForms d) = (s.baseBare ext d).map properForm := by
  unfold Substitution.baseForm Substitution.baseBare Dictionary.getWord
  rw [get?_proper, get?_proper]
  cases Dict.get? ext s.id with
  | some f => rfl
  | none => cases Dict.get? d s.id <;> rfl

theorem resolves_bare {s : Substitution} {ext : BareExternals} {d : BareDictionary} {f : BareForm} :
    ResolvesBare ext d s.id f ↔ s.baseBare ext d = .ok f := by
  unfold ResolvesBare Substitution.baseBare
  cases Dict.get? ext s.id with
  | some g => simp
  | none => cases Dict.get? d s.id <;> simp

/-- C157: a variable is filled as it is with the words made with `Properties()`, if the word that stands there was given properties, by itself or as a
word form, and, for a preposition, those it depends on were too. -/
theorem C157_variable (U : PyUni) (s : Substitution) (ext : BareExternals) (d : BareDictionary)
    (h1 : ∀ f, ResolvesBare ext d s.id f → f.properties ≠ none)
    (h2 : ∀ f n g, ResolvesBare ext d s.id f → f.word.type = .PREPOSITION → .ext n ∈ s.dependencies → Dict.get? ext n = some g →
      g.formProperties ≠ none) :
    s.getBare U ext d = s.getText U (properForms ext) (properForms d) := by
  unfold Substitution.getBare Substitution.getText
  rw [base_proper, list_proper]
  cases hb : s.baseBare ext d with
  | error e => rfl
  | ok f =>
    have hf := h1 f (resolves_bare.mpr hb)
    simp only [bind, Except.bind, Except.map]
    cases hl : listPropertiesBare ext s.dependencies with
    | error e => rfl
    | ok x =>
      obtain ⟨ps, fs⟩ := x
      dsimp only
      cases hp : f.properties with
      | none => exact absurd hp hf
      | some p =>
        dsimp only
        have hc := foldlM_proper U f.word fs (fun hT g hg => by
          obtain ⟨n, k1, k2⟩ := list_mentions ext _ hl g hg
          exact h2 f n g (resolves_bare.mpr hb) hT k1 k2) (p.clone ((ps ++ [f.word.properties]).map optArg))
        rw [hc, clone_opt]
        have e : (properForm f).properties = p := by simp [properForm, hp]
        rw [e]
        simp only [List.map_append, List.map_map, List.map_cons, List.map_nil]
        rfl

theorem withProps_get {d : BareDictionary} (hd : WithProperties d) {n : Str} {f : BareForm} (h : Dict.get? d n = some f) :
    f.properties ≠ none ∧ f.formProperties ≠ none := hd n f (Dict.mem_of_get? h)

/-- C157: a template is filled from a dictionary of such words, with externals that were given properties, as it is with the words made with
`Properties()`. -/
theorem C157_template (U : PyUni) (t : Template) (ext : BareExternals)
    (he : ∀ n f, Dict.get? ext n = some f → f.properties ≠ none ∧ f.formProperties ≠ none) (ws : List BareWord) :
    t.fillBare U ext (bareHistory U ws) = t.substitute U (properForms ext) (history U (ws.map proper)) := by
  obtain ⟨hd, hh⟩ := bareHistory_proper U ws
  unfold Template.fillBare Template.substitute
  have : (fun s : Substitution => s.getBare U ext (bareHistory U ws)) =
      fun s => s.getText U (properForms ext) (history U (ws.map proper)) := by
    funext s
    rw [← hh]
    refine C157_variable U s ext _ ?_ ?_
    · rintro f (h | ⟨-, h⟩)
      · exact (he _ f h).1
      · exact (withProps_get hd h).1
    · intro f n g _ _ _ h
      exact (he n g h).2
  rw [this]
  rfl

theorem list_found (ext : BareExternals) : ∀ deps : List Dep, (∀ n, Dep.ext n ∈ deps → ∃ g, Dict.get? ext n = some g) →
    ∃ x, listPropertiesBare ext deps = .ok x := by
  intro deps
  induction deps with
  | nil => exact fun _ => ⟨_, rfl⟩
  | cons a deps ih =>
    intro h
    obtain ⟨x, hx⟩ := ih fun n hn => h n (List.mem_cons_of_mem _ hn)
    cases a with
    | ext n =>
      obtain ⟨g, hg⟩ := h n (List.mem_cons_self ..)
      rw [listPropertiesBare, hg]
      simp only [hx]
      exact ⟨_, rfl⟩
    | props p =>
      rw [listPropertiesBare, hx]
      exact ⟨_, rfl⟩

/-- C157: a word form without properties cannot stand in a text by itself. -/
theorem C157_named (U : PyUni) (s : Substitution) (ext : BareExternals) (d : BareDictionary) (f : BareForm) (hf : ResolvesBare ext d s.id f)
    (hp : f.properties = none) (hdeps : ∀ n, .ext n ∈ s.dependencies → ∃ g, Dict.get? ext n = some g) :
    s.getBare U ext d = .error .AttributeError := by
  unfold Substitution.getBare
  rw [resolves_bare.mp hf]
  obtain ⟨x, hx⟩ := list_found ext _ hdeps
  simp only [bind, Except.bind, hx, hp]

/-- C157: a preposition cannot depend on a word form without properties. -/
theorem C157_preposition (U : PyUni) (s : Substitution) (ext : BareExternals) (d : BareDictionary) (f g : BareForm) (n text : Str)
    (before after : List Dep) (hf : ResolvesBare ext d s.id f) (hp : f.properties ≠ none) (hT : f.word.type = .PREPOSITION)
    (hw : f.word.normalForm = .ok text) (ht : text ≠ []) (hs : s.dependencies = before ++ .ext n :: after)
    (hbefore : ∀ m, .ext m ∉ before) (hafter : ∀ m, .ext m ∈ after → ∃ g, Dict.get? ext m = some g)
    (hg : Dict.get? ext n = some g) (hgp : g.formProperties = none) :
    s.getBare U ext d = .error .AttributeError := by
  obtain ⟨x, hx⟩ := list_found ext after hafter
  have : ∀ before : List Dep, (∀ m, Dep.ext m ∉ before) → ∃ ps, listPropertiesBare ext (before ++ .ext n :: after) = .ok (ps, g :: x.2) := by
    intro before
    induction before with
    | nil =>
      intro _
      rw [List.nil_append, listPropertiesBare, hg]
      simp only [hx]
      exact ⟨_, rfl⟩
    | cons a before ih =>
      intro h
      obtain ⟨ps, hps⟩ := ih fun m hm => h m (List.mem_cons_of_mem _ hm)
      cases a with
      | ext m => exact absurd (List.mem_cons_self ..) (h m)
      | props p =>
        rw [List.cons_append, listPropertiesBare, hps]
        exact ⟨_, rfl⟩
  obtain ⟨ps, hps⟩ := this before hbefore
  have hnone : g.form U = .error .AttributeError := by
    unfold BareForm.form
    rw [hgp]
    exact getForm_none U g.word
  have hstep : ∀ p, transformBare U f.word p g = .error .AttributeError := by
    intro p
    unfold transformBare
    rw [hT]
    show prepositionBare U f.word p g = _
    unfold prepositionBare
    rw [hw]
    obtain ⟨c, hc⟩ : ∃ c, Py.last text = .ok c := by
      unfold Py.last
      cases h : text.getLast? with
      | none => exact absurd (List.getLast?_eq_none_iff.mp h) ht
      | some c => exact ⟨c, rfl⟩
    simp only [bind, Except.bind, hc]
    unfold consonantPrepositionBare vowelsPrepositionBare
    rw [hnone]
    split_ifs <;> rfl
  unfold Substitution.getBare
  rw [resolves_bare.mp hf, hs, hps]
  simp only [bind, Except.bind]
  cases hq : f.properties with
  | none => exact absurd hq hp
  | some q =>
    simp only [List.foldlM_cons, hstep]
    rfl

/-- «Игорь», made with `None`. -/
def exNoneIgor : BareWord := ⟨.TEXT, [str! "Игорь"], none⟩

/-- The preposition «о», made with `None`. -/
def exNoneAbout : BareWord := ⟨.PREPOSITION, [str! "о", str! "об", str! "обо"], none⟩

example : BareWord.new .TEXT [str! "Игорь"] none = .ok exNoneIgor ∧ BareWord.new .PREPOSITION exNoneAbout.forms none = .ok exNoneAbout ∧
    Accepted (proper exNoneIgor) ∧ Accepted (proper exNoneAbout) := by
  refine ⟨(C157_constructor ..).mpr ⟨rfl, rfl⟩, (C157_constructor ..).mpr ⟨rfl, rfl⟩, ?_, ?_⟩ <;>
    exact accepted_iff.mpr ⟨wf_new (argv := []) (fun p h => (by cases h)), by decide +kernel⟩

example : exNoneIgor.normalForm = .ok (str! "Игорь") ∧ exNoneIgor.serialize = .error .AttributeError ∧
    exNoneIgor.eq ⟨.TEXT, [str! "Игорь"], some (.new [])⟩ = false := by decide +kernel

/-- Written as a word of a template: fine from the dictionary, an `AttributeError` as an external. -/
example (U : PyUni) :
    Substitution.getBare U ⟨str! "hero", []⟩ [(str! "hero", .new exNoneIgor none none)] [] = .error .AttributeError :=
  C157_named U _ _ _ (.new exNoneIgor none none) (.inl rfl) rfl (by simp)

example (U : PyUni) : Substitution.getBare U ⟨str! "hero", []⟩ [(str! "hero", .new exNoneIgor (some (.new [])) none)] [] =
    Substitution.getText U ⟨str! "hero", []⟩ [(str! "hero", WordForm.new (proper exNoneIgor) (some (.new [])) none)] [] := by
  refine C157_variable U _ _ _ ?_ ?_
  · rintro f (h | ⟨h, -⟩)
    · simp only [Dict.get?, if_pos, Option.some.injEq] at h; subst h; simp [BareForm.new]
    · simp [Dict.get?] at h
  · intro f n g _ _ hn _
    cases hn

/-- «о» of an external made with `None`. -/
example (U : PyUni) :
    Substitution.getBare U ⟨str! "about", [.ext (str! "hero")]⟩
      [(str! "hero", .new exNoneIgor none none), (str! "about", .new exNoneAbout (some (.new [])) none)] [] = .error .AttributeError :=
  C157_preposition U _ _ _ (.new exNoneAbout (some (.new [])) none) (.new exNoneIgor none none) (str! "hero") (str! "о") [] []
    (.inl (by decide +kernel)) (by simp [BareForm.new]) rfl (by decide +kernel) (by decide) rfl (by simp) (by simp) (by decide +kernel) rfl

end Utg
