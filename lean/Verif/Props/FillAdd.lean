import Verif.Spec.FillAdd
import Verif.Props.FillThreads
import Verif.Props.Dictionary
import Verif.Props.Threads
/-! # Property C139: a word is filled and added to a dictionary at the same time -/

namespace Utg
open Py Spec

/-- Which slot an item of `all_forms` looks at does not depend on the forms. -/
theorem slot_spelling (U : PyUni) {t : WordType} {p : Properties} (hp : WFProps p) {i : Nat} (hi : i < (invertedCache t).length) :
    ∃ (q : Properties) (j : Nat), q.get .WORD_CASE = p.get .WORD_CASE ∧ j < (invertedCache t).length ∧
      ((∀ g ∈ t.schema, p.isSpecified g = false) → j = i) ∧
      ∀ forms : List Str, forms.length = (invertedCache t).length → ∃ raw, forms[j]? = some raw ∧
        Word.nthForm ⟨t, forms, p⟩ i = .ok ⟨⟨t, forms, p⟩, q, q⟩ ∧
        WordForm.form U ⟨⟨t, forms, p⟩, q, q⟩ =
          if p.get .WORD_CASE = some .WORD_CASE_UPPER then upperFirst U raw else .ok raw := by
  set k := (invertedCache t)[i] with hk
  have hkm : k ∈ invertedCache t := List.getElem_mem hi
  obtain ⟨cache, hc, hs⟩ := rawWordsCache_spec t
  have hwf := wf_new2 (wf_propertiesOfKey k) hp
  obtain ⟨c, hfull, hraw⟩ := getRawKey_eq hwf (schema_not_wordType t)
  obtain ⟨j, hj⟩ := hs.total c hfull
  have hlt := hs.bound _ _ hj
  have hcase : (Properties.new [.props (propertiesOfKey k), .props p]).get .WORD_CASE = p.get .WORD_CASE :=
    allForms_wordCase (w := ⟨t, [], p⟩) hp hkm
  refine ⟨.new [.props (propertiesOfKey k), .props p], j, hcase, hlt, ?_, ?_⟩
  · intro hfree
    have hm : Matches k c := by
      refine matches_of_forall₂ ?_ hfull hraw
      have hfit := invertedCache_fits hkm
      have hlen' : k.length = t.schema.length := hfit.length_eq
      rw [List.forall₂_iff_get]
      refine ⟨hlen', ?_⟩
      intro n hn1 hn2
      simp only [List.get_eq_getElem]
      cases hx : k[n] with
      | none => exact Or.inl rfl
      | some r =>
        right
        rw [new2_get (wf_propertiesOfKey k) hp, hfree _ (List.getElem_mem hn2)]
        have := propertiesOfKey_schema (schema_nodup _) hfit (j := n) (g := t.schema[n]) (r := r) (by simp)
          (by rw [List.getElem?_eq_getElem hn1, hx])
        simp [Properties.get, this]
    have := hs.slot i k c (by rw [hk]; simp) hfull hm
    rw [hj] at this; injection this
  · intro forms hl
    have hlt' : j < forms.length := by omega
    refine ⟨forms[j], List.getElem?_eq_getElem hlt', ?_, ?_⟩
    · unfold Word.nthForm invertedCacheProperties
      rw [List.getElem?_map, List.getElem?_eq_getElem hi]
      simp [WordForm.new, hk]
    · have hr : Word.formRaw ⟨t, forms, p⟩ (.new [.props (propertiesOfKey k), .props p]) = .ok forms[j] := by
        unfold Word.formRaw
        simp only [hc, bind, Except.bind, hraw, hj]
        simp [hlt']
      unfold WordForm.form
      rcases wordCase_cases p hp with h | h
      · rw [getForm_lower (hcase.trans h), hr, if_neg (by rw [h]; decide)]
      · rw [getForm_upper (hcase.trans h), hr, if_pos h]; rfl

theorem nthForm_allForms {w : Word} (h2 : w.forms.length = (invertedCache w.type).length) {fs : List WordForm} (h : w.allForms = .ok fs)
    (i : Nat) (f : WordForm) : fs[i]? = some f ↔ w.nthForm i = .ok f := by
  rw [allForms_spec h2] at h
  injection h with h; subst h
  unfold Word.nthForm invertedCacheProperties
  rw [List.getElem?_map, List.getElem?_map]
  cases (invertedCache w.type)[i]? <;> simp

/-- The word `w'` is the word `w` with some gaps filled. -/
structure SameWord (w w' : Word) : Prop where
  type : w'.type = w.type
  properties : w'.properties = w.properties
  forms : FormsOk w.forms w'.forms

/-- What is always true of the words and the calls that fill them. -/
structure WordsOk (words : List Word) (s : Workshop) : Prop where
  length : s.words.length = words.length
  same : ∀ (k : Nat) (w : Word), words[k]? = some w → ∃ w', s.words[k]? = some w' ∧ SameWord w w'
  calls : ∀ (c k : Nat) (pc : AutofillPC), s.fills[c]? = some (k, pc) →
    ∃ w w', words[k]? = some w ∧ s.words[k]? = some w' ∧ CallOk w.type w.forms w'.forms pc

theorem workedOn_snoc (U : PyUni) (words : List Word) (data : Dict Str FormObj) (es : List WorkshopEvent) (e : WorkshopEvent) :
    workedOn U words data (es ++ [e]) = (workedOn U words data es).step U e := by
  unfold workedOn; rw [List.foldl_append]; rfl

theorem wordsOk_step {U : PyUni} {words : List Word} (hw : ∀ w ∈ words, Accepted w) {s : Workshop} (h : WordsOk words s) (e : WorkshopEvent) :
    WordsOk words (s.step U e) := by
  cases e with
  | add k =>
    simp only [Workshop.step]
    cases s.words[k]? with
    | none => exact h
    | some w => exact ⟨h.length, h.same, h.calls⟩
  | addTurn c =>
    simp only [Workshop.step]
    cases s.adds[c]? with
    | none => exact h
    | some x => exact ⟨h.length, h.same, h.calls⟩
  | fill k =>
    simp only [Workshop.step]
    cases hk : s.words[k]? with
    | none => exact h
    | some w' =>
      refine ⟨h.length, h.same, ?_⟩
      intro c k' pc hc
      rw [List.getElem?_append] at hc
      split at hc
      · exact h.calls c k' pc hc
      · have hlt : k < words.length := by rw [← h.length]; exact (List.getElem?_eq_some_iff.mp hk).1
        have : (k', pc) = (k, AutofillPC.scan 0 []) := by
          have := List.mem_of_getElem? hc; simpa using this
        simp only [Prod.mk.injEq] at this
        obtain ⟨rfl, rfl⟩ := this
        exact ⟨words[k'], w', List.getElem?_eq_getElem hlt, hk, Nat.zero_le _, fun k hk => absurd hk (by simp), fun j f hj => absurd hj (by omega)⟩
  | fillTurn c =>
    simp only [Workshop.step]
    cases hc : s.fills[c]? with
    | none => exact h
    | some x =>
      obtain ⟨k, pc⟩ := x
      dsimp only
      cases hk : s.words[k]? with
      | none => exact h
      | some w' =>
        dsimp only
        obtain ⟨w, w'', e1, e2, hcall⟩ := h.calls c k pc hc
        rw [hk] at e2; injection e2 with e2; subst e2
        obtain ⟨v, e2, hsame⟩ := h.same k w e1
        rw [hk] at e2; injection e2 with e2; subst e2
        have hacc := (accepted_iff.mp (hw w (List.mem_of_getElem? e1))).2
        obtain ⟨ha, hb, hg⟩ := turn_ok hacc hsame.forms pc hcall
        rw [← hsame.type] at ha hb hg
        have hklt := (List.getElem?_eq_some_iff.mp hk).1
        refine ⟨by simp [h.length], ?_, ?_⟩
        · intro k' u hu
          by_cases hkk : k = k'
          · subst hkk
            rw [e1] at hu; injection hu with hu; subst hu
            exact ⟨_, List.getElem?_set_self hklt, hsame.type, hsame.properties, ha⟩
          · obtain ⟨u', f1, f2⟩ := h.same k' u hu
            exact ⟨u', by rw [List.getElem?_set_ne hkk, f1], f2⟩
        · intro c' k' pc' hc'
          dsimp only at hc' ⊢
          by_cases hcc : c = c'
          · subst hcc
            rw [List.getElem?_set_self (List.getElem?_eq_some_iff.mp hc).1] at hc'
            simp only [Option.some.injEq, Prod.mk.injEq] at hc'
            obtain ⟨rfl, rfl⟩ := hc'
            exact ⟨w, _, e1, List.getElem?_set_self hklt, hsame.type ▸ hb⟩
          · rw [List.getElem?_set_ne hcc] at hc'
            obtain ⟨u, u', f1, f2, f3⟩ := h.calls c' k' pc' hc'
            by_cases hkk : k = k'
            · subst hkk
              rw [e1] at f1; injection f1 with f1; subst f1
              rw [hk] at f2; injection f2 with f2; subst f2
              exact ⟨w, _, e1, List.getElem?_set_self hklt,
                grow_call (by rw [hsame.forms.length, ha.length]) hsame.forms.length hg pc' f3⟩
            · exact ⟨u, u', f1, by rw [List.getElem?_set_ne hkk, f2], f3⟩

theorem wordsOk (U : PyUni) {words : List Word} (hw : ∀ w ∈ words, Accepted w) (data : Dict Str FormObj) (events : List WorkshopEvent) :
    WordsOk words (workedOn U words data events) := by
  induction events using List.reverseRecOn with
  | nil => exact ⟨rfl, fun k w h => ⟨w, h, rfl, rfl, rfl, fun _ _ h _ => h, fun _ h => Or.inr h⟩, fun c k pc h => by simp [workedOn] at h⟩
  | append_singleton es e ih => rw [workedOn_snoc]; exact wordsOk_step hw ih e

/-- C139: whatever the threads do, a word keeps its type, its properties, the number of its forms and the forms that were present; every
other form is empty or the text of one that was present. When a call that fills it has returned, no form is missing, if one was present;
no such call raises. -/
theorem C139_words (U : PyUni) (words : List Word) (hw : ∀ w ∈ words, Accepted w) (data : Dict Str FormObj) (events : List WorkshopEvent)
    (k : Nat) (w : Word) (hk : words[k]? = some w) :
    ∃ w', (workedOn U words data events).words[k]? = some w' ∧ w'.type = w.type ∧ w'.properties = w.properties ∧
      w'.forms.length = w.forms.length ∧
      (∀ (i : Nat) (f : Str), w.forms[i]? = some f → f ≠ [] → w'.forms[i]? = some f) ∧
      (∀ f ∈ w'.forms, f = [] ∨ f ∈ w.forms) ∧
      (∀ c : Nat, (workedOn U words data events).fills[c]? = some (k, .done) → (∃ f ∈ w.forms, f ≠ []) → ∀ f ∈ w'.forms, f ≠ []) ∧
      ∀ (c : Nat) (e : PyErr), (workedOn U words data events).fills[c]? ≠ some (k, .failed e) := by
  have h := wordsOk U hw data events
  obtain ⟨w', h1, h2⟩ := h.same k w hk
  refine ⟨w', h1, h2.type, h2.properties, h2.forms.length, h2.forms.kept, h2.forms.texts, ?_, ?_⟩
  · intro c hc hex f hf he
    obtain ⟨v, v', e1, e2, h3⟩ := h.calls c k .done hc
    rw [hk] at e1; injection e1 with e1; subst e1
    rw [h1] at e2; injection e2 with e2; subst e2
    obtain ⟨j, hj⟩ := List.mem_iff_getElem?.mp hf
    exact h3 hex j (by rw [← h2.forms.length]; exact (List.getElem?_eq_some_iff.mp hj).1) (by rw [hj, he])
  · intro c e hc
    obtain ⟨_, _, _, _, h3⟩ := h.calls c k (.failed e) hc
    exact h3

/-! ## Where entries come from -/

/-- The word of `f` was given to `add_word`, and at some moment it spelled `f` as `t`. -/
def Was (U : PyUni) (words : List Word) (data : Dict Str FormObj) (events : List WorkshopEvent) (f : FormObj) (t : Str) : Prop :=
  .add f.word ∈ events ∧ ∃ before w', before <+: events ∧ (workedOn U words data before).words[f.word]? = some w' ∧ IsSpelled U w' f t

theorem Was.mono {U : PyUni} {words : List Word} {data : Dict Str FormObj} {es : List WorkshopEvent} {f : FormObj} {t : Str}
    (h : Was U words data es f t) (e : WorkshopEvent) : Was U words data (es ++ [e]) f t := by
  obtain ⟨h0, b, w', h1, h2, h3⟩ := h
  exact ⟨by simp [h0], b, w', h1.trans (List.prefix_append _ _), h2, h3⟩

/-- The word exists and has the slots that are still to come. -/
def Rest (words : List Word) (k : Nat) (is : List Nat) : Prop := ∃ w, words[k]? = some w ∧ ∀ i ∈ is, i < w.forms.length

/-- What is always true of a call of `add_word`. -/
def AddingOk (W : FormObj → Str → Prop) (words : List Word) (d : Dict Str FormObj) (k : Nat) : AddingPC → Prop
  | .next is => Rest words k is
  | .check text f is => Rest words k is ∧ f.word = k ∧ W f text
  | .load text f is => Rest words k is ∧ f.word = k ∧ W f text ∧ ∃ g, d.get? text = some g
  | .less text f g is => Rest words k is ∧ f.word = k ∧ W f text ∧ g.word < words.length
  | .greater text f g is => Rest words k is ∧ f.word = k ∧ W f text ∧ g.word < words.length
  | .put text f is => Rest words k is ∧ f.word = k ∧ W f text
  | .done => True
  | .failed e => e = .IndexError ∧ ∃ w, words[k]? = some w ∧ w.properties.get .WORD_CASE = some .WORD_CASE_UPPER ∧ [] ∈ w.forms

theorem AddingOk.mono {W W' : FormObj → Str → Prop} {words : List Word} {d d' : Dict Str FormObj} {k : Nat} {pc : AddingPC}
    (h : AddingOk W words d k pc) (hW : ∀ f t, W f t → W' f t) (hd : ∀ t g, d.get? t = some g → ∃ g', d'.get? t = some g') :
    AddingOk W' words d' k pc := by
  cases pc with
  | next is => exact h
  | check t f is => exact ⟨h.1, h.2.1, hW _ _ h.2.2⟩
  | load t f is => obtain ⟨h1, h2, h3, g, h4⟩ := h; exact ⟨h1, h2, hW _ _ h3, hd _ _ h4⟩
  | less t f g is => exact ⟨h.1, h.2.1, hW _ _ h.2.2.1, h.2.2.2⟩
  | greater t f g is => exact ⟨h.1, h.2.1, hW _ _ h.2.2.1, h.2.2.2⟩
  | put t f is => exact ⟨h.1, h.2.1, hW _ _ h.2.2⟩
  | done => trivial
  | failed e => exact h

/-- What is always true of the dictionary and the calls of `add_word`. -/
structure AddsOk (U : PyUni) (words : List Word) (data : Dict Str FormObj) (events : List WorkshopEvent) : Prop where
  source : ∀ t f, (workedOn U words data events).data.get? t = some f → data.get? t = some f ∨ f.word < words.length ∧ Was U words data events f t
  known : ∀ t f, data.get? t = some f → ∃ f', (workedOn U words data events).data.get? t = some f'
  calls : ∀ (c k : Nat) (pc : AddingPC), (workedOn U words data events).adds[c]? = some (k, pc) →
    AddingOk (Was U words data events) words (workedOn U words data events).data k pc

theorem form_error {U : PyUni} {t : WordType} {p : Properties} (hp : WFProps p) {forms : List Str} (hl : forms.length = (invertedCache t).length)
    {i : Nat} (hi : i < (invertedCache t).length) : ∃ f, Word.nthForm ⟨t, forms, p⟩ i = .ok f ∧
      ((∃ text, f.form U = .ok text) ∨ f.form U = .error .IndexError ∧ p.get .WORD_CASE = some .WORD_CASE_UPPER ∧ [] ∈ forms) := by
  obtain ⟨q, j, h1, h2, -, h3⟩ := slot_spelling U hp hi
  obtain ⟨raw, h4, h5, h6⟩ := h3 forms hl
  refine ⟨_, h5, ?_⟩
  rw [h6]
  split
  · rename_i hu
    cases raw with
    | nil => exact .inr ⟨rfl, hu, List.mem_of_getElem? h4⟩
    | cons c cs => exact .inl ⟨_, rfl⟩
  · exact .inl ⟨raw, rfl⟩

/-- No entry is ever removed. -/
theorem adding_grows {U : PyUni} {words : List Word} {d : Dict Str FormObj} {k : Nat} {pc : AddingPC} {t : Str} {g : FormObj}
    (h : d.get? t = some g) : ∃ g', (addingStep U words d k pc).2.get? t = some g' := by
  have same : (addingStep U words d k pc).2 = d → ∃ g', (addingStep U words d k pc).2.get? t = some g' := fun e => ⟨g, by rw [e]; exact h⟩
  cases pc with
  | put text f is =>
    simp only [addingStep]; rw [Dict.get?_set]
    split
    · exact ⟨_, rfl⟩
    · exact ⟨g, h⟩
  | next is => apply same; cases is <;> simp only [addingStep] <;> (repeat' split) <;> rfl
  | check => apply same; simp only [addingStep]; split <;> rfl
  | load => apply same; simp only [addingStep]; (repeat' split) <;> rfl
  | less => apply same; simp only [addingStep]; (repeat' split) <;> rfl
  | greater => apply same; simp only [addingStep]; (repeat' split) <;> rfl
  | done => exact same rfl
  | failed => exact same rfl

/-- One step of a call of `add_word`. -/
theorem adding_ok {U : PyUni} {words : List Word} (hw : ∀ w ∈ words, Accepted w) {W : FormObj → Str → Prop} {s : Workshop}
    (hs : WordsOk words s) {k : Nat} (hW : ∀ f t w', f.word = k → s.words[f.word]? = some w' → IsSpelled U w' f t → W f t)
    (hd : ∀ t g, s.data.get? t = some g → g.word < words.length) {pc : AddingPC} (h : AddingOk W words s.data k pc) :
    AddingOk W words (addingStep U s.words s.data k pc).2 k (addingStep U s.words s.data k pc).1 ∧
      ∀ t f, (addingStep U s.words s.data k pc).2.get? t = some f → s.data.get? t = some f ∨ f.word < words.length ∧ W f t := by
  have hex : ∀ {k : Nat}, k < words.length → ∃ w, s.words[k]? = some w := fun {k} hk =>
    ⟨_, List.getElem?_eq_getElem (by rw [hs.length]; exact hk)⟩
  have hrest : ∀ {k is}, Rest words k is → k < words.length := fun {k is} ⟨w, h, _⟩ => (List.getElem?_eq_some_iff.mp h).1
  cases pc with
  | done => exact ⟨trivial, fun t f h => .inl h⟩
  | failed e => exact ⟨h, fun t f h => .inl h⟩
  | put text f is =>
    refine ⟨h.1, ?_⟩
    intro t g hg
    simp only [addingStep] at hg
    rw [Dict.get?_set] at hg
    split at hg
    · rename_i e; injection hg with hg; subst hg; subst e
      exact .inr ⟨by rw [h.2.1]; exact hrest h.1, h.2.2⟩
    · exact .inl hg
  | check text f is =>
    simp only [addingStep]
    split
    · rename_i hc
      refine ⟨⟨h.1, h.2.1, h.2.2, ?_⟩, fun t f h => .inl h⟩
      exact contains_iff_get?.mp hc
    · exact ⟨h, fun t f h => .inl h⟩
  | load text f is =>
    obtain ⟨h1, h2, h3, g, hg⟩ := h
    obtain ⟨w, e1⟩ := hex (k := f.word) (by rw [h2]; exact hrest h1)
    obtain ⟨v, e2⟩ := hex (hd _ _ hg)
    simp only [addingStep, hg, e1, e2]
    split
    · exact ⟨⟨h1, h2, h3⟩, fun t f h => .inl h⟩
    split
    · exact ⟨h1, fun t f h => .inl h⟩
    · exact ⟨⟨h1, h2, h3, hd _ _ hg⟩, fun t f h => .inl h⟩
  | less text f g is =>
    obtain ⟨h1, h2, h3, hg⟩ := h
    obtain ⟨w, e1⟩ := hex (k := f.word) (by rw [h2]; exact hrest h1)
    obtain ⟨v, e2⟩ := hex hg
    simp only [addingStep, e1, e2]
    split
    · exact ⟨⟨h1, h2, h3⟩, fun t f h => .inl h⟩
    · exact ⟨⟨h1, h2, h3, hg⟩, fun t f h => .inl h⟩
  | greater text f g is =>
    obtain ⟨h1, h2, h3, hg⟩ := h
    obtain ⟨w, e1⟩ := hex (k := f.word) (by rw [h2]; exact hrest h1)
    obtain ⟨v, e2⟩ := hex hg
    simp only [addingStep, e1, e2]
    split
    · exact ⟨h1, fun t f h => .inl h⟩
    split
    · exact ⟨⟨h1, h2, h3⟩, fun t f h => .inl h⟩
    · exact ⟨h1, fun t f h => .inl h⟩
  | next is =>
    cases is with
    | nil => exact ⟨trivial, fun t f h => .inl h⟩
    | cons i is =>
      obtain ⟨w, e1, hi⟩ := h
      obtain ⟨w', e2, hsame⟩ := hs.same k w e1
      obtain ⟨a1, a2⟩ := accepted_iff.mp (hw w (List.mem_of_getElem? e1))
      have hl : w'.forms.length = (invertedCache w'.type).length := by rw [hsame.forms.length, hsame.type, a2]
      have hp : WFProps w'.properties := by rw [hsame.properties]; exact a1
      have hii : i < (invertedCache w'.type).length := by rw [hsame.type, ← a2]; exact hi i (by simp)
      obtain ⟨f, hf, hfe⟩ := form_error (U := U) hp hl hii
      have hf : w'.nthForm i = .ok f := hf
      simp only [addingStep, e2, hf]
      rcases hfe with ⟨text, ht⟩ | ⟨ht, hu, hm⟩
      · rw [ht]
        refine ⟨⟨⟨w, e1, fun j hj => hi j (by simp [hj])⟩, rfl, ?_⟩, fun t f h => .inl h⟩
        refine hW _ _ w' rfl e2 ?_
        have hall := allForms_spec hl
        have hfw : f.word = w' := by
          unfold Word.nthForm at hf; split at hf
          · cases hf
          · injection hf with hf; rw [← hf]; rfl
        have hff : (⟨w', f.properties, f.formProperties⟩ : WordForm) = f := by rw [← hfw]
        exact ⟨_, hall, by dsimp only; rw [hff]; exact List.mem_of_getElem? ((nthForm_allForms hl hall i f).mpr hf), by dsimp only; rw [hff]; exact ht⟩
      · rw [ht]
        refine ⟨⟨rfl, w, e1, by rw [← hsame.properties]; exact hu, ?_⟩, fun t f h => .inl h⟩
        obtain ⟨j, hj⟩ := List.mem_iff_getElem?.mp hm
        have hjl : j < w.forms.length := by rw [← hsame.forms.length]; exact (List.getElem?_eq_some_iff.mp hj).1
        by_cases he : w.forms[j] = []
        · rw [← he]; exact List.getElem_mem hjl
        · have := hsame.forms.kept j _ (List.getElem?_eq_getElem hjl) he
          rw [hj] at this; injection this with this; exact absurd this.symm he

theorem adds_events (U : PyUni) (words : List Word) (data : Dict Str FormObj) (events : List WorkshopEvent) :
    ∀ (c k : Nat) (pc : AddingPC), (workedOn U words data events).adds[c]? = some (k, pc) → .add k ∈ events := by
  induction events using List.reverseRecOn with
  | nil => intro c k pc h; simp [workedOn] at h
  | append_singleton es e ih =>
    intro c k pc h
    rw [workedOn_snoc] at h
    have old : (workedOn U words data es).adds[c]? = some (k, pc) → .add k ∈ es ++ [e] := fun h => by simp [ih c k pc h]
    cases e with
    | fill k' => simp only [Workshop.step] at h; split at h <;> exact old h
    | fillTurn c' =>
      simp only [Workshop.step] at h
      split at h
      · exact old h
      · split at h <;> exact old h
    | add k' =>
      simp only [Workshop.step] at h
      split at h
      · exact old h
      · dsimp only at h
        rw [List.getElem?_append] at h
        split at h
        · exact old h
        · have := List.mem_of_getElem? h
          simp only [List.mem_singleton, Prod.mk.injEq] at this
          simp [this.1]
    | addTurn c' =>
      simp only [Workshop.step] at h
      split at h
      · exact old h
      · rename_i k' pc' hc'
        dsimp only at h
        by_cases hcc : c' = c
        · subst hcc
          rw [List.getElem?_set_self (List.getElem?_eq_some_iff.mp hc').1] at h
          simp only [Option.some.injEq, Prod.mk.injEq] at h
          have := ih c' k' pc' hc'
          simp [← h.1, this]
        · rw [List.getElem?_set_ne hcc] at h; exact old h

theorem addsOk (U : PyUni) {words : List Word} (hw : ∀ w ∈ words, Accepted w) {data : Dict Str FormObj}
    (hd : ∀ t f, data.get? t = some f → f.word < words.length) (events : List WorkshopEvent) : AddsOk U words data events := by
  induction events using List.reverseRecOn with
  | nil => exact ⟨fun t f h => .inl h, fun t f h => ⟨f, h⟩, fun c k pc h => by simp [workedOn] at h⟩
  | append_singleton es e ih =>
    have hs := wordsOk U hw data es
    have hmono : ∀ f t, Was U words data es f t → Was U words data (es ++ [e]) f t := fun f t h => h.mono e
    have hsource : ∀ t f, (workedOn U words data es).data.get? t = some f →
        data.get? t = some f ∨ f.word < words.length ∧ Was U words data (es ++ [e]) f t := fun t f h =>
      (ih.source t f h).imp id fun ⟨a, b⟩ => ⟨a, hmono f t b⟩
    have easy : (workedOn U words data (es ++ [e])).data = (workedOn U words data es).data →
        (∀ (c k : Nat) (pc : AddingPC), (workedOn U words data (es ++ [e])).adds[c]? = some (k, pc) →
          (workedOn U words data es).adds[c]? = some (k, pc) ∨ ∃ w, words[k]? = some w ∧ pc = .next (List.range w.forms.length)) →
        AddsOk U words data (es ++ [e]) := by
      intro h1 h2
      refine ⟨by rw [h1]; exact hsource, by rw [h1]; exact ih.known, ?_⟩
      intro c k pc hc
      rw [h1]
      rcases h2 c k pc hc with hc | ⟨w, e1, rfl⟩
      · exact (ih.calls c k pc hc).mono hmono fun t g h => ⟨g, h⟩
      · exact ⟨w, e1, fun i hi => by simpa using hi⟩
    cases e with
    | fill k =>
      have : workedOn U words data (es ++ [.fill k]) = workedOn U words data es ∨ ∃ x,
          workedOn U words data (es ++ [.fill k]) = { workedOn U words data es with fills := x } := by
        rw [workedOn_snoc]; simp only [Workshop.step]
        cases (workedOn U words data es).words[k]? with
        | none => exact .inl rfl
        | some w => exact .inr ⟨_, rfl⟩
      rcases this with h | ⟨x, h⟩
      · exact easy (by rw [h]) fun c k pc hc => .inl (by rw [h] at hc; exact hc)
      · exact easy (by rw [h]) fun c k pc hc => .inl (by rw [h] at hc; exact hc)
    | fillTurn c =>
      have : ∃ x y, workedOn U words data (es ++ [.fillTurn c]) = { workedOn U words data es with words := x, fills := y } := by
        rw [workedOn_snoc]; simp only [Workshop.step]
        cases (workedOn U words data es).fills[c]? with
        | none => exact ⟨_, _, rfl⟩
        | some x =>
          dsimp only
          cases (workedOn U words data es).words[x.1]? with
          | none => exact ⟨_, _, rfl⟩
          | some w => exact ⟨_, _, rfl⟩
      obtain ⟨x, y, h⟩ := this
      exact easy (by rw [h]) fun c k pc hc => .inl (by rw [h] at hc; exact hc)
    | add k =>
      cases hk : (workedOn U words data es).words[k]? with
      | none =>
        have h : workedOn U words data (es ++ [.add k]) = workedOn U words data es := by
          rw [workedOn_snoc]; simp only [Workshop.step, hk]
        exact easy (by rw [h]) fun c k pc hc => .inl (by rw [h] at hc; exact hc)
      | some w' =>
        have h : workedOn U words data (es ++ [.add k]) = { workedOn U words data es with
            adds := (workedOn U words data es).adds ++ [(k, .next (List.range w'.forms.length))] } := by
          rw [workedOn_snoc]; simp only [Workshop.step, hk]
        refine easy (by rw [h]) fun c k' pc hc => ?_
        rw [h] at hc
        dsimp only at hc
        rw [List.getElem?_append] at hc
        split at hc
        · exact .inl hc
        · have : (k', pc) = (k, AddingPC.next (List.range w'.forms.length)) := by
            have := List.mem_of_getElem? hc; simpa using this
          simp only [Prod.mk.injEq] at this
          obtain ⟨rfl, rfl⟩ := this
          have hlt : k' < words.length := by rw [← hs.length]; exact (List.getElem?_eq_some_iff.mp hk).1
          obtain ⟨w'', e1, e2⟩ := hs.same k' words[k'] (List.getElem?_eq_getElem hlt)
          rw [hk] at e1; injection e1 with e1; subst e1
          exact .inr ⟨words[k'], List.getElem?_eq_getElem hlt, by rw [e2.forms.length]⟩
    | addTurn c =>
      cases hc : (workedOn U words data es).adds[c]? with
      | none =>
        have h : workedOn U words data (es ++ [.addTurn c]) = workedOn U words data es := by
          rw [workedOn_snoc]; simp only [Workshop.step, hc]
        exact easy (by rw [h]) fun c k pc hc => .inl (by rw [h] at hc; exact hc)
      | some x =>
        obtain ⟨k, pc⟩ := x
        have h : workedOn U words data (es ++ [.addTurn c]) = { workedOn U words data es with
            data := (addingStep U (workedOn U words data es).words (workedOn U words data es).data k pc).2
            adds := (workedOn U words data es).adds.set c (k, (addingStep U (workedOn U words data es).words (workedOn U words data es).data k pc).1) } := by
          rw [workedOn_snoc]; simp only [Workshop.step, hc]
        have hdn : ∀ t g, (workedOn U words data es).data.get? t = some g → g.word < words.length := by
          intro t g hg
          rcases ih.source t g hg with h | h
          · exact hd t g h
          · exact h.1
        obtain ⟨h1, h2⟩ := adding_ok hw hs (W := Was U words data es)
          (fun f t w' e0 e1 e2 => ⟨by rw [e0]; exact adds_events U words data es c k pc hc, es, w', List.prefix_refl _, e1, e2⟩) hdn (ih.calls c k pc hc)
        have hgrow : ∀ t g, (workedOn U words data es).data.get? t = some g → ∃ g',
            (addingStep U (workedOn U words data es).words (workedOn U words data es).data k pc).2.get? t = some g' :=
          fun t g hg => adding_grows hg
        refine ⟨?_, ?_, ?_⟩
        · rw [h]; intro t f hf
          rcases h2 t f hf with h | ⟨a, b⟩
          · exact hsource t f h
          · exact .inr ⟨a, hmono _ _ b⟩
        · rw [h]; intro t f hf
          obtain ⟨f', hf'⟩ := ih.known t f hf
          exact hgrow t f' hf'
        · intro c' k' pc' hc'
          rw [h] at hc' ⊢
          dsimp only at hc' ⊢
          by_cases hcc : c = c'
          · subst hcc
            rw [List.getElem?_set_self (List.getElem?_eq_some_iff.mp hc).1] at hc'
            simp only [Option.some.injEq, Prod.mk.injEq] at hc'
            obtain ⟨rfl, rfl⟩ := hc'
            exact h1.mono hmono fun t g h => ⟨g, h⟩
          · rw [List.getElem?_set_ne hcc] at hc'
            exact (ih.calls c' k' pc' hc').mono hmono hgrow

/-- C139: every entry was there in the beginning, or belongs to a word given to `add_word`, which at some moment spelled it as it is
registered; and no text is ever
forgotten. -/
theorem C139_source (U : PyUni) (words : List Word) (hw : ∀ w ∈ words, Accepted w) (data : Dict Str FormObj)
    (hd : ∀ t f, data.get? t = some f → f.word < words.length) (events : List WorkshopEvent) (t : Str) :
    (∀ f, (workedOn U words data events).data.get? t = some f → data.get? t = some f ∨
      .add f.word ∈ events ∧ ∃ before w', before <+: events ∧ (workedOn U words data before).words[f.word]? = some w' ∧ IsSpelled U w' f t) ∧
    (data.contains t = true → (workedOn U words data events).data.contains t = true) := by
  have h := addsOk U hw hd events
  refine ⟨fun f hf => (h.source t f hf).imp id And.right, fun hc => ?_⟩
  obtain ⟨f, hf⟩ := contains_iff_get?.mp hc
  exact contains_iff_get?.mpr (h.known t f hf)

/-- C139: the only exception a call of `add_word` can raise is IndexError, and only for a word that is written in upper case and lacked
forms in the beginning. -/
theorem C139_exceptions (U : PyUni) (words : List Word) (hw : ∀ w ∈ words, Accepted w) (data : Dict Str FormObj)
    (hd : ∀ t f, data.get? t = some f → f.word < words.length) (events : List WorkshopEvent) (c k : Nat) (e : PyErr)
    (h : (workedOn U words data events).adds[c]? = some (k, .failed e)) :
    e = .IndexError ∧ ∃ w, words[k]? = some w ∧ w.properties.get .WORD_CASE = some .WORD_CASE_UPPER ∧ [] ∈ w.forms :=
  (addsOk U hw hd events).calls c k _ h

/-! ## What a finished call has registered -/

theorem adds_length (U : PyUni) {words : List Word} (hw : ∀ w ∈ words, Accepted w) (data : Dict Str FormObj) (events : List WorkshopEvent) :
    (workedOn U words data events).adds.length = addsBegun words.length events := by
  induction events using List.reverseRecOn with
  | nil => rfl
  | append_singleton es e ih =>
    have hs := wordsOk U hw data es
    rw [workedOn_snoc]
    unfold addsBegun at ih ⊢
    rw [List.filter_append, List.length_append, ← ih]
    cases e with
    | fill k => simp only [Workshop.step]; split <;> simp
    | fillTurn c => simp only [Workshop.step]; (repeat' split) <;> simp
    | addTurn c => simp only [Workshop.step]; split <;> simp
    | add k =>
      simp only [Workshop.step]
      by_cases hk : k < words.length
      · rw [List.getElem?_eq_getElem (by rw [hs.length]; exact hk)]; simp [hk]
      · rw [List.getElem?_eq_none (by rw [hs.length]; omega)]; simp [hk]

/-- A call of `add_word` stays where it is unless it makes a turn, then it makes one step. -/
theorem adds_step {U : PyUni} {s : Workshop} {c k : Nat} {pc : AddingPC} (h : s.adds[c]? = some (k, pc)) (e : WorkshopEvent) :
    (e = .addTurn c ∧ (s.step U e).adds[c]? = some (k, (addingStep U s.words s.data k pc).1) ∧
      (s.step U e).data = (addingStep U s.words s.data k pc).2 ∧ (s.step U e).words = s.words) ∨
    e ≠ .addTurn c ∧ (s.step U e).adds[c]? = some (k, pc) := by
  have hlt := (List.getElem?_eq_some_iff.mp h).1
  cases e with
  | fill k' => right; refine ⟨by simp, ?_⟩; simp only [Workshop.step]; split <;> exact h
  | fillTurn c' => right; refine ⟨by simp, ?_⟩; simp only [Workshop.step]; (repeat' split) <;> exact h
  | add k' =>
    right; refine ⟨by simp, ?_⟩; simp only [Workshop.step]
    split
    · exact h
    · dsimp only; rw [List.getElem?_append_left hlt]; exact h
  | addTurn c' =>
    by_cases hcc : c' = c
    · subst hcc; left
      simp only [Workshop.step, h]
      exact ⟨trivial, List.getElem?_set_self hlt, trivial, trivial⟩
    · right; refine ⟨by simpa using hcc, ?_⟩
      simp only [Workshop.step]
      split
      · exact h
      · dsimp only; rw [List.getElem?_set_ne hcc]; exact h

/-- No event removes an entry. -/
theorem data_grows {U : PyUni} {s : Workshop} {t : Str} (h : s.data.contains t = true) (e : WorkshopEvent) :
    (s.step U e).data.contains t = true := by
  cases e with
  | fill k => simp only [Workshop.step]; split <;> exact h
  | add k => simp only [Workshop.step]; split <;> exact h
  | fillTurn c => simp only [Workshop.step]; (repeat' split) <;> exact h
  | addTurn c =>
    simp only [Workshop.step]
    split
    · exact h
    · obtain ⟨g, hg⟩ := contains_iff_get?.mp h
      exact contains_iff_get?.mpr (adding_grows hg)

/-- The text `t` of slot `i` is registered, or will be. -/
def Coming (i : Nat) (t : Str) (d : Dict Str FormObj) : AddingPC → Prop
  | .next is => i ∈ is ∨ d.contains t = true
  | .check text _ is => i ∈ is ∨ text = t ∨ d.contains t = true
  | .put text _ is => i ∈ is ∨ text = t ∨ d.contains t = true
  | .load _ _ is => i ∈ is ∨ d.contains t = true
  | .less _ _ _ is => i ∈ is ∨ d.contains t = true
  | .greater _ _ _ is => i ∈ is ∨ d.contains t = true
  | .done => d.contains t = true
  | .failed _ => True

theorem coming_mono {i : Nat} {t : Str} {d d' : Dict Str FormObj} (hd : d.contains t = true → d'.contains t = true) {pc : AddingPC}
    (h : Coming i t d pc) : Coming i t d' pc := by
  cases pc <;> simp only [Coming] at h ⊢ <;> first | trivial | exact h.imp id hd | exact h.imp id (Or.imp id hd) | exact hd h

theorem coming_step {U : PyUni} {words : List Word} {d : Dict Str FormObj} {k i : Nat} {t : Str} {w : Word} (hk : words[k]? = some w)
    (hi : ∀ f text, w.nthForm i = .ok f → f.form U = .ok text → text = t) {pc : AddingPC} (h : Coming i t d pc) :
    Coming i t (addingStep U words d k pc).2 (addingStep U words d k pc).1 := by
  cases pc with
  | done => exact h
  | failed e => trivial
  | put text f is =>
    simp only [addingStep, Coming] at h ⊢
    rcases h with h | h | h
    · exact .inl h
    · subst h; right; exact contains_iff_get?.mpr ⟨f, by rw [Dict.get?_set]; simp⟩
    · obtain ⟨g, hg⟩ := contains_iff_get?.mp h
      right; apply contains_iff_get?.mpr
      rw [Dict.get?_set]; split
      · exact ⟨_, rfl⟩
      · exact ⟨g, hg⟩
  | check text f is =>
    simp only [Coming] at h
    simp only [addingStep]
    split
    · rename_i hc
      simp only [Coming]
      rcases h with h | h | h
      · exact .inl h
      · subst h; exact .inr hc
      · exact .inr h
    · exact h
  | load text f is =>
    simp only [Coming] at h
    simp only [addingStep]
    (repeat' split) <;> simp only [Coming] <;> first | trivial | exact h | exact h.imp id .inr
  | less text f g is =>
    simp only [Coming] at h
    simp only [addingStep]
    (repeat' split) <;> simp only [Coming] <;> first | trivial | exact h | exact h.imp id .inr
  | greater text f g is =>
    simp only [Coming] at h
    simp only [addingStep]
    (repeat' split) <;> simp only [Coming] <;> first | trivial | exact h | exact h.imp id .inr
  | next is =>
    simp only [Coming] at h
    cases is with
    | nil => simpa [addingStep, Coming] using h
    | cons j is =>
      simp only [addingStep, hk]
      cases hf : w.nthForm j with
      | error e => simp only [Coming]
      | ok f =>
        simp only
        cases ht : f.form U with
        | error e => simp only [Coming]
        | ok text =>
          simp only [Coming]
          rcases h with h | h
          · rcases List.mem_cons.mp h with rfl | h
            · exact .inr (.inl (hi f text hf ht))
            · exact .inl h
          · exact .inr (.inr h)

/-- C139: if, as long as a call of `add_word` runs, the `i`-th form of its word is spelled `t`, then `t` is known when the call has
returned. -/
theorem C139_known_while (U : PyUni) (words : List Word) (hw : ∀ w ∈ words, Accepted w) (data : Dict Str FormObj)
    (before later : List WorkshopEvent) (k : Nat) (w : Word) (hk : words[k]? = some w) (i : Nat) (hi : i < w.forms.length) (t : Str)
    (hspell : ∀ mid, mid <+: later → ∀ w', (workedOn U words data (before ++ .add k :: mid)).words[k]? = some w' → SpellsAt U w' i t)
    (hdone : (workedOn U words data (before ++ .add k :: later)).adds[addsBegun words.length before]? = some (k, .done)) :
    (workedOn U words data (before ++ .add k :: later)).data.contains t = true := by
  have key : ∀ later, (∀ mid, mid <+: later → ∀ w', (workedOn U words data (before ++ .add k :: mid)).words[k]? = some w' → SpellsAt U w' i t) →
      ∃ pc, (workedOn U words data (before ++ .add k :: later)).adds[addsBegun words.length before]? = some (k, pc) ∧
        Coming i t (workedOn U words data (before ++ .add k :: later)).data pc := by
    intro later
    induction later using List.reverseRecOn with
    | nil =>
      intro _
      obtain ⟨w', e1, e2⟩ := (wordsOk U hw data before).same k w hk
      rw [workedOn_snoc]
      simp only [Workshop.step, e1]
      refine ⟨.next (List.range w'.forms.length), ?_, ?_⟩
      · rw [← adds_length U hw data before]; simp
      · left; rw [e2.forms.length]; simpa using hi
    | append_singleton es e ih =>
      intro hsp
      obtain ⟨pc, h1, h2⟩ := ih fun mid hm => hsp mid (hm.trans (List.prefix_append _ _))
      have hes : before ++ .add k :: (es ++ [e]) = (before ++ .add k :: es) ++ [e] := by simp
      rw [hes, workedOn_snoc]
      rcases adds_step (U := U) h1 e with ⟨-, h3, h4, -⟩ | ⟨-, h3⟩
      · refine ⟨_, h3, ?_⟩
        rw [h4]
        obtain ⟨w', e1, e2⟩ := (wordsOk U hw data (before ++ .add k :: es)).same k w hk
        refine coming_step e1 ?_ h2
        intro f text hf ht
        obtain ⟨fs, f', a1, a2, a3⟩ := hsp es (List.prefix_append _ _) w' e1
        have hl : w'.forms.length = (invertedCache w'.type).length := by
          rw [e2.forms.length, e2.type, (accepted_iff.mp (hw w (List.mem_of_getElem? hk))).2]
        rw [nthForm_allForms hl a1, hf] at a2
        injection a2 with a2; subst a2
        rw [ht] at a3; injection a3
      · exact ⟨pc, h3, coming_mono (fun h => data_grows h e) h2⟩
  obtain ⟨pc, h1, h2⟩ := key later hspell
  rw [hdone] at h1
  simp only [Option.some.injEq, Prod.mk.injEq, true_and] at h1
  subst h1
  exact h2

/-- How the spelling of an item of `all_forms` depends on the forms. -/
theorem spellsAt_iff (U : PyUni) {w : Word} (hw : Accepted w) {i : Nat} (hi : i < w.forms.length) :
    ∃ j, j < w.forms.length ∧ ((∀ g ∈ w.type.schema, w.properties.isSpecified g = false) → j = i) ∧
      ∃ q : Properties, ∀ w' : Word, w'.type = w.type → w'.properties = w.properties → w'.forms.length = w.forms.length →
        ∃ raw fs, w'.forms[j]? = some raw ∧ w'.allForms = .ok fs ∧ fs[i]? = some ⟨w', q, q⟩ ∧
          WordForm.form U ⟨w', q, q⟩ = if w.properties.get .WORD_CASE = some .WORD_CASE_UPPER then upperFirst U raw else .ok raw := by
  obtain ⟨h1, h2⟩ := accepted_iff.mp hw
  obtain ⟨q, j, -, hj, hfree, hall⟩ := slot_spelling U h1 (i := i) (t := w.type) (by omega)
  refine ⟨j, by omega, hfree, q, ?_⟩
  intro w' e1 e2 e3
  obtain ⟨raw, a1, a2, a3⟩ := hall w'.forms (by omega)
  have hl : w'.forms.length = (invertedCache w'.type).length := by rw [e1]; omega
  have hww : (⟨w.type, w'.forms, w.properties⟩ : Word) = w' := by rw [← e1, ← e2]
  rw [hww] at a2 a3
  exact ⟨raw, _, a1, allForms_spec hl, (nthForm_allForms hl (allForms_spec hl) i _).mpr a2, a3⟩

/-- A text that is not empty stays as long as the forms that are not empty stay. -/
theorem spellsAt_kept {U : PyUni} {w w' : Word} (hw : Accepted w) (e1 : w'.type = w.type) (e2 : w'.properties = w.properties)
    (e3 : w'.forms.length = w.forms.length) (hkept : ∀ (j : Nat) (f : Str), w.forms[j]? = some f → f ≠ [] → w'.forms[j]? = some f)
    {i : Nat} {t : Str} (h : SpellsAt U w i t) (ht : t ≠ []) : SpellsAt U w' i t := by
  obtain ⟨fs, f, a1, a2, a3⟩ := h
  have hi : i < w.forms.length := by
    rw [allForms_spec (accepted_iff.mp hw).2] at a1
    injection a1 with a1; subst a1
    have := (List.getElem?_eq_some_iff.mp a2).1
    rw [List.length_map] at this
    rw [(accepted_iff.mp hw).2]; exact this
  obtain ⟨j, -, -, q, hall⟩ := spellsAt_iff U hw hi
  obtain ⟨raw, fs', b1, b2, b3, b4⟩ := hall w rfl rfl rfl
  rw [a1] at b2; injection b2 with b2; subst b2
  rw [a2] at b3; injection b3 with b3; subst b3
  rw [a3] at b4
  have hraw : raw ≠ [] := by
    rintro rfl
    split at b4
    · cases b4
    · injection b4 with b4; exact ht b4
  obtain ⟨raw', fs', c1, c2, c3, c4⟩ := hall w' e1 e2 e3
  rw [hkept j raw b1 hraw] at c1; injection c1 with c1; subst c1
  exact ⟨fs', _, c2, c3, by rw [c4, ← b4]⟩

/-- C139: all texts that a word has in the beginning are known when a call of `add_word` for it has returned, whatever happened
meanwhile. -/
theorem C139_known (U : PyUni) (words : List Word) (hw : ∀ w ∈ words, Accepted w) (data : Dict Str FormObj)
    (before later : List WorkshopEvent) (k : Nat) (w : Word) (hk : words[k]? = some w) (i : Nat) (t : Str) (hi : SpellsAt U w i t) (ht : t ≠ [])
    (hdone : (workedOn U words data (before ++ .add k :: later)).adds[addsBegun words.length before]? = some (k, .done)) :
    (workedOn U words data (before ++ .add k :: later)).data.contains t = true := by
  have hacc := hw w (List.mem_of_getElem? hk)
  have hlt : i < w.forms.length := by
    obtain ⟨fs, f, a1, a2, a3⟩ := hi
    rw [allForms_spec (accepted_iff.mp hacc).2] at a1
    injection a1 with a1; subst a1
    have := (List.getElem?_eq_some_iff.mp a2).1
    rw [List.length_map] at this
    rw [(accepted_iff.mp hacc).2]; exact this
  refine C139_known_while U words hw data before later k w hk i hlt t ?_ hdone
  intro mid _ w' hw'
  obtain ⟨w'', e1, e2⟩ := (wordsOk U hw data (before ++ .add k :: mid)).same k w hk
  rw [hw'] at e1; injection e1 with e1; subst e1
  exact spellsAt_kept hacc e2.type e2.properties e2.forms.length e2.forms.kept hi ht

/-! ## Filling in turn -/

/-- The slot that a call is about to fill is empty. -/
def Gap (forms : List Str) : AutofillPC → Prop
  | .read i _ _ => forms[i]? = some []
  | .store i _ _ => forms[i]? = some []
  | _ => True

theorem gap_turn {t : WordType} {forms : List Str} {pc : AutofillPC} (h : Gap forms pc) :
    Gap (autofillTurn t forms pc).2 (autofillTurn t forms pc).1 ∧
      ∀ (j : Nat) (f : Str), forms[j]? = some f → f ≠ [] → (autofillTurn t forms pc).2[j]? = some f := by
  have keep : ∀ (j : Nat) (f : Str), forms[j]? = some f → f ≠ [] → forms[j]? = some f := fun _ _ h _ => h
  cases pc with
  | scan index av => simp only [autofillTurn]; (repeat' split) <;> exact ⟨trivial, keep⟩
  | test i av =>
    simp only [autofillTurn]
    cases hf : forms[i]? with
    | none => exact ⟨trivial, keep⟩
    | some form =>
      dsimp only
      by_cases hne : form ≠ []
      · rw [if_pos hne]; exact ⟨trivial, keep⟩
      · rw [if_neg hne]
        simp only [ne_eq, Decidable.not_not] at hne
        subst hne
        (repeat' split) <;> first | exact ⟨trivial, keep⟩ | exact ⟨hf, keep⟩
  | read i j av =>
    simp only [autofillTurn]
    split
    · exact ⟨trivial, keep⟩
    · exact ⟨h, keep⟩
  | store i text av =>
    refine ⟨trivial, ?_⟩
    intro j f hj hne
    simp only [autofillTurn]
    have : i ≠ j := by
      rintro rfl
      simp only [Gap] at h
      rw [h] at hj; injection hj with hj; exact hne hj.symm
    rw [List.getElem?_set_ne this]; exact hj
  | done => exact ⟨trivial, keep⟩
  | failed e => exact ⟨trivial, keep⟩

theorem filledInTurn_prefix {U : PyUni} {words : List Word} {data : Dict Str FormObj} {es : List WorkshopEvent} {e : WorkshopEvent}
    (h : FilledInTurn U words data (es ++ [e])) : FilledInTurn U words data es :=
  fun before hb => h before (hb.trans (List.prefix_append _ _))

theorem gaps_step {U : PyUni} {words : List Word} {data : Dict Str FormObj} {es : List WorkshopEvent} (e : WorkshopEvent)
    (hturn : FilledInTurn U words data es)
    (h : ∀ (c k : Nat) (pc : AutofillPC) (w' : Word), (workedOn U words data es).fills[c]? = some (k, pc) →
      (workedOn U words data es).words[k]? = some w' → Gap w'.forms pc) :
    (∀ (c k : Nat) (pc : AutofillPC) (w' : Word), (workedOn U words data (es ++ [e])).fills[c]? = some (k, pc) →
      (workedOn U words data (es ++ [e])).words[k]? = some w' → Gap w'.forms pc) ∧
    ∀ (k j : Nat) (w' : Word) (f : Str), (workedOn U words data es).words[k]? = some w' → w'.forms[j]? = some f → f ≠ [] →
      ∃ w'', (workedOn U words data (es ++ [e])).words[k]? = some w'' ∧ w''.forms[j]? = some f := by
  rw [workedOn_snoc]
  have triv : ∀ s' : Workshop, s'.words = (workedOn U words data es).words → s'.fills = (workedOn U words data es).fills →
      (∀ (c k : Nat) (pc : AutofillPC) (w' : Word), s'.fills[c]? = some (k, pc) → s'.words[k]? = some w' → Gap w'.forms pc) ∧
      ∀ (k j : Nat) (w' : Word) (f : Str), (workedOn U words data es).words[k]? = some w' → w'.forms[j]? = some f → f ≠ [] →
        ∃ w'', s'.words[k]? = some w'' ∧ w''.forms[j]? = some f := by
    intro s' e1 e2
    rw [e1, e2]
    exact ⟨h, fun k j w' f hk hj _ => ⟨w', hk, hj⟩⟩
  cases e with
  | add k => simp only [Workshop.step]; split <;> exact triv _ rfl rfl
  | addTurn c => simp only [Workshop.step]; split <;> exact triv _ rfl rfl
  | fill k =>
    simp only [Workshop.step]
    cases hk : (workedOn U words data es).words[k]? with
    | none => exact triv _ rfl rfl
    | some w =>
      refine ⟨?_, fun k j w' f hk hj _ => ⟨w', hk, hj⟩⟩
      intro c k' pc w' hc hk'
      dsimp only at hc hk'
      rw [List.getElem?_append] at hc
      split at hc
      · exact h c k' pc w' hc hk'
      · have := List.mem_of_getElem? hc
        simp only [List.mem_singleton, Prod.mk.injEq] at this
        rw [this.2]; trivial
  | fillTurn c =>
    simp only [Workshop.step]
    cases hc : (workedOn U words data es).fills[c]? with
    | none => exact triv _ rfl rfl
    | some x =>
      obtain ⟨k, pc⟩ := x
      dsimp only
      cases hk : (workedOn U words data es).words[k]? with
      | none => exact triv _ rfl rfl
      | some w =>
        dsimp only
        have hklt := (List.getElem?_eq_some_iff.mp hk).1
        obtain ⟨g1, g2⟩ := gap_turn (t := w.type) (h c k pc w hc hk)
        constructor
        · intro c' k' pc' w' hc' hk'
          by_cases hcc : c = c'
          · subst hcc
            rw [List.getElem?_set_self (List.getElem?_eq_some_iff.mp hc).1] at hc'
            simp only [Option.some.injEq, Prod.mk.injEq] at hc'
            obtain ⟨rfl, rfl⟩ := hc'
            rw [List.getElem?_set_self hklt] at hk'
            injection hk' with hk'; subst hk'
            exact g1
          · rw [List.getElem?_set_ne hcc] at hc'
            by_cases hkk : k = k'
            · subst hkk
              rw [List.getElem?_set_self hklt] at hk'
              injection hk' with hk'; subst hk'
              have hold := h c' k pc' w hc' hk
              have hnot : ¬ (Running pc ∧ Running pc') := fun hr =>
                hcc (hturn es (List.prefix_refl _) c c' k pc pc' hc hc' hr.1 hr.2)
              by_cases hr : Running pc'
              · have hnr : ¬ Running pc := fun h => hnot ⟨h, hr⟩
                have hforms : (autofillTurn w.type w.forms pc).2 = w.forms := by
                  cases pc <;> simp only [Running, not_true_eq_false] at hnr <;> rfl
                dsimp only; rw [hforms]; exact hold
              · cases pc' <;> simp only [Running, not_true_eq_false] at hr <;> trivial
            · rw [List.getElem?_set_ne hkk] at hk'
              exact h c' k' pc' w' hc' hk'
        · intro k' j w' f hk' hj hne
          by_cases hkk : k = k'
          · subst hkk
            rw [hk] at hk'; injection hk' with hk'; subst hk'
            exact ⟨_, List.getElem?_set_self hklt, g2 j f hj hne⟩
          · exact ⟨w', by rw [List.getElem?_set_ne hkk, hk'], hj⟩

theorem gaps_ok {U : PyUni} {words : List Word} {data : Dict Str FormObj} (es : List WorkshopEvent) (hturn : FilledInTurn U words data es) :
    ∀ (c k : Nat) (pc : AutofillPC) (w' : Word), (workedOn U words data es).fills[c]? = some (k, pc) →
      (workedOn U words data es).words[k]? = some w' → Gap w'.forms pc := by
  induction es using List.reverseRecOn with
  | nil => intro c k pc w' h; simp [workedOn] at h
  | append_singleton es e ih => exact (gaps_step e (filledInTurn_prefix hturn) (ih (filledInTurn_prefix hturn))).1

/-- If words are filled in turn, a form that is not empty never changes. -/
theorem turn_stays {U : PyUni} {words : List Word} {data : Dict Str FormObj} (before later : List WorkshopEvent)
    (hturn : FilledInTurn U words data (before ++ later)) (k j : Nat) (w' : Word) (f : Str)
    (hk : (workedOn U words data before).words[k]? = some w') (hj : w'.forms[j]? = some f) (hne : f ≠ []) :
    ∃ w'', (workedOn U words data (before ++ later)).words[k]? = some w'' ∧ w''.forms[j]? = some f := by
  induction later using List.reverseRecOn with
  | nil => exact ⟨w', by rw [List.append_nil]; exact hk, hj⟩
  | append_singleton es e ih =>
    rw [← List.append_assoc] at hturn ⊢
    have ht := filledInTurn_prefix hturn
    obtain ⟨w'', h1, h2⟩ := ih ht
    exact (gaps_step e ht (gaps_ok _ ht)).2 k j w'' f h1 h2 hne

/-- C139: if no word is filled by two calls at the same time, every new entry under a text that is not empty is spelled so by its word
now. -/
theorem C139_current (U : PyUni) (words : List Word) (hw : ∀ w ∈ words, Accepted w) (data : Dict Str FormObj)
    (hd : ∀ t f, data.get? t = some f → f.word < words.length) (events : List WorkshopEvent) (hturn : FilledInTurn U words data events)
    (t : Str) (ht : t ≠ []) (f : FormObj) (h : (workedOn U words data events).data.get? t = some f) :
    data.get? t = some f ∨ ∃ w', (workedOn U words data events).words[f.word]? = some w' ∧ IsSpelled U w' f t := by
  rcases (C139_source U words hw data hd events t).1 f h with h | ⟨-, before, w', ⟨later, rfl⟩, h2, h3⟩
  · exact .inl h
  right
  have ok1 := wordsOk U hw data before
  have ok2 := wordsOk U hw data (before ++ later)
  have hlt : f.word < words.length := by rw [← ok1.length]; exact (List.getElem?_eq_some_iff.mp h2).1
  obtain ⟨v, e1, same1⟩ := ok1.same f.word words[f.word] (List.getElem?_eq_getElem hlt)
  rw [h2] at e1; injection e1 with e1; subst e1
  obtain ⟨w'', e2, same2⟩ := ok2.same f.word words[f.word] (List.getElem?_eq_getElem hlt)
  refine ⟨w'', e2, ?_⟩
  have hacc := hw words[f.word] (List.getElem_mem hlt)
  obtain ⟨fs, a1, a2, a3⟩ := h3
  obtain ⟨i, hi⟩ := List.mem_iff_getElem?.mp a2
  have hilt : i < words[f.word].forms.length := by
    have hl : w'.forms.length = (invertedCache w'.type).length := by
      rw [same1.forms.length, same1.type, (accepted_iff.mp hacc).2]
    rw [allForms_spec hl] at a1
    injection a1 with a1; subst a1
    have := (List.getElem?_eq_some_iff.mp hi).1
    rw [List.length_map, ← hl, same1.forms.length] at this
    exact this
  obtain ⟨j, -, -, q, hall⟩ := spellsAt_iff U hacc hilt
  obtain ⟨raw, fs1, b1, b2, b3, b4⟩ := hall w' same1.type same1.properties same1.forms.length
  rw [a1] at b2; injection b2 with b2; subst b2
  rw [hi] at b3
  simp only [Option.some.injEq, WordForm.mk.injEq, true_and] at b3
  rw [b3.1, b3.2, b4] at a3
  have hraw : raw ≠ [] := by
    rintro rfl
    split at a3
    · cases a3
    · injection a3 with a3; exact ht a3.symm
  obtain ⟨raw', fs2, c1, c2, c3, c4⟩ := hall w'' same2.type same2.properties same2.forms.length
  obtain ⟨u, d1, d2⟩ := turn_stays before later hturn f.word j w' raw h2 b1 hraw
  rw [e2] at d1; injection d1 with d1; subst d1
  rw [c1] at d2; injection d2 with d2; subst d2
  exact ⟨fs2, c2, by rw [b3.1, b3.2]; exact List.mem_of_getElem? c3, by rw [b3.1, b3.2, c4]; exact a3⟩

/-- The call stays where it began. -/
theorem add_there (U : PyUni) {words : List Word} (hw : ∀ w ∈ words, Accepted w) (data : Dict Str FormObj) (before later : List WorkshopEvent)
    {k : Nat} {w : Word} (hk : words[k]? = some w) :
    ∃ pc, (workedOn U words data (before ++ .add k :: later)).adds[addsBegun words.length before]? = some (k, pc) := by
  induction later using List.reverseRecOn with
  | nil =>
    obtain ⟨w', e1, e2⟩ := (wordsOk U hw data before).same k w hk
    rw [workedOn_snoc]
    simp only [Workshop.step, e1]
    exact ⟨.next (List.range w'.forms.length), by rw [← adds_length U hw data before]; simp⟩
  | append_singleton es e ih =>
    obtain ⟨pc, h1⟩ := ih
    have hes : before ++ .add k :: (es ++ [e]) = (before ++ .add k :: es) ++ [e] := by simp
    rw [hes, workedOn_snoc]
    rcases adds_step (U := U) h1 e with ⟨-, h3, -, -⟩ | ⟨-, h3⟩
    · exact ⟨_, h3⟩
    · exact ⟨pc, h3⟩

/-- C139: if all calls of `add_word` have returned, and the words given to them fix no property that selects a form, then the texts that
are known are exactly those known in the beginning and those of the words in the beginning (the empty text apart): no matter who filled
which gap when. -/
theorem C139_same_texts (U : PyUni) (words : List Word) (hw : ∀ w ∈ words, Accepted w) (data : Dict Str FormObj)
    (hd : ∀ t f, data.get? t = some f → f.word < words.length) (events : List WorkshopEvent)
    (hdone : ∀ (c k : Nat) (pc : AddingPC), (workedOn U words data events).adds[c]? = some (k, pc) → pc = .done)
    (hfree : ∀ (k : Nat) (w : Word), .add k ∈ events → words[k]? = some w → ∀ g ∈ w.type.schema, w.properties.isSpecified g = false)
    (t : Str) (ht : t ≠ []) :
    (workedOn U words data events).data.contains t = true ↔
      data.contains t = true ∨ ∃ (k : Nat) (w : Word) (i : Nat), .add k ∈ events ∧ words[k]? = some w ∧ SpellsAt U w i t := by
  constructor
  · intro h
    obtain ⟨f, hf⟩ := contains_iff_get?.mp h
    rcases (C139_source U words hw data hd events t).1 f hf with h | ⟨hadd, before, w', hb, h2, h3⟩
    · exact .inl (contains_iff_get?.mpr ⟨f, h⟩)
    right
    have ok1 := wordsOk U hw data before
    have hlt : f.word < words.length := by rw [← ok1.length]; exact (List.getElem?_eq_some_iff.mp h2).1
    obtain ⟨v, e1, same1⟩ := ok1.same f.word words[f.word] (List.getElem?_eq_getElem hlt)
    rw [h2] at e1; injection e1 with e1; subst e1
    have hacc := hw words[f.word] (List.getElem_mem hlt)
    have hfr := hfree f.word _ hadd (List.getElem?_eq_getElem hlt)
    obtain ⟨fs, a1, a2, a3⟩ := h3
    obtain ⟨i, hi⟩ := List.mem_iff_getElem?.mp a2
    have hilt : i < words[f.word].forms.length := by
      have hl : w'.forms.length = (invertedCache w'.type).length := by
        rw [same1.forms.length, same1.type, (accepted_iff.mp hacc).2]
      rw [allForms_spec hl] at a1
      injection a1 with a1; subst a1
      have := (List.getElem?_eq_some_iff.mp hi).1
      rw [List.length_map, ← hl, same1.forms.length] at this
      exact this
    obtain ⟨j, -, hji, q, hall⟩ := spellsAt_iff U hacc hilt
    obtain ⟨raw, fs1, b1, b2, b3, b4⟩ := hall w' same1.type same1.properties same1.forms.length
    rw [a1] at b2; injection b2 with b2; subst b2
    rw [hi] at b3
    simp only [Option.some.injEq, WordForm.mk.injEq, true_and] at b3
    rw [b3.1, b3.2, b4] at a3
    have hraw : raw ≠ [] := by
      rintro rfl
      split at a3
      · cases a3
      · injection a3 with a3; exact ht a3.symm
    have hmem := (same1.forms.texts raw (List.mem_of_getElem? b1)).resolve_left hraw
    obtain ⟨n, hn⟩ := List.mem_iff_getElem?.mp hmem
    have hnlt := (List.getElem?_eq_some_iff.mp hn).1
    obtain ⟨j', -, hjn, q', hall'⟩ := spellsAt_iff U hacc hnlt
    obtain ⟨raw', fs2, c1, c2, c3, c4⟩ := hall' words[f.word] rfl rfl rfl
    rw [hjn hfr, hn] at c1; injection c1 with c1; subst c1
    exact ⟨f.word, words[f.word], n, hadd, List.getElem?_eq_getElem hlt, fs2, _, c2, c3, by rw [c4]; exact a3⟩
  · rintro (h | ⟨k, w, i, hadd, hk, hi⟩)
    · exact (C139_source U words hw data hd events t).2 h
    · obtain ⟨before, later, rfl⟩ := List.append_of_mem hadd
      refine C139_known U words hw data before later k w hk i t hi ht ?_
      obtain ⟨pc, hpc⟩ := add_there U hw data before later hk
      rw [hpc, hdone _ k pc hpc]

/-! ## Calls of `add_word` come to an end -/

/-- How many steps a call still needs at most. -/
def addLeft : AddingPC → Nat
  | .next is => 6 * is.length + 1
  | .put _ _ is => 6 * is.length + 2
  | .greater _ _ _ is => 6 * is.length + 3
  | .less _ _ _ is => 6 * is.length + 4
  | .load _ _ is => 6 * is.length + 5
  | .check _ _ is => 6 * is.length + 6
  | .done => 0
  | .failed _ => 0

theorem addLeft_step {U : PyUni} {words : List Word} {d : Dict Str FormObj} {k : Nat} (pc : AddingPC) :
    addLeft (addingStep U words d k pc).1 ≤ addLeft pc - 1 := by
  cases pc with
  | next is =>
    cases is with
    | nil => simp [addingStep, addLeft]
    | cons i is => simp only [addingStep]; (repeat' split) <;> simp only [addLeft, List.length_cons] <;> omega
  | check => simp only [addingStep]; split <;> simp only [addLeft] <;> omega
  | load => simp only [addingStep]; (repeat' split) <;> simp only [addLeft] <;> omega
  | less => simp only [addingStep]; (repeat' split) <;> simp only [addLeft] <;> omega
  | greater => simp only [addingStep]; (repeat' split) <;> simp only [addLeft] <;> omega
  | put => simp [addingStep, addLeft]
  | done => simp [addingStep, addLeft]
  | failed => simp [addingStep, addLeft]

/-- C139: a call of `add_word` that gets enough turns comes to an end, whatever the others do. -/
theorem C139_finishes (U : PyUni) (words : List Word) (hw : ∀ w ∈ words, Accepted w) (data : Dict Str FormObj)
    (before later : List WorkshopEvent) (k : Nat) (w : Word) (hk : words[k]? = some w)
    (hturns : 6 * w.forms.length + 1 ≤ addTurns (addsBegun words.length before) later) :
    (workedOn U words data (before ++ .add k :: later)).adds[addsBegun words.length before]? = some (k, .done) ∨
    ∃ e, (workedOn U words data (before ++ .add k :: later)).adds[addsBegun words.length before]? = some (k, .failed e) := by
  have key : ∀ later, ∃ pc, (workedOn U words data (before ++ .add k :: later)).adds[addsBegun words.length before]? = some (k, pc) ∧
      addLeft pc ≤ 6 * w.forms.length + 1 - addTurns (addsBegun words.length before) later := by
    intro later
    induction later using List.reverseRecOn with
    | nil =>
      obtain ⟨w', e1, e2⟩ := (wordsOk U hw data before).same k w hk
      rw [workedOn_snoc]
      simp only [Workshop.step, e1]
      refine ⟨.next (List.range w'.forms.length), ?_, ?_⟩
      · rw [← adds_length U hw data before]; simp
      · simp [addLeft, addTurns, e2.forms.length]
    | append_singleton es e ih =>
      obtain ⟨pc, h1, h2⟩ := ih
      have hes : before ++ .add k :: (es ++ [e]) = (before ++ .add k :: es) ++ [e] := by simp
      rw [hes, workedOn_snoc]
      unfold addTurns at h2 ⊢
      rw [List.filter_append, List.length_append]
      rcases adds_step (U := U) h1 e with ⟨rfl, h3, -, -⟩ | ⟨hne, h3⟩
      · refine ⟨_, h3, Nat.le_trans (addLeft_step pc) ?_⟩
        simp only [List.filter_cons, decide_true, if_true, List.filter_nil, List.length_singleton]
        omega
      · refine ⟨pc, h3, ?_⟩
        simpa [hne] using h2
  obtain ⟨pc, h1, h2⟩ := key later
  have h0 : addLeft pc = 0 := by omega
  rw [h1]
  cases pc with
  | done => exact .inl rfl
  | failed e => exact .inr ⟨e, rfl⟩
  | _ => simp [addLeft] at h0

/-! ## A call that is alone -/

/-- The objects of `Model/Objects.lean` for these words. -/
def asObjects (words : List Word) : List WordObj := words.map fun w => ⟨w, none, none⟩

theorem asObjects_get? (words : List Word) (k : Nat) : (asObjects words)[k]? = (words[k]?).map fun w => (⟨w, none, none⟩ : WordObj) := by
  unfold asObjects; rw [List.getElem?_map]

/-- What the call will leave behind if nobody else does anything. -/
def aheadAlone (U : PyUni) (words : List Word) (w : Word) (k : Nat) (d : Dict Str FormObj) : AddingPC → Dict Str FormObj × Option PyErr
  | .next is => addFormsObj U (asObjects words) ⟨w, none, none⟩ k d is
  | .check text f is => addFormsObj U (asObjects words) ⟨w, none, none⟩ k (registerObj (asObjects words) d text f) is
  | .load text f is => addFormsObj U (asObjects words) ⟨w, none, none⟩ k (registerObj (asObjects words) d text f) is
  | .less text f g is => addFormsObj U (asObjects words) ⟨w, none, none⟩ k (if replacesObj (asObjects words) f g then d.set text f else d) is
  | .greater text f g is => addFormsObj U (asObjects words) ⟨w, none, none⟩ k (if replacesObj (asObjects words) f g then d.set text f else d) is
  | .put text f is => addFormsObj U (asObjects words) ⟨w, none, none⟩ k (d.set text f) is
  | .done => (d, none)
  | .failed e => (d, some e)

/-- What is true of a call that is alone. -/
def AloneOk (words : List Word) (d : Dict Str FormObj) : AddingPC → Prop
  | .check _ f _ => ∃ w, words[f.word]? = some w
  | .load text f _ => (∃ w, words[f.word]? = some w) ∧ ∃ g, d.get? text = some g
  | .less _ f g _ => ∃ w v, words[f.word]? = some w ∧ words[g.word]? = some v ∧ w.type.value = v.type.value
  | .greater _ f g _ => ∃ w v, words[f.word]? = some w ∧ words[g.word]? = some v ∧ w.type.value = v.type.value ∧ strListLt w.forms v.forms = false
  | _ => True

theorem alone_step {U : PyUni} {words : List Word} {w : Word} {k : Nat} (hk : words[k]? = some w) {d : Dict Str FormObj}
    (hd : ∀ t f, d.get? t = some f → f.word < words.length) {pc : AddingPC} (h : AloneOk words d pc) (hp : ∀ t f is, pc = .put t f is → f.word < words.length) :
    aheadAlone U words w k (addingStep U words d k pc).2 (addingStep U words d k pc).1 = aheadAlone U words w k d pc ∧
    AloneOk words (addingStep U words d k pc).2 (addingStep U words d k pc).1 ∧
    (∀ t f, (addingStep U words d k pc).2.get? t = some f → f.word < words.length) ∧
    ∀ t f is, (addingStep U words d k pc).1 = .put t f is → f.word < words.length := by
  have lt : ∀ {k : Nat} {w : Word}, words[k]? = some w → k < words.length := fun h => (List.getElem?_eq_some_iff.mp h).1
  have val : ∀ (f : FormObj) (w : Word), words[f.word]? = some w → f.value (asObjects words) = some ⟨w, f.properties, f.formProperties⟩ := by
    intro f w h; unfold FormObj.value; rw [asObjects_get?, h]; rfl
  cases pc with
  | done => exact ⟨rfl, trivial, hd, fun _ _ _ h => nomatch h⟩
  | failed e => exact ⟨rfl, trivial, hd, fun _ _ _ h => nomatch h⟩
  | put text f is =>
    refine ⟨rfl, trivial, ?_, fun _ _ _ h => nomatch h⟩
    intro t g hg
    simp only [addingStep] at hg
    rw [Dict.get?_set] at hg
    split at hg
    · injection hg with hg; subst hg; exact hp _ _ _ rfl
    · exact hd t g hg
  | check text f is =>
    obtain ⟨v, hv⟩ := h
    simp only [addingStep]
    split
    · rename_i hc
      exact ⟨rfl, ⟨⟨v, hv⟩, contains_iff_get?.mp hc⟩, hd, fun _ _ _ h => nomatch h⟩
    · rename_i hc
      refine ⟨?_, trivial, hd, ?_⟩
      · simp only [aheadAlone, registerObj]
        have : d.get? text = none := by
          cases hg : d.get? text with
          | none => rfl
          | some g => exact absurd (contains_iff_get?.mpr ⟨g, hg⟩) hc
        rw [this]
      · rintro _ _ _ h; injection h with h1 h2 h3; subst h2; exact lt hv
  | load text f is =>
    obtain ⟨⟨v, hv⟩, g, hg⟩ := h
    obtain ⟨u, hu⟩ : ∃ u, words[g.word]? = some u := ⟨_, List.getElem?_eq_getElem (hd _ _ hg)⟩
    simp only [addingStep, hg, hv, hu]
    have hr : replacesObj (asObjects words) f g = replaces ⟨v, f.properties, f.formProperties⟩ ⟨u, g.properties, g.formProperties⟩ := by
      unfold replacesObj; rw [val f v hv, val g u hu]
    split
    · rename_i h1
      refine ⟨?_, trivial, hd, ?_⟩
      · simp only [aheadAlone, registerObj, hg, hr, replaces, h1, if_true]
      · rintro _ _ _ h; injection h with h1 h2 h3; subst h2; exact lt hv
    split
    · rename_i h1 h2
      refine ⟨?_, trivial, hd, fun _ _ _ h => nomatch h⟩
      simp only [aheadAlone, registerObj, hg, hr, replaces]
      simp [h1, h2]
    · rename_i h1 h2
      refine ⟨?_, ⟨v, u, hv, hu, by omega⟩, hd, fun _ _ _ h => nomatch h⟩
      simp only [aheadAlone, registerObj, hg]
  | less text f g is =>
    obtain ⟨v, u, hv, hu, he⟩ := h
    simp only [addingStep, hv, hu]
    have hr : replacesObj (asObjects words) f g = replaces ⟨v, f.properties, f.formProperties⟩ ⟨u, g.properties, g.formProperties⟩ := by
      unfold replacesObj; rw [val f v hv, val g u hu]
    split
    · rename_i h1
      refine ⟨?_, trivial, hd, ?_⟩
      · simp [aheadAlone, hr, replaces, h1, he]
      · rintro _ _ _ h; injection h with h1 h2 h3; subst h2; exact lt hv
    · rename_i h1
      exact ⟨rfl, ⟨v, u, hv, hu, he, by simpa using h1⟩, hd, fun _ _ _ h => nomatch h⟩
  | greater text f g is =>
    obtain ⟨v, u, hv, hu, he, hlt⟩ := h
    simp only [addingStep, hv, hu]
    have hr : replacesObj (asObjects words) f g = replaces ⟨v, f.properties, f.formProperties⟩ ⟨u, g.properties, g.formProperties⟩ := by
      unfold replacesObj; rw [val f v hv, val g u hu]
    split
    · rename_i h1
      refine ⟨?_, trivial, hd, fun _ _ _ h => nomatch h⟩
      simp [aheadAlone, hr, replaces, h1, he, hlt]
    split
    · rename_i h1 h2
      refine ⟨?_, trivial, hd, ?_⟩
      · simp [aheadAlone, hr, replaces, h1, he, hlt, h2]
      · rintro _ _ _ h; injection h with h1 h2 h3; subst h2; exact lt hv
    · rename_i h1 h2
      refine ⟨?_, trivial, hd, fun _ _ _ h => nomatch h⟩
      simp [aheadAlone, hr, replaces, h1, he, hlt, h2]
  | next is =>
    cases is with
    | nil => exact ⟨rfl, trivial, hd, fun _ _ _ h => nomatch h⟩
    | cons i is =>
      simp only [addingStep, hk]
      cases hf : w.nthForm i with
      | error e =>
        refine ⟨?_, trivial, hd, fun _ _ _ h => nomatch h⟩
        simp only [aheadAlone, addFormsObj, WordObj.nthForm, hf, bind, Except.bind]
      | ok f =>
        dsimp only
        have hfw : f.word = w := by
          unfold Word.nthForm at hf; split at hf
          · cases hf
          · injection hf with hf; rw [← hf]; rfl
        have hff : (⟨w, f.properties, f.formProperties⟩ : WordForm) = f := by rw [← hfw]
        have hval : FormObj.value (asObjects words) ⟨k, f.properties, f.formProperties, none⟩ = some f := by
          rw [val _ w hk]; exact congrArg some hff
        cases ht : f.form U with
        | error e =>
          refine ⟨?_, trivial, hd, fun _ _ _ h => nomatch h⟩
          simp only [aheadAlone, addFormsObj, WordObj.nthForm, hf, bind, Except.bind, FormObj.read, hval, ht]
        | ok text =>
          refine ⟨?_, ⟨w, hk⟩, hd, fun _ _ _ h => nomatch h⟩
          simp only [aheadAlone, addFormsObj, WordObj.nthForm, hf, bind, Except.bind, FormObj.read, hval, ht]

/-- C139: a call of `add_word` that runs alone does what `add_word` does to objects that do not change meanwhile (the model of C77). -/
theorem C139_alone (U : PyUni) (words : List Word) (hw : ∀ w ∈ words, Accepted w) (data : Dict Str FormObj)
    (hd : ∀ t f, data.get? t = some f → f.word < words.length) (k : Nat) (w : Word) (hk : words[k]? = some w) (n : Nat)
    (hn : 6 * w.forms.length + 1 ≤ n) :
    let s := workedOn U words data (.add k :: List.replicate n (.addTurn 0))
    let r := addFormsObj U (asObjects words) ⟨w, none, none⟩ k data (List.range w.forms.length)
    s.data = r.1 ∧ s.words = words ∧ s.adds = [(k, match r.2 with | none => .done | some e => .failed e)] := by
  dsimp only
  have key : ∀ n, ∃ pc, (workedOn U words data (.add k :: List.replicate n (.addTurn 0))).adds = [(k, pc)] ∧
      (workedOn U words data (.add k :: List.replicate n (.addTurn 0))).words = words ∧
      aheadAlone U words w k (workedOn U words data (.add k :: List.replicate n (.addTurn 0))).data pc =
        addFormsObj U (asObjects words) ⟨w, none, none⟩ k data (List.range w.forms.length) ∧
      AloneOk words (workedOn U words data (.add k :: List.replicate n (.addTurn 0))).data pc ∧
      (∀ t f, (workedOn U words data (.add k :: List.replicate n (.addTurn 0))).data.get? t = some f → f.word < words.length) ∧
      ∀ t f is, pc = .put t f is → f.word < words.length := by
    intro n
    induction n with
    | zero =>
      refine ⟨.next (List.range w.forms.length), ?_⟩
      simp only [List.replicate_zero, workedOn, List.foldl_cons, List.foldl_nil, Workshop.step, hk, List.nil_append]
      exact ⟨trivial, trivial, rfl, trivial, hd, fun _ _ _ h => nomatch h⟩
    | succ n ih =>
      obtain ⟨pc, h1, h2, h3, h4, h5, h6⟩ := ih
      have hes : WorkshopEvent.add k :: List.replicate (n + 1) (.addTurn 0) = (.add k :: List.replicate n (.addTurn 0)) ++ [.addTurn 0] := by
        rw [List.replicate_succ']; rfl
      rw [hes, workedOn_snoc]
      obtain ⟨a1, a2, a3, a4⟩ := alone_step (U := U) hk h5 h4 h6
      simp only [Workshop.step, h1, List.getElem?_cons_zero, List.set_cons_zero, h2]
      exact ⟨_, rfl, trivial, by rw [a1, h3], a2, a3, a4⟩
  obtain ⟨pc, h1, h2, h3, -⟩ := key n
  have hfin := C139_finishes U words hw data [] (List.replicate n (.addTurn 0)) k w hk (by
    simp [addTurns, addsBegun]; omega)
  simp only [List.nil_append, addsBegun, List.filter_nil, List.length_nil] at hfin
  rw [h1] at hfin
  simp only [List.getElem?_cons_zero, Option.some.injEq, Prod.mk.injEq, true_and] at hfin
  refine ⟨?_, h2, ?_⟩
  · rw [← h3]
    rcases hfin with rfl | ⟨e, rfl⟩ <;> rfl
  · rw [h1, ← h3]
    rcases hfin with rfl | ⟨e, rfl⟩ <;> rfl

/-! ## Examples -/

/-- A noun of which only the nominative singular is known, and which says of itself that it has no singular. -/
def exNoSingular : Word :=
  ⟨.NOUN, (List.range 18).map (fun i => if i = 0 then str! "штаны" else []), .new [.record .NUMBER_PLURAL]⟩

theorem exNoSingular_accepted : Accepted exNoSingular :=
  ⟨exNoSingular.type, exNoSingular.forms, exNoSingular.properties, wf_new (wfargs_records [.NUMBER_PLURAL]), by decide +kernel⟩

/-- C139: that the word fixes no property that selects a form cannot be dropped: if a word without singular is added before its gaps are
filled from the singular, the texts that it then has are not known. -/
theorem C139_fixed_lost : ∃ (words : List Word) (events : List WorkshopEvent) (w' : Word) (t : Str), (∀ w ∈ words, Accepted w) ∧
    (workedOn exUni words [] events).adds = [(0, .done)] ∧ (workedOn exUni words [] events).fills = [(0, .done)] ∧
    (workedOn exUni words [] events).words = [w'] ∧ SpellsAt exUni w' 0 t ∧ (workedOn exUni words [] events).data.contains t = false := by
  refine ⟨[exNoSingular], .add 0 :: .fill 0 :: (List.replicate 109 (WorkshopEvent.addTurn 0) ++ List.replicate 74 (.fillTurn 0)),
    ⟨.NOUN, List.replicate 18 (str! "штаны"), .new [.record .NUMBER_PLURAL]⟩, str! "штаны", ?_, by decide +kernel, by decide +kernel,
    by decide +kernel, ?_, by decide +kernel⟩
  · intro w hw; simp only [List.mem_singleton] at hw; subst hw; exact exNoSingular_accepted
  · exact ⟨_, _, allForms_spec (by decide +kernel), rfl, by decide +kernel⟩

/-- Filling and adding take turns. -/
def exTurns : List WorkshopEvent :=
  .fill 0 :: .add 0 :: (List.replicate 109 [WorkshopEvent.fillTurn 0, .addTurn 0]).flatten

/-- All calls have returned; the two texts are known, the empty text too, under which gaps were met. -/
example : (workedOn exUni [exNominatives] [] exTurns).adds = [(0, .done)] ∧ (workedOn exUni [exNominatives] [] exTurns).fills = [(0, .done)] ∧
    ((workedOn exUni [exNominatives] [] exTurns).data.map Prod.fst) = [str! "книга", [], str! "книги"] ∧
    addsBegun 1 [WorkshopEvent.fill 0] = 0 ∧ SpellsAt exUni exNominatives 6 (str! "книги") := by
  refine ⟨by decide +kernel, by decide +kernel, by decide +kernel, by decide +kernel, ?_⟩
  exact ⟨_, _, allForms_spec (by decide +kernel), rfl, by decide +kernel⟩

end Utg
