import Verif.Spec.Objects
import Verif.Props.Dictionary
import Verif.Props.Autofill
import Verif.Props.Substitutions
/-! # C75, C77: words as mutable objects -/

namespace Utg
open Py Spec

/-! ## The dictionary as a value -/

/-- `Heap.snapshot` for given words. -/
def snap (words : List WordObj) (d : Dict Str FormObj) : Dictionary :=
  d.filterMap fun e => (e.2.value words).map fun v => (e.1, v)

/-- Every entry refers to a word that exists. -/
def Refs (words : List WordObj) (d : Dict Str FormObj) : Prop := ∀ e ∈ d, e.2.word < words.length

theorem value_of_lt {words : List WordObj} {f : FormObj} (h : f.word < words.length) : ∃ v, f.value words = some v := by
  unfold FormObj.value; rw [List.getElem?_eq_getElem h]; exact ⟨_, rfl⟩

theorem snap_get? {words : List WordObj} {d : Dict Str FormObj} (hr : Refs words d) (t : Str) :
    (snap words d).get? t = (d.get? t).bind fun f => f.value words := by
  induction d with
  | nil => rfl
  | cons e d ih =>
    obtain ⟨v, hv⟩ := value_of_lt (hr e (by simp))
    have ih := ih (fun e' he' => hr e' (by simp [he']))
    unfold snap at ih ⊢
    simp only [List.filterMap_cons, hv, Option.map_some]
    obtain ⟨k, f⟩ := e
    simp only [Dict.get?]
    split
    · simpa using hv.symm
    · exact ih

theorem refs_set {words : List WordObj} {d : Dict Str FormObj} (hr : Refs words d) {t : Str} {f : FormObj} (hf : f.word < words.length) :
    Refs words (Dict.set d t f) := by
  intro e he
  induction d with
  | nil => simp [Dict.set] at he; subst he; exact hf
  | cons e' d ih =>
    obtain ⟨k, g⟩ := e'
    simp only [Dict.set] at he
    split at he
    · rcases List.mem_cons.mp he with rfl | he
      · exact hf
      · exact hr _ (by simp [he])
    · rcases List.mem_cons.mp he with rfl | he
      · exact hr _ (by simp)
      · exact ih (fun e' he' => hr e' (by simp [he'])) he

theorem snap_set {words : List WordObj} {d : Dict Str FormObj} (hr : Refs words d) {t : Str} {f : FormObj} {v : WordForm}
    (hv : f.value words = some v) : snap words (Dict.set d t f) = Dict.set (snap words d) t v := by
  induction d with
  | nil => simp [snap, Dict.set, hv]
  | cons e d ih =>
    obtain ⟨v', hv'⟩ := value_of_lt (hr e (by simp))
    have ih := ih (fun e' he' => hr e' (by simp [he']))
    obtain ⟨k, g⟩ := e
    have hc : ∀ (d : Dict Str FormObj) (g : FormObj) (u : WordForm), g.value words = some u →
        snap words ((k, g) :: d) = (k, u) :: snap words d := by
      intro d g u hu; simp [snap, hu]
    simp only [Dict.set]
    rw [hc d g v' hv']
    simp only [Dict.set]
    split
    · exact hc d f v hv
    · rw [hc _ g v' hv', ih]

theorem snap_register {words : List WordObj} {d : Dict Str FormObj} (hr : Refs words d) {t : Str} {f : FormObj} {v : WordForm}
    (hv : f.value words = some v) : snap words (registerObj words d t f) = (snap words d).register t v := by
  unfold registerObj Dictionary.register
  rw [snap_get? hr]
  cases hg : d.get? t with
  | none => exact snap_set hr hv
  | some g =>
    obtain ⟨u, hu⟩ := value_of_lt (hr _ (Dict.mem_of_get? hg))
    simp only [Option.bind_some, hu, replacesObj, hv]
    split
    · exact snap_set hr hv
    · rfl

theorem refs_register {words : List WordObj} {d : Dict Str FormObj} (hr : Refs words d) {t : Str} {f : FormObj}
    (hf : f.word < words.length) : Refs words (registerObj words d t f) := by
  unfold registerObj
  split
  · exact refs_set hr hf
  · split
    · exact refs_set hr hf
    · exact hr

/-- Adding the forms of an object is adding the forms of its value. -/
theorem snap_addForms {U : PyUni} {words : List WordObj} {w : WordObj} {name : Nat} (hw : words[name]? = some w) (is : List Nat) :
    ∀ d : Dict Str FormObj, Refs words d →
      snap words (addFormsObj U words w name d is).1 = (Dictionary.addForms U w.value (snap words d) is).1 ∧
      (addFormsObj U words w name d is).2 = (Dictionary.addForms U w.value (snap words d) is).2 ∧
      Refs words (addFormsObj U words w name d is).1 := by
  have hlt : name < words.length := by
    by_contra h; rw [List.getElem?_eq_none (by omega)] at hw; cases hw
  induction is with
  | nil => intro d hr; exact ⟨rfl, rfl, hr⟩
  | cons i is ih =>
    intro d hr
    unfold addFormsObj Dictionary.addForms WordObj.nthForm
    cases hf : w.value.nthForm i with
    | error e => exact ⟨rfl, rfl, hr⟩
    | ok f =>
      have hfw : f.word = w.value := by
        unfold Word.nthForm at hf
        split at hf
        · cases hf
        · injection hf with hf; rw [← hf]; rfl
      have hval : ∀ c, (FormObj.mk name f.properties f.formProperties c).value words = some f := by
        intro c; unfold FormObj.value; rw [hw]; simp [← hfw]
      simp only [bind, Except.bind, FormObj.read, hval]
      cases hs : f.form U with
      | error e => exact ⟨rfl, rfl, hr⟩
      | ok s =>
        simp only
        have := ih _ (refs_register hr (t := s) (f := ⟨name, f.properties, f.formProperties, some s⟩) hlt)
        rw [snap_register hr (hval _)] at this
        exact this

/-! ## What every entry is -/

/-- An entry under the text `t` says `t`. -/
def Cached (d : Dict Str FormObj) : Prop := ∀ t f, d.get? t = some f → f.cached = some t

theorem cached_register {words : List WordObj} {d : Dict Str FormObj} (h : Cached d) {t : Str} {f : FormObj} (hf : f.cached = some t) :
    Cached (registerObj words d t f) := by
  have hset : Cached (Dict.set d t f) := by
    intro t' g hg
    rw [Dict.get?_set] at hg
    split at hg
    · rename_i e; subst e; injection hg with hg; subst hg; exact hf
    · exact h t' g hg
  unfold registerObj
  split
  · exact hset
  · split
    · exact hset
    · exact h

theorem keys_register {words : List WordObj} {d : Dict Str FormObj} {t s : Str} {f : FormObj} (h : t ∈ Dict.keys d) :
    t ∈ Dict.keys (registerObj words d s f) := by
  unfold registerObj
  split
  · exact Dict.mem_keys_set.mpr (.inr h)
  · split
    · exact Dict.mem_keys_set.mpr (.inr h)
    · exact h

theorem cached_addForms {U : PyUni} {words : List WordObj} {w : WordObj} {name : Nat} (is : List Nat) :
    ∀ d : Dict Str FormObj, Cached d → Cached (addFormsObj U words w name d is).1 ∧
      ∀ t ∈ Dict.keys d, t ∈ Dict.keys (addFormsObj U words w name d is).1 := by
  induction is with
  | nil => intro d h; exact ⟨h, fun _ h => h⟩
  | cons i is ih =>
    intro d h
    unfold addFormsObj
    split
    · exact ⟨h, fun _ h => h⟩
    · rename_i f hf
      have hnone : f.cached = none := by
        unfold WordObj.nthForm at hf
        cases e : w.value.nthForm i with
        | error e' => rw [e] at hf; cases hf
        | ok g => rw [e] at hf; injection hf with hf; rw [← hf]
      split
      · exact ⟨h, fun _ h => h⟩
      · rename_i text f' hr
        have hc : f'.cached = some text := by
          unfold FormObj.read at hr
          rw [hnone] at hr
          simp only at hr
          split at hr
          · cases hr
          · rename_i v _
            cases e : v.form U with
            | error e' => rw [e] at hr; cases hr
            | ok s =>
              simp only [e, bind, Except.bind] at hr
              injection hr with hr; injection hr with h1 h2
              rw [← h2, ← h1]
        obtain ⟨h1, h2⟩ := ih _ (cached_register (words := words) h hc)
        exact ⟨h1, fun t ht => h2 t (keys_register ht)⟩

/-! ## Steps -/

theorem change_data (h : Heap) (n : Nat) (f : WordObj → WordObj) : (h.change n f).data = h.data := by
  unfold Heap.change; split <;> rfl

theorem change_length (h : Heap) (n : Nat) (f : WordObj → WordObj) : (h.change n f).words.length = h.words.length := by
  unfold Heap.change; split <;> simp

theorem change_get? (h : Heap) (n : Nat) (f : WordObj → WordObj) (m : Nat) :
    (h.change n f).words[m]? = if n = m then (h.words[m]?).map f else h.words[m]? := by
  unfold Heap.change
  cases e : h.words[n]? with
  | none =>
    simp only
    split
    · rename_i h'; subst h'; simp [e]
    · rfl
  | some w =>
    simp only [List.getElem?_set]
    have : n < h.words.length := by
      by_contra hc; rw [List.getElem?_eq_none (by omega)] at e; cases e
    split
    · rename_i h'; subst h'; rw [e]; rfl
    · rfl


theorem after_append (U : PyUni) (a b : List Op) : Heap.after U (a ++ b) = b.foldl (Heap.step U) (Heap.after U a) := by
  simp [Heap.after, List.foldl_append]

theorem after_snoc (U : PyUni) (a : List Op) (op : Op) : Heap.after U (a ++ [op]) = (Heap.after U a).step U op := by
  simp [Heap.after, List.foldl_append]

/-- Only `add` touches the dictionary. -/
theorem step_data (U : PyUni) (h : Heap) (op : Op) (hop : ∀ n, op ≠ .add n) : (h.step U op).data = h.data := by
  cases op with
  | create t forms p => unfold Heap.step; simp only; split <;> rfl
  | add n => exact absurd rfl (hop n)
  | setForm n i text => exact change_data ..
  | setProperties n p => exact change_data ..
  | autofill n => exact change_data ..
  | syllables n => exact change_data ..
  | fluent n => exact change_data ..

theorem step_length (U : PyUni) (h : Heap) (op : Op) : h.words.length ≤ (h.step U op).words.length := by
  cases op with
  | create t forms p => unfold Heap.step; simp only; split <;> simp
  | add n => unfold Heap.step; simp only; split <;> simp
  | setForm n i text => exact (change_length ..).ge
  | setProperties n p => exact (change_length ..).ge
  | autofill n => exact (change_length ..).ge
  | syllables n => exact (change_length ..).ge
  | fluent n => exact (change_length ..).ge

/-- What holds of the dictionary after every operation. -/
theorem step_dict (U : PyUni) (h : Heap) (op : Op) (hr : Refs h.words h.data) (hc : Cached h.data) :
    Refs (h.step U op).words (h.step U op).data ∧ Cached (h.step U op).data ∧
    ∀ t ∈ Dict.keys h.data, t ∈ Dict.keys (h.step U op).data := by
  by_cases hop : ∀ n, op ≠ .add n
  · rw [step_data U h op hop]
    exact ⟨fun e he => Nat.lt_of_lt_of_le (hr e he) (step_length U h op), hc, fun _ h => h⟩
  · simp only [not_forall, not_not] at hop
    obtain ⟨n, rfl⟩ := hop
    unfold Heap.step
    simp only
    split
    · exact ⟨hr, hc, fun _ h => h⟩
    · rename_i w hw
      obtain ⟨h1, h2⟩ := cached_addForms (U := U) (words := h.words) (w := w) (name := n) (List.range w.value.forms.length) _ hc
      exact ⟨(snap_addForms hw _ _ hr).2.2, h1, h2⟩

theorem after_dict (U : PyUni) (ops : List Op) :
    Refs (Heap.after U ops).words (Heap.after U ops).data ∧ Cached (Heap.after U ops).data := by
  induction ops using List.reverseRecOn with
  | nil => exact ⟨fun e he => by simp [Heap.after] at he, fun t f h => by simp [Heap.after, Dict.get?] at h⟩
  | append_singleton ops op ih =>
    rw [after_snoc]
    obtain ⟨h1, h2, _⟩ := step_dict U _ op ih.1 ih.2
    exact ⟨h1, h2⟩

/-- C77: whatever was done to the words, before or after they were added, the word form the dictionary gives for a text says
that text, and its word exists. -/
theorem C77_lookup_says_text (U : PyUni) (ops : List Op) (t : Str) (f : FormObj) (h : (Heap.after U ops).getWord t = .ok f) :
    f.read U (Heap.after U ops).words = .ok (t, f) ∧ ∃ v, f.value (Heap.after U ops).words = some v := by
  obtain ⟨hr, hc⟩ := after_dict U ops
  unfold Heap.getWord at h
  split at h
  · cases h
  · rename_i g hg
    injection h with h; subst h
    refine ⟨?_, value_of_lt (hr _ (Dict.mem_of_get? hg))⟩
    unfold FormObj.read
    rw [hc t g hg]

/-- C77: a known text stays known, whatever is done later. -/
theorem C77_known_stays (U : PyUni) (ops later : List Op) (t : Str) (h : (Heap.after U ops).hasWord t = true) :
    (Heap.after U (ops ++ later)).hasWord t = true := by
  induction later using List.reverseRecOn with
  | nil => simpa using h
  | append_singleton later op ih =>
    obtain ⟨hr, hc⟩ := after_dict U (ops ++ later)
    rw [← List.append_assoc, after_snoc]
    exact Dict.contains_iff.mpr ((step_dict U _ op hr hc).2.2 t (Dict.contains_iff.mp ih))

/-! ## The value model -/

theorem addedValues_append (U : PyUni) (a b : List Op) : ∀ h : Heap,
    addedValues U h (a ++ b) = addedValues U h a ++ addedValues U (a.foldl (Heap.step U) h) b := by
  induction a with
  | nil => intro h; rfl
  | cons op a ih => intro h; simp [addedValues, ih]

theorem addedNames_append (a b : List Op) : addedNames (a ++ b) = addedNames a ++ addedNames b := by
  simp [addedNames, List.filterMap_append]

/-- A step that does not mutate the word leaves its value. -/
theorem step_value (U : PyUni) (h : Heap) (op : Op) (n : Nat) (w : WordObj) (hw : h.words[n]? = some w) (hm : ¬ Mutates op n) :
    ∃ w', (h.step U op).words[n]? = some w' ∧ w'.value = w.value := by
  have hch : ∀ (m : Nat) (f : WordObj → WordObj), ((m = n) → (f w).value = w.value) →
      ∃ w', (h.change m f).words[n]? = some w' ∧ w'.value = w.value := by
    intro m f hf
    rw [change_get?, hw]
    split
    · rename_i e; exact ⟨_, rfl, hf e⟩
    · exact ⟨_, rfl, rfl⟩
  cases op with
  | create t forms p =>
    unfold Heap.step; simp only
    split
    · exact ⟨w, hw, rfl⟩
    · refine ⟨w, ?_, rfl⟩
      have : n < h.words.length := by
        by_contra hc; rw [List.getElem?_eq_none (by omega)] at hw; cases hw
      rw [List.getElem?_append_left this, hw]
  | add m => unfold Heap.step; simp only; split <;> exact ⟨w, hw, rfl⟩
  | setForm m i text => exact hch m _ fun e => absurd (e ▸ .inl ⟨i, text, rfl⟩) hm
  | setProperties m p => exact hch m _ fun e => absurd (e ▸ .inr (.inl ⟨p, rfl⟩)) hm
  | autofill m => exact hch m _ fun e => absurd (e ▸ .inr (.inr rfl)) hm
  | syllables m =>
    refine hch m _ fun _ => ?_
    unfold WordObj.readSyllables
    cases w.syllables with
    | some k => rfl
    | none => cases e : w.value.numberOfSyllables <;> rfl
  | fluent m =>
    refine hch m _ fun _ => ?_
    unfold WordObj.readFluent
    cases w.fluent with
    | some k => rfl
    | none => cases e : w.value.hasFluentVowel <;> rfl

theorem snap_congr {words words' : List WordObj} {d : Dict Str FormObj}
    (h : ∀ e ∈ d, (words'[e.2.word]?).map (·.value) = (words[e.2.word]?).map (·.value)) : snap words' d = snap words d := by
  unfold snap
  apply List.filterMap_congr
  intro e he
  have := h e he
  unfold FormObj.value
  cases h1 : words'[e.2.word]? <;> cases h2 : words[e.2.word]? <;> simp_all

/-- Entries of the dictionary belong to added words. -/
theorem refs_added (U : PyUni) (ops : List Op) : ∀ e ∈ (Heap.after U ops).data, e.2.word ∈ addedNames ops := by
  induction ops using List.reverseRecOn with
  | nil => intro e he; simp [Heap.after] at he
  | append_singleton ops op ih =>
    rw [after_snoc, addedNames_append]
    by_cases hop : ∀ n, op ≠ .add n
    · rw [step_data U _ op hop]
      intro e he; exact List.mem_append_left _ (ih e he)
    · simp only [not_forall, not_not] at hop
      obtain ⟨n, rfl⟩ := hop
      unfold Heap.step
      simp only
      split
      · intro e he; exact List.mem_append_left _ (ih e he)
      · rename_i w hw
        have hset : ∀ (d : Dict Str FormObj) (t : Str) (f : FormObj), f.word = n → (∀ e ∈ d, e.2.word ∈ addedNames ops ++ [n]) →
            ∀ e ∈ Dict.set d t f, e.2.word ∈ addedNames ops ++ [n] := by
          intro d t f hf
          induction d with
          | nil => intro _ e he; simp [Dict.set] at he; subst he; simp [hf]
          | cons x d ih =>
            intro hd e he
            obtain ⟨k, g⟩ := x
            simp only [Dict.set] at he
            split at he
            · rcases List.mem_cons.mp he with rfl | he
              · simp [hf]
              · exact hd e (by simp [he])
            · rcases List.mem_cons.mp he with rfl | he
              · exact hd _ (by simp)
              · exact ih (fun e he => hd e (by simp [he])) e he
        have hall : ∀ (is : List Nat) (d : Dict Str FormObj), (∀ e ∈ d, e.2.word ∈ addedNames ops ++ [n]) →
            ∀ e ∈ (addFormsObj U (Heap.after U ops).words w n d is).1, e.2.word ∈ addedNames ops ++ [n] := by
          intro is
          induction is with
          | nil => intro d hd; exact hd
          | cons i is ih =>
            intro d hd
            unfold addFormsObj
            split
            · exact hd
            · rename_i f hf
              have hfw : f.word = n := by
                unfold WordObj.nthForm at hf
                cases e : w.value.nthForm i with
                | error e' => rw [e] at hf; cases hf
                | ok g => rw [e] at hf; injection hf with hf; rw [← hf]
              split
              · exact hd
              · rename_i text f' hr
                have hfw' : f'.word = n := by
                  unfold FormObj.read at hr
                  split at hr
                  · injection hr with hr; injection hr with _ h2; rw [← h2]; exact hfw
                  · split at hr
                    · cases hr
                    · rename_i v _
                      cases e : v.form U with
                      | error e' => rw [e] at hr; cases hr
                      | ok s =>
                        simp only [e, bind, Except.bind] at hr
                        injection hr with hr; injection hr with h1 h2
                        rw [← h2]; exact hfw
                apply ih
                unfold registerObj
                split
                · exact hset _ _ _ hfw' hd
                · split
                  · exact hset _ _ _ hfw' hd
                  · exact hd
        intro e he
        have := hall _ _ (fun e he => List.mem_append_left _ (ih e he)) e he
        simpa [addedNames] using this

/-- C77: as long as no word is changed after it was added, the dictionary of objects is the dictionary of values of
`Verif.Model.Dictionary` built from the words as they were when they were added. -/
theorem C77_value_model (U : PyUni) (ops : List Op) (hs : SettledBeforeAdded ops) :
    (Heap.after U ops).snapshot = history U (addedValues U ⟨[], []⟩ ops) := by
  show snap (Heap.after U ops).words (Heap.after U ops).data = _
  induction ops using List.reverseRecOn with
  | nil => rfl
  | append_singleton ops op ih =>
    have hs' : SettledBeforeAdded ops := by
      intro before o later n e hm
      exact hs before o (later ++ [op]) n (by simp [e]) hm
    have ih := ih hs'
    rw [after_snoc, addedValues_append]
    change _ = history U (_ ++ addedValues U (Heap.after U ops) [op])
    obtain ⟨hr, _⟩ := after_dict U ops
    by_cases hop : ∀ n, op ≠ .add n
    · have : addedValues U (Heap.after U ops) [op] = [] := by
        cases op <;> first | rfl | exact absurd rfl (hop _)
      rw [this, List.append_nil, ← ih, step_data U _ op hop]
      apply snap_congr
      intro e he
      have hlt := hr e he
      obtain ⟨w', h1, h2⟩ := step_value U (Heap.after U ops) op e.2.word _ (List.getElem?_eq_getElem hlt)
        (fun hm => hs ops op [] _ rfl hm (refs_added U ops e he))
      rw [h1, List.getElem?_eq_getElem hlt]
      simp [h2]
    · simp only [not_forall, not_not] at hop
      obtain ⟨n, rfl⟩ := hop
      unfold Heap.step
      simp only [addedValues]
      cases hw : (Heap.after U ops).words[n]? with
      | none => simpa using ih
      | some w =>
        simp only [Option.map_some, Option.toList_some, List.append_nil]
        rw [(snap_addForms hw _ _ hr).1, ih]
        simp [history, List.foldl_append, Dictionary.addWord]

/-- C77, for single texts: the same texts are known, and the word form found is, as a value, the one of the value model. -/
theorem C77_lookup_value (U : PyUni) (ops : List Op) (hs : SettledBeforeAdded ops) (t : Str) :
    (Heap.after U ops).hasWord t = (history U (addedValues U ⟨[], []⟩ ops)).hasWord t ∧
    (∀ f, (Heap.after U ops).getWord t = .ok f →
      ∃ v, f.value (Heap.after U ops).words = some v ∧ (history U (addedValues U ⟨[], []⟩ ops)).getWord t = .ok v) ∧
    ((Heap.after U ops).hasWord t = false → (Heap.after U ops).getWord t = .error (.NoWordsFoundError t)) := by
  obtain ⟨hr, _⟩ := after_dict U ops
  have key : Dict.get? (history U (addedValues U ⟨[], []⟩ ops)) t =
      ((Heap.after U ops).data.get? t).bind fun f => f.value (Heap.after U ops).words := by
    rw [← C77_value_model U ops hs]; exact snap_get? hr t
  refine ⟨?_, ?_, ?_⟩
  · unfold Heap.hasWord Dictionary.hasWord Dict.contains
    rw [key]
    cases hg : (Heap.after U ops).data.get? t with
    | none => rfl
    | some f =>
      obtain ⟨v, hv⟩ := value_of_lt (hr _ (Dict.mem_of_get? hg))
      simp [hv]
  · intro f hf
    unfold Heap.getWord at hf
    cases hg : (Heap.after U ops).data.get? t with
    | none => rw [hg] at hf; cases hf
    | some g =>
      rw [hg] at hf; injection hf with hf; subst hf
      obtain ⟨v, hv⟩ := value_of_lt (hr _ (Dict.mem_of_get? hg))
      refine ⟨v, hv, ?_⟩
      unfold Dictionary.getWord
      rw [key, hg]; simp [hv]
  · intro h
    unfold Heap.hasWord Dict.contains at h
    unfold Heap.getWord
    cases hg : (Heap.after U ops).data.get? t with
    | none => rfl
    | some g => rw [hg] at h; simp at h

/-! ## Every reachable memory is good -/

/-- The property lists of an entry are well formed. -/
def WFForm (f : FormObj) : Prop := WFProps f.properties ∧ WFProps f.formProperties

theorem wfForm_addForms {U : PyUni} {words : List WordObj} {w : WordObj} {name : Nat} (hw : Accepted w.value) (is : List Nat) :
    ∀ d : Dict Str FormObj, (∀ e ∈ d, WFForm e.2) → ∀ e ∈ (addFormsObj U words w name d is).1, WFForm e.2 := by
  have hset : ∀ (d : Dict Str FormObj) (t : Str) (f : FormObj), WFForm f → (∀ e ∈ d, WFForm e.2) →
      ∀ e ∈ Dict.set d t f, WFForm e.2 := by
    intro d t f hf
    induction d with
    | nil => intro _ e he; simp [Dict.set] at he; subst he; exact hf
    | cons x d ih =>
      intro hd e he
      obtain ⟨k, g⟩ := x
      simp only [Dict.set] at he
      split at he
      · rcases List.mem_cons.mp he with rfl | he
        · exact hf
        · exact hd e (by simp [he])
      · rcases List.mem_cons.mp he with rfl | he
        · exact hd _ (by simp)
        · exact ih (fun e he => hd e (by simp [he])) e he
  induction is with
  | nil => intro d hd; exact hd
  | cons i is ih =>
    intro d hd
    unfold addFormsObj
    split
    · exact hd
    · rename_i f hf
      have hfw : WFForm f := by
        unfold WordObj.nthForm at hf
        cases e : w.value.nthForm i with
        | error e' => rw [e] at hf; cases hf
        | ok g =>
          rw [e] at hf; injection hf with hf
          unfold Word.nthForm at e
          split at e
          · cases e
          · rename_i p hp
            injection e with e
            have hp' : WFProps p := by
              have := List.mem_of_getElem? hp
              unfold invertedCacheProperties at this
              obtain ⟨k, _, rfl⟩ := List.mem_map.mp this
              exact wf_propertiesOfKey k
            obtain ⟨_, h1, h2⟩ := goodForm_new (p := some p) (q := none) hw (by simpa using hp') (by simp)
            rw [← hf, ← e]; exact ⟨h1, h2⟩
      split
      · exact hd
      · rename_i text f' hr
        have hfw' : WFForm f' := by
          unfold FormObj.read at hr
          split at hr
          · injection hr with hr; injection hr with _ h2; rw [← h2]; exact hfw
          · split at hr
            · cases hr
            · rename_i v _
              cases e : v.form U with
              | error e' => rw [e] at hr; cases hr
              | ok s =>
                simp only [e, bind, Except.bind] at hr
                injection hr with hr; injection hr with h1 h2
                rw [← h2]; exact hfw
        apply ih
        unfold registerObj
        split
        · exact hset _ _ _ hfw' hd
        · split
          · exact hset _ _ _ hfw' hd
          · exact hd

theorem step_accepted (U : PyUni) (h : Heap) (op : Op) (hg : GoodOp op) (ha : ∀ o ∈ h.words, Accepted o.value) :
    ∀ o ∈ (h.step U op).words, Accepted o.value := by
  have hch : ∀ (n : Nat) (f : WordObj → WordObj), (∀ o, Accepted o.value → Accepted (f o).value) →
      ∀ o ∈ (h.change n f).words, Accepted o.value := by
    intro n f hf o ho
    obtain ⟨m, hm⟩ := List.mem_iff_getElem?.mp ho
    rw [change_get?] at hm
    cases e : h.words[m]? with
    | none => rw [e] at hm; simp at hm
    | some o' =>
      rw [e] at hm
      have ho' := ha o' (List.mem_of_getElem? e)
      split at hm
      · injection hm with hm; rw [← hm]; exact hf _ ho'
      · injection hm with hm; rw [← hm]; exact ho'
  cases op with
  | create t forms p =>
    unfold Heap.step; simp only
    split
    · exact ha
    · rename_i w hw
      intro o ho
      rcases List.mem_append.mp ho with ho | ho
      · exact ha o ho
      · simp at ho; subst ho; exact ⟨t, forms, p, hg, hw⟩
  | add n => unfold Heap.step; simp only; split <;> exact ha
  | setForm n i text =>
    refine hch n _ fun o ho => ?_
    rw [accepted_iff] at ho ⊢
    simpa using ho
  | setProperties n p =>
    refine hch n _ fun o ho => ?_
    rw [accepted_iff] at ho ⊢
    exact ⟨hg, ho.2⟩
  | autofill n =>
    refine hch n _ fun o ho => ?_
    obtain ⟨w', h1, h2, h3, h4, _⟩ := C20_keeps_present _ ho
    simp only [h1]
    rw [accepted_iff] at ho ⊢
    exact ⟨h3 ▸ ho.1, by rw [h4, h2]; exact ho.2⟩
  | syllables n =>
    refine hch n _ fun o ho => ?_
    unfold WordObj.readSyllables
    cases o.syllables with
    | some k => exact ho
    | none => cases e : o.value.numberOfSyllables <;> exact ho
  | fluent n =>
    refine hch n _ fun o ho => ?_
    unfold WordObj.readFluent
    cases o.fluent with
    | some k => exact ho
    | none => cases e : o.value.hasFluentVowel <;> exact ho

theorem after_good (U : PyUni) (ops : List Op) (hg : ∀ op ∈ ops, GoodOp op) :
    (∀ o ∈ (Heap.after U ops).words, Accepted o.value) ∧ ∀ e ∈ (Heap.after U ops).data, WFForm e.2 := by
  induction ops using List.reverseRecOn with
  | nil => exact ⟨fun o ho => by simp [Heap.after] at ho, fun e he => by simp [Heap.after] at he⟩
  | append_singleton ops op ih =>
    obtain ⟨h1, h2⟩ := ih fun o ho => hg o (by simp [ho])
    rw [after_snoc]
    refine ⟨step_accepted U _ op (hg op (by simp)) h1, ?_⟩
    by_cases hop : ∀ n, op ≠ .add n
    · rw [step_data U _ op hop]; exact h2
    · simp only [not_forall, not_not] at hop
      obtain ⟨n, rfl⟩ := hop
      unfold Heap.step
      simp only
      split
      · exact h2
      · rename_i w hw
        exact wfForm_addForms (h1 w (List.mem_of_getElem? hw)) _ _ h2

/-- C77: whatever is done to the words, every word keeps the number of forms its type demands and its filling of missing forms,
its number of syllables and its fluent vowel can be computed. -/
theorem C77_no_errors (U : PyUni) (ops : List Op) (hg : ∀ op ∈ ops, GoodOp op) (n : Nat) (o : WordObj)
    (ho : (Heap.after U ops).words[n]? = some o) :
    Accepted o.value ∧ (∃ w, o.value.autofillMissedForms = .ok w) ∧ (∃ k, o.value.numberOfSyllables = .ok k) ∧
      ∃ b, o.value.hasFluentVowel = .ok b := by
  have ha := (after_good U ops hg).1 o (List.mem_of_getElem? ho)
  obtain ⟨w', h1, _⟩ := C20_keeps_present _ ha
  obtain ⟨f, _, h2⟩ := C55_syllables _ ha
  obtain ⟨b, h3, _⟩ := C56_fluent_vowel _ ha
  exact ⟨ha, ⟨_, h1⟩, ⟨_, h2⟩, ⟨_, h3⟩⟩

/-- C77: the dictionary that substitution sees is good, so that all theorems about substitution with a `GoodDictionary` hold
after any history, also when words were changed after they were added. -/
theorem C77_good_dictionary (U : PyUni) (ops : List Op) (hg : ∀ op ∈ ops, GoodOp op) :
    GoodDictionary (Heap.after U ops).snapshot := by
  obtain ⟨h1, h2⟩ := after_good U ops hg
  obtain ⟨hr, _⟩ := after_dict U ops
  intro t f hf
  unfold Dictionary.getWord at hf
  have key : Dict.get? (Heap.after U ops).snapshot t = _ := snap_get? hr t
  rw [key] at hf
  cases hd : (Heap.after U ops).data.get? t with
  | none => rw [hd] at hf; cases hf
  | some g =>
    have hmem := Dict.mem_of_get? hd
    rw [hd, Option.bind_some] at hf
    have hlt := hr _ hmem
    unfold FormObj.value at hf
    simp only at hlt
    rw [List.getElem?_eq_getElem hlt] at hf
    injection hf with hf; rw [← hf]
    exact ⟨h1 _ (List.getElem_mem hlt), h2 _ hmem⟩

/-- A history: a word is created, its missing forms are filled, it is added, another one is created and added. -/
def exOps : List Op :=
  [.create .NOUN exGaps.forms exGaps.properties, .autofill 0, .syllables 0, .add 0,
   .create .TEXT [str! "ух"] (.new []), .add 1, .fluent 0]

/-- C77 applies: the words of this history are settled before they are added. -/
example : SettledBeforeAdded exOps ∧ (∀ op ∈ exOps, GoodOp op) ∧ (Heap.after exPy exOps).words.length = 2 ∧
    (Heap.after exPy exOps).hasWord (str! "ух") = true := by
  refine ⟨?_, ?_, by decide +kernel, by decide +kernel⟩
  · intro before op later n e hm
    have hl : before.length < 7 := by
      have := congrArg List.length e; simp [exOps] at this; omega
    have h1 : exOps[before.length]? = some op := by simp [e]
    have h2 : before = exOps.take before.length := by simp [e]
    have h3 : before.length = 1 := by
      revert hl h1
      generalize before.length = m
      intro hl h1
      match m, hl with
      | 1, _ => rfl
      | 0, _ | 2, _ | 3, _ | 4, _ | 5, _ | 6, _ =>
        simp only [exOps, List.getElem?_cons_zero, List.getElem?_cons_succ, Option.some.injEq] at h1
        subst h1
        simp [Mutates] at hm
    rw [h2, h3]; simp [exOps, addedNames]
  · intro op hop
    simp only [exOps, List.mem_cons, List.not_mem_nil, or_false] at hop
    rcases hop with rfl | rfl | rfl | rfl | rfl | rfl | rfl <;> simp only [GoodOp] <;> first | exact wf_empty | decide +kernel

/-- Settling matters: a word changed after it was added is still found under its old text, which a template then replaces by
the new one. -/
theorem C77_changed_later : ∃ ops : List Op, (∀ op ∈ ops, GoodOp op) ∧ ¬ SettledBeforeAdded ops ∧
    (∃ f, (Heap.after exPy ops).getWord (str! "ух") = .ok f ∧ f.read exPy (Heap.after exPy ops).words = .ok (str! "ух", f)) ∧
    Substitution.getText exPy ⟨str! "ух", []⟩ [] (Heap.after exPy ops).snapshot = .ok (str! "ах") := by
  refine ⟨[.create .TEXT [str! "ух"] (.new []), .add 0, .setForm 0 0 (str! "ах")], ?_, ?_, ?_, by decide +kernel⟩
  · intro op hop
    simp only [List.mem_cons, List.not_mem_nil, or_false] at hop
    rcases hop with rfl | rfl | rfl <;> simp only [GoodOp]; exact wf_empty
  · intro h
    have := h [.create .TEXT [str! "ух"] (.new []), .add 0] (.setForm 0 0 (str! "ах")) [] 0 rfl (.inl ⟨_, _, rfl⟩)
    simp [addedNames] at this
  · exact ⟨⟨0, .new [], .new [], some (str! "ух")⟩, by decide +kernel, by decide +kernel⟩

/-! ## C75 -/

/-- Filling missing forms changes neither the number of syllables nor the fluent vowel if the first form is present. -/
theorem C75_autofill_keeps (w w' : Word) (hw : Accepted w) (hfirst : w.forms[0]? ≠ some []) (h : w.autofillMissedForms = .ok w') :
    w'.forms[0]? = w.forms[0]? ∧ w'.numberOfSyllables = w.numberOfSyllables ∧ w'.hasFluentVowel = w.hasFluentVowel := by
  obtain ⟨w0, e0, t0, p0, l0, keep⟩ := C20_keeps_present w hw
  rw [h] at e0; injection e0 with e0; subst e0
  obtain ⟨h1, h2⟩ := accepted_iff.mp hw
  have hw' : Accepted w' := accepted_iff.mpr ⟨p0 ▸ h1, by rw [l0, h2, t0]⟩
  obtain ⟨f, hf, hs⟩ := C55_syllables w hw
  have hfne : f ≠ [] := fun e => hfirst (by rw [hf, e])
  have hf' := keep 0 f hf hfne
  have hcomp := (C21_completes w w' hw h).1 ⟨f, List.mem_of_getElem? hf, hfne⟩
  refine ⟨by rw [hf', hf], ?_, ?_⟩
  · obtain ⟨g, hg, hs'⟩ := C55_syllables w' hw'
    rw [hf'] at hg; injection hg with hg; subst hg
    rw [hs, hs']
  · obtain ⟨b, hb, hb'⟩ := C56_fluent_vowel w hw
    obtain ⟨c, hc, hc'⟩ := C56_fluent_vowel w' hw'
    rw [hb, hc]
    congr 1
    rw [Bool.eq_iff_iff, hb', hc']
    constructor
    · rintro ⟨f1, g, i, e1, e2, e3, e4⟩
      rw [hf'] at e1; injection e1 with e1; subst e1
      obtain ⟨_, hm⟩ := hcomp (i + 1) g e2
      obtain ⟨j, hj⟩ := List.mem_iff_getElem?.mp hm
      cases j with
      | zero =>
        rw [hf] at hj; injection hj with hj; subst hj
        exact absurd (List.prefix_refl _) e4
      | succ j => exact ⟨f, g, j, hf, hj, e3, e4⟩
    · rintro ⟨f1, g, i, e1, e2, e3, e4⟩
      rw [hf] at e1; injection e1 with e1; subst e1
      exact ⟨f, g, i, hf', keep _ g e2 e3, e3, e4⟩

/-- What is remembered of a word object whose first form never changes from `w`. -/
def Fresh (w : Word) (o : WordObj) : Prop :=
  Accepted o.value ∧ o.value.forms[0]? = w.forms[0]? ∧
  o.value.numberOfSyllables = w.numberOfSyllables ∧ o.value.hasFluentVowel = w.hasFluentVowel ∧
  (∀ n, o.syllables = some n → w.numberOfSyllables = .ok n) ∧ ∀ b, o.fluent = some b → w.hasFluentVowel = .ok b

theorem step_fresh (U : PyUni) (h : Heap) (op : Op) (n : Nat) (w : Word) (o : WordObj) (hfirst : w.forms[0]? ≠ some [])
    (ho : h.words[n]? = some o) (hf : Fresh w o) (hg : GoodOp op) (hno : ∀ i text, op ≠ .setForm n i text) :
    ∃ o', (h.step U op).words[n]? = some o' ∧ Fresh w o' := by
  have hch : ∀ (m : Nat) (f : WordObj → WordObj), (m = n → Fresh w (f o)) → ∃ o', (h.change m f).words[n]? = some o' ∧ Fresh w o' := by
    intro m f hff
    rw [change_get?, ho]
    split
    · rename_i e; exact ⟨_, rfl, hff e⟩
    · exact ⟨_, rfl, hf⟩
  obtain ⟨f1, f2, f3, f4, f5, f6⟩ := hf
  cases op with
  | create t forms p =>
    unfold Heap.step; simp only
    split
    · exact ⟨o, ho, f1, f2, f3, f4, f5, f6⟩
    · have : n < h.words.length := by
        by_contra hc; rw [List.getElem?_eq_none (by omega)] at ho; cases ho
      exact ⟨o, by rw [List.getElem?_append_left this, ho], f1, f2, f3, f4, f5, f6⟩
  | add m => unfold Heap.step; simp only; split <;> exact ⟨o, ho, f1, f2, f3, f4, f5, f6⟩
  | setForm m i text => exact hch m _ fun e => absurd (e ▸ rfl) (hno i text)
  | setProperties m p =>
    refine hch m _ fun _ => ⟨?_, f2, f3, f4, f5, f6⟩
    rw [accepted_iff] at f1 ⊢; exact ⟨hg, f1.2⟩
  | autofill m =>
    refine hch m _ fun _ => ?_
    obtain ⟨w', h1, h2, h3, h4, _⟩ := C20_keeps_present _ f1
    obtain ⟨k1, k2, k3⟩ := C75_autofill_keeps _ _ f1 (f2 ▸ hfirst) h1
    simp only [h1]
    refine ⟨?_, k1.trans f2, k2.trans f3, k3.trans f4, f5, f6⟩
    rw [accepted_iff] at f1 ⊢; exact ⟨h3 ▸ f1.1, by rw [h4, h2]; exact f1.2⟩
  | syllables m =>
    refine hch m _ fun _ => ?_
    unfold WordObj.readSyllables
    cases e : o.syllables with
    | some k => exact ⟨f1, f2, f3, f4, f5, f6⟩
    | none =>
      cases e' : o.value.numberOfSyllables with
      | error _ => exact ⟨f1, f2, f3, f4, f5, f6⟩
      | ok k => exact ⟨f1, f2, f3, f4, by intro n hn; injection hn with hn; rw [← f3, e', hn], f6⟩
  | fluent m =>
    refine hch m _ fun _ => ?_
    unfold WordObj.readFluent
    cases e : o.fluent with
    | some k => exact ⟨f1, f2, f3, f4, f5, f6⟩
    | none =>
      cases e' : o.value.hasFluentVowel with
      | error _ => exact ⟨f1, f2, f3, f4, f5, f6⟩
      | ok k => exact ⟨f1, f2, f3, f4, f5, by intro n hn; injection hn with hn; rw [← f4, e', hn]⟩

/-- C75: reading `number_of_syllables` and `has_fluent_vowel` of a word created with a first form gives what they are for its
present forms, whatever else was done in between, as long as none of its forms is assigned by hand. -/
theorem C75_lazy_values (U : PyUni) (before later : List Op) (t : WordType) (forms : List Str) (p : Properties) (w : Word)
    (hnew : Word.new t forms p = .ok w) (hfirst : w.forms[0]? ≠ some []) (hg : ∀ op ∈ before ++ .create t forms p :: later, GoodOp op)
    (hno : ∀ i text, .setForm (Heap.after U before).words.length i text ∉ later) :
    ∃ o, (Heap.after U (before ++ .create t forms p :: later)).words[(Heap.after U before).words.length]? = some o ∧
      (o.readSyllables).map Prod.fst = o.value.numberOfSyllables ∧ (o.readFluent).map Prod.fst = o.value.hasFluentVowel ∧
      o.value.numberOfSyllables = w.numberOfSyllables ∧ o.value.hasFluentVowel = w.hasFluentVowel := by
  have hmain : ∃ o, (Heap.after U (before ++ .create t forms p :: later)).words[(Heap.after U before).words.length]? = some o ∧
      Fresh w o := by
    induction later using List.reverseRecOn with
    | nil =>
      refine ⟨⟨w, none, none⟩, ?_, ?_⟩
      · rw [after_snoc]
        unfold Heap.step
        simp only [hnew]
        simp
      · have hw : Accepted w := ⟨t, forms, p, hg (.create t forms p) (by simp), hnew⟩
        exact ⟨hw, rfl, rfl, rfl, by simp, by simp⟩
    | append_singleton later op ih =>
      obtain ⟨o, h1, h2⟩ := ih (fun o ho => hg o (by
        rcases List.mem_append.mp ho with ho | ho
        · simp [ho]
        · rcases List.mem_cons.mp ho with rfl | ho <;> simp [*])) (fun i text hm => hno i text (by simp [hm]))
      rw [show before ++ Op.create t forms p :: (later ++ [op]) = (before ++ .create t forms p :: later) ++ [op] by simp, after_snoc]
      exact step_fresh U _ op _ w o hfirst h1 h2 (hg op (by simp)) (fun i text e => hno i text (by simp [e]))
  obtain ⟨o, h1, _, _, f3, f4, f5, f6⟩ := hmain
  refine ⟨o, h1, ?_, ?_, f3, f4⟩
  · unfold WordObj.readSyllables
    cases e : o.syllables with
    | some k => rw [f3, f5 k e]; rfl
    | none => cases e' : o.value.numberOfSyllables <;> rfl
  · unfold WordObj.readFluent
    cases e : o.fluent with
    | some k => rw [f4, f6 k e]; rfl
    | none => cases e' : o.value.hasFluentVowel <;> rfl

/-- A noun with a first form and gaps. -/
def exFirst : Word := ⟨.NOUN, (List.range 18).map (fun i => if i = 0 then str! "окно" else if i = 3 then str! "окна" else []), .new []⟩

/-- C75 applies: the first form is present, and the word is read, completed and read again. -/
example : Word.new exFirst.type exFirst.forms exFirst.properties = .ok exFirst ∧ exFirst.forms[0]? ≠ some [] ∧
    exFirst.numberOfSyllables = .ok 2 ∧ exFirst.hasFluentVowel = .ok true ∧
    (∀ i text, Op.setForm (Heap.after exPy []).words.length i text ∉ [Op.syllables 0, .autofill 0, .fluent 0]) := by
  refine ⟨by decide +kernel, by decide +kernel, by decide +kernel, by decide +kernel, by simp⟩

/-- C75 needs the first form: without it, a value read before the missing forms are filled goes stale. -/
theorem C75_needs_first_form : ∃ (ops : List Op) (o : WordObj), (∀ op ∈ ops, GoodOp op) ∧ (∀ i text, .setForm 0 i text ∉ ops) ∧
    (Heap.after exPy ops).words[0]? = some o ∧ (o.readSyllables).map Prod.fst = .ok 1 ∧ o.value.numberOfSyllables = .ok 2 := by
  refine ⟨[.create .NOUN ((List.range 18).map (fun i => if i = 3 then str! "окна" else [])) (.new []), .syllables 0, .autofill 0],
    ⟨⟨.NOUN, List.replicate 18 (str! "окна"), .new []⟩, some 1, none⟩, ?_, by simp, by decide +kernel, by decide +kernel,
    by decide +kernel⟩
  intro op hop
  simp only [List.mem_cons, List.not_mem_nil, or_false] at hop
  rcases hop with rfl | rfl | rfl <;> simp only [GoodOp]; exact wf_empty

end Utg
