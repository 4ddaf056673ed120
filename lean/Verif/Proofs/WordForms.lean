import Verif.Proofs.Words
/-! # Lemmas about word forms -/

namespace Utg
open Py Spec

theorem findSome?_functional {α β : Type} {l : List α} {f : α → Option β} {a : α} {b : β} (ha : a ∈ l) (hf : f a = some b)
    (hu : ∀ a' ∈ l, ∀ b', f a' = some b' → b' = b) : l.findSome? f = some b := by
  cases h : l.findSome? f with
  | none => rw [List.findSome?_eq_none_iff] at h; rw [h a ha] at hf; simp at hf
  | some b' =>
    obtain ⟨a', ha', hb'⟩ := List.exists_of_findSome?_eq_some h
    rw [hu a' ha' b' hb']

theorem wf_propertiesOfKey (k : Key) : WFProps (propertiesOfKey k) := by
  apply wf_new
  intro p hp
  simp only [List.mem_map] at hp
  obtain ⟨o, _, ho⟩ := hp
  cases o <;> simp at ho

theorem propertiesOfKey_get? {k : Key} {r : Rec} (hr : some r ∈ k) (hu : ∀ r', some r' ∈ k → r'.group = r.group → r' = r) :
    (propertiesOfKey k).data.get? r.group = some r := by
  unfold propertiesOfKey
  rw [new_get?]
  · refine findSome?_functional (a := .record r) (by simp only [List.mem_reverse, List.mem_map]; exact ⟨some r, hr, rfl⟩)
      (by simp [argGet]) ?_
    intro a' ha' b' hb'
    simp only [List.mem_reverse, List.mem_map] at ha'
    obtain ⟨o, ho, rfl⟩ := ha'
    cases o with
    | none => simp [argGet] at hb'
    | some r' =>
      simp only [argGet] at hb'
      split at hb'
      · rename_i hg
        injection hb' with hb'; subst hb'
        exact hu r' ho hg
      · simp at hb'
  · intro p hp
    simp only [List.mem_map] at hp
    obtain ⟨o, _, ho⟩ := hp
    cases o <;> simp at ho

theorem schema_nodup (t : WordType) : t.schema.Nodup := by cases t <;> decide

/-- The properties built from a key that fits the schema specify what the key says. -/
theorem propertiesOfKey_schema {schema : List Group} (hs : schema.Nodup) {k : Key} (hk : FitsSchema schema k) {j : Nat}
    {g : Group} {r : Rec} (hg : schema[j]? = some g) (hr : k[j]? = some (some r)) :
    (propertiesOfKey k).data.get? g = some r := by
  have hpos : ∀ (i : Nat) (r' : Rec), k[i]? = some (some r') → ∃ g', schema[i]? = some g' ∧ r'.group = g' := by
    intro i r' hi
    unfold FitsSchema at hk
    rw [List.forall₂_iff_get] at hk
    obtain ⟨hlen, hk⟩ := hk
    obtain ⟨hi1, hi2⟩ := List.getElem?_eq_some_iff.mp hi
    refine ⟨schema[i]'(by omega), by simp, ?_⟩
    have := hk i hi1 (by omega) r' (by simpa using hi2)
    exact mem_records_iff.mp (by simpa using this)
  obtain ⟨g', hg', hgr⟩ := hpos j r hr
  rw [hg] at hg'; injection hg' with hg'; subst hg'
  rw [← hgr]
  apply propertiesOfKey_get? (List.mem_of_getElem? hr)
  intro r' hr' hgg
  obtain ⟨i, hi⟩ := List.mem_iff_getElem?.mp hr'
  obtain ⟨g'', h1, h2⟩ := hpos i r' hi
  have : g'' = g := by rw [← h2, hgg, hgr]
  subst this
  have hij : i = j := by
    obtain ⟨hi1, hi2⟩ := List.getElem?_eq_some_iff.mp h1
    obtain ⟨hj1, hj2⟩ := List.getElem?_eq_some_iff.mp hg
    exact (List.Nodup.getElem_inj_iff hs).mp (hi2.trans hj2.symm)
  subst hij
  rw [hi] at hr; simpa using hr

theorem propertiesOfKey_outside {schema : List Group} {k : Key} (hk : FitsSchema schema k) {g : Group} (hg : g ∉ schema) :
    (propertiesOfKey k).data.get? g = none := by
  cases hx : (propertiesOfKey k).data.get? g with
  | none => rfl
  | some r =>
    exfalso
    unfold propertiesOfKey at hx
    rw [new_get? (by intro p hp; simp only [List.mem_map] at hp; obtain ⟨o, _, ho⟩ := hp; cases o <;> simp at ho)] at hx
    obtain ⟨a, ha, hb⟩ := List.exists_of_findSome?_eq_some hx
    simp only [List.mem_reverse, List.mem_map] at ha
    obtain ⟨o, ho, rfl⟩ := ha
    cases o with
    | none => simp [argGet] at hb
    | some r' =>
      simp only [argGet] at hb
      split at hb
      · rename_i hgg
        unfold FitsSchema at hk
        rw [List.forall₂_iff_get] at hk
        obtain ⟨i, hi⟩ := List.mem_iff_getElem?.mp ho
        obtain ⟨hi1, hi2⟩ := List.getElem?_eq_some_iff.mp hi
        have := hk.2 i hi1 (by omega) r' (by simpa using hi2)
        have hgrp := mem_records_iff.mp this
        exact hg (by rw [← hgg, hgrp]; simp)
      · simp at hb

theorem wordCase_not_schema (t : WordType) : Group.WORD_CASE ∉ t.schema := by cases t <;> decide

/-- The word case of a form enumerated by `all_forms` is that of the word. -/
theorem allForms_wordCase {w : Word} (h1 : WFProps w.properties) {k : Key} (hk : k ∈ invertedCache w.type) :
    (Properties.new [.props (propertiesOfKey k), .props w.properties]).get .WORD_CASE = w.properties.get .WORD_CASE := by
  rw [new2_get (wf_propertiesOfKey k) h1]
  split
  · rfl
  · rename_i hs
    have h2 := propertiesOfKey_outside (invertedCache_fits hk) (wordCase_not_schema w.type)
    have h3 : w.properties.data.get? .WORD_CASE = none := by
      rw [← isSpecified_false]; simpa using hs
    simp [Properties.get, h2, h3]

theorem mapM_ok {α β ε : Type} {f : α → Except ε β} {l : List α} (h : ∀ a ∈ l, ∃ b, f a = .ok b) :
    ∃ bs, l.mapM f = .ok bs ∧ List.Forall₂ (fun a b => f a = .ok b) l bs := by
  induction l with
  | nil => exact ⟨[], rfl, .nil⟩
  | cons a l ih =>
    obtain ⟨b, hb⟩ := h a (by simp)
    obtain ⟨bs, h1, h2⟩ := ih (fun a ha => h a (List.mem_cons_of_mem _ ha))
    exact ⟨b :: bs, by rw [List.mapM_cons, hb, h1]; rfl, .cons hb h2⟩

/-- `all_forms` of an accepted word. -/
theorem allForms_spec {w : Word} (hw : w.forms.length = (invertedCache w.type).length) :
    w.allForms = .ok ((invertedCache w.type).map fun k => WordForm.new w (some (propertiesOfKey k))) := by
  unfold Word.allForms
  rw [hw]
  have : ∀ i ∈ List.range (invertedCache w.type).length, ∃ b, w.nthForm i = .ok b := by
    intro i hi
    simp only [List.mem_range] at hi
    refine ⟨WordForm.new w (some (propertiesOfKey ((invertedCache w.type)[i]))), ?_⟩
    unfold Word.nthForm invertedCacheProperties
    simp [List.getElem?_map, hi]
  obtain ⟨bs, h1, h2⟩ := mapM_ok this
  rw [h1]
  congr 1
  apply List.ext_getElem?
  intro i
  rw [List.forall₂_iff_get] at h2
  obtain ⟨hl, h2⟩ := h2
  simp only [List.length_range] at hl
  by_cases hi : i < bs.length
  · have := h2 i (by simpa [hl] using hi) hi
    simp only [List.get_eq_getElem, List.getElem_range] at this
    unfold Word.nthForm invertedCacheProperties at this
    rw [List.getElem?_map, List.getElem?_eq_getElem (by omega)] at this
    simp only [Option.map_some, Except.ok.injEq] at this
    rw [List.getElem?_eq_getElem hi, List.getElem?_map, List.getElem?_eq_getElem (by omega)]
    simp [this]
  · rw [List.getElem?_eq_none (by omega), List.getElem?_eq_none (by simp; omega)]

theorem wordCase_cases (p : Properties) (hp : WFProps p) : p.get .WORD_CASE = some .WORD_CASE_LOWER ∨ p.get .WORD_CASE = some .WORD_CASE_UPPER := by
  obtain ⟨r, hr, h⟩ := get_mem_records hp (g := .WORD_CASE) (by decide)
  simp only [Group.records, List.mem_cons, List.not_mem_nil, or_false] at hr
  rcases hr with rfl | rfl
  · exact Or.inl h
  · exact Or.inr h

theorem getForm_lower {U : PyUni} {w : Word} {p : Properties} (h : p.get .WORD_CASE = some .WORD_CASE_LOWER) :
    WordForm.getForm U w p = w.formRaw p := by
  unfold WordForm.getForm Properties.getRec
  rw [h]
  cases w.formRaw p <;> simp [bind, Except.bind]

theorem getForm_upper {U : PyUni} {w : Word} {p : Properties} (h : p.get .WORD_CASE = some .WORD_CASE_UPPER) :
    WordForm.getForm U w p = (w.formRaw p).bind (upperFirst U) := by
  unfold WordForm.getForm Properties.getRec
  rw [h]
  cases w.formRaw p <;> simp [bind, Except.bind]

end Utg
