import Verif.Model.Words
import Verif.Proofs.Keys
import Verif.Proofs.Properties
import Verif.Proofs.Nearest
/-! # Lemmas about the raw caches (`_get_raw_cache`) and `Word._form` -/

namespace Utg
open Py Spec

theorem rawCacheFill_spec (c : Dict Key Nat) (k : Key) (h : Dict.keys c ≠ []) :
    ∃ c', rawCacheFill c k = .ok c' ∧ Dict.keys c' ≠ [] ∧ (∀ k' v, c.get? k' = some v → c'.get? k' = some v) ∧
      (∃ v, c'.get? k = some v) ∧ ∀ k' v, c'.get? k' = some v → ∃ k0, c.get? k0 = some v := by
  unfold rawCacheFill
  cases hc : c.contains k with
  | true =>
    refine ⟨c, rfl, h, fun _ _ h => h, ?_, fun k' v h => ⟨k', h⟩⟩
    simpa [Dict.contains, Option.isSome_iff_exists] using hc
  | false =>
    obtain ⟨b, _, _, h1, _⟩ := getNearestKey_spec k c.keys h
    have hm := getNearestKey_mem h1
    obtain ⟨i, hi⟩ : ∃ i, c.get? b = some i := by
      cases hg : c.get? b with
      | none => exact absurd hm (Dict.get?_eq_none.mp hg)
      | some i => exact ⟨i, rfl⟩
    have hn : c.get? k = none := by simpa [Dict.contains] using hc
    refine ⟨c.set k i, by simp [h1, hi], ?_, ?_, ⟨i, by simp [Dict.get?_set]⟩, ?_⟩
    · intro e
      have : k ∈ Dict.keys (c.set k i) := Dict.mem_keys_set.mpr (Or.inl rfl)
      rw [e] at this; simp at this
    · intro k' v hk'
      rw [Dict.get?_set, if_neg, hk']
      rintro rfl; rw [hn] at hk'; simp at hk'
    · intro k' v hk'
      rw [Dict.get?_set] at hk'
      split at hk'
      · exact ⟨b, by rw [hi, ← hk']⟩
      · exact ⟨k', hk'⟩

theorem rawCacheFill_foldlM (ks : List Key) : ∀ (c : Dict Key Nat), Dict.keys c ≠ [] →
    ∃ c', ks.foldlM rawCacheFill c = .ok c' ∧ (∀ k' v, c.get? k' = some v → c'.get? k' = some v) ∧
      (∀ k ∈ ks, ∃ v, c'.get? k = some v) ∧ ∀ k' v, c'.get? k' = some v → ∃ k0, c.get? k0 = some v := by
  induction ks with
  | nil => intro c _; exact ⟨c, rfl, fun _ _ h => h, by simp, fun k' v h => ⟨k', h⟩⟩
  | cons k ks ih =>
    intro c h
    obtain ⟨c1, e1, h1, h2, ⟨v, h3⟩, h4⟩ := rawCacheFill_spec c k h
    obtain ⟨c2, e2, g2, g3, g4⟩ := ih c1 h1
    refine ⟨c2, by rw [List.foldlM_cons, e1]; exact e2, fun k' v hv => g2 _ _ (h2 _ _ hv), ?_, ?_⟩
    · intro k' hk'
      rcases List.mem_cons.mp hk' with rfl | hk'
      · exact ⟨v, g2 _ _ h3⟩
      · exact g3 k' hk'
    · intro k' v hv
      obtain ⟨k0, hk0⟩ := g4 _ _ hv
      exact h4 _ _ hk0

theorem mem_invertedCache {t : WordType} {k : Key} : k ∈ invertedCache t ↔
    (∃ c, FullCombination t.schema c ∧ k = patternFrom (RESTRICTIONS t) [] t.schema c) ∧
      ∀ part ∈ RESTRICTED_KEY_PARTS t, ¬ ContainsPart part k := by
  rw [← mem_keysGenerator, ← mem_restrictedKeys]; rfl

theorem fullCombination_length {schema : List Group} {c : List Rec} (h : FullCombination schema c) :
    c.length = schema.length := h.length_eq

theorem invertedCache_fits {t : WordType} {k : Key} (h : k ∈ invertedCache t) : FitsSchema t.schema k := by
  obtain ⟨⟨c, hc, rfl⟩, _⟩ := mem_invertedCache.mp h
  exact patternFrom_fits hc

theorem invertedCache_unique {t : WordType} {k k' : Key} {c : List Rec} (h : k ∈ invertedCache t) (h' : k' ∈ invertedCache t)
    (hm : Matches k c) (hm' : Matches k' c) : k = k' := by
  obtain ⟨⟨d, hd, rfl⟩, _⟩ := mem_invertedCache.mp h
  obtain ⟨⟨d', hd', rfl⟩, _⟩ := mem_invertedCache.mp h'
  rw [patternFrom_unique _ _ _ _ _ (fullCombination_length hd) hm, patternFrom_unique _ _ _ _ _ (fullCombination_length hd') hm']

theorem invertedCache_matched {t : WordType} {k : Key} (h : k ∈ invertedCache t) : ∃ c, FullCombination t.schema c ∧ Matches k c := by
  obtain ⟨⟨d, hd, rfl⟩, _⟩ := mem_invertedCache.mp h
  exact ⟨d, hd, patternFrom_matches _ _ _ _ (fullCombination_length hd)⟩

theorem invertedCache_ne_nil (t : WordType) : invertedCache t ≠ [] := by cases t <;> decide +kernel

/-- What the proofs need to know about a raw cache. -/
structure RawCacheSpec (t : WordType) (cache : Dict Key Nat) : Prop where
  slot : ∀ (i : Nat) (k : Key) (c : List Rec), (invertedCache t)[i]? = some k → FullCombination t.schema c → Matches k c →
    cache.get? (c.map some) = some i
  total : ∀ c, FullCombination t.schema c → ∃ i, cache.get? (c.map some) = some i
  bound : ∀ k i, cache.get? k = some i → i < (invertedCache t).length

theorem rawWordsCache_spec (t : WordType) : ∃ cache, rawWordsCache t = .ok cache ∧ RawCacheSpec t cache := by
  have hfits : ∀ k ∈ invertedCache t, FitsSchema t.schema k := fun k h => invertedCache_fits h
  have huniq : ∀ (i j : Nat) (k k' : Key) (c : List Rec), (invertedCache t)[i]? = some k → (invertedCache t)[j]? = some k' →
      FullCombination t.schema c → Matches k c → Matches k' c → i = j := by
    intro i j k k' c hi hj _ hm hm'
    have := invertedCache_unique (List.mem_of_getElem? hi) (List.mem_of_getElem? hj) hm hm'
    subst this
    obtain ⟨hi1, hi2⟩ := List.getElem?_eq_some_iff.mp hi
    obtain ⟨hj1, hj2⟩ := List.getElem?_eq_some_iff.mp hj
    exact (List.Nodup.getElem_inj_iff (invertedCache_nodup t)).mp (hi2.trans hj2.symm)
  have hget := fun {c} hc {i} => @rawCacheExisting_get? _ _ hfits huniq c hc i
  have hne : Dict.keys (rawCacheExisting (invertedCache t) t.schema) ≠ [] := by
    cases hic : invertedCache t with
    | nil => exact absurd hic (invertedCache_ne_nil t)
    | cons k ks =>
      obtain ⟨c, hc, hm⟩ := invertedCache_matched (t := t) (k := k) (by simp [hic])
      have h0 := (hget hc (i := 0)).mpr ⟨k, by simp [hic], hm⟩
      rw [hic] at h0
      intro e
      have : (rawCacheExisting (k :: ks) t.schema).get? (c.map some) = none := Dict.get?_eq_none.mpr (by rw [e]; simp)
      rw [this] at h0; simp at h0
  obtain ⟨cache, h1, h2, h3, h4⟩ := rawCacheFill_foldlM (fullKeysGenerator t.schema) _ hne
  refine ⟨cache, h1, ?_, ?_, ?_⟩
  · intro i k c hi hc hm
    exact h2 _ _ ((hget hc).mpr ⟨k, hi, hm⟩)
  · intro c hc
    exact h3 _ (mem_fullKeys.mpr ⟨c, hc, rfl⟩)
  · intro k i hi
    obtain ⟨k0, hk0⟩ := h4 _ _ hi
    have := Dict.mem_of_get? hk0
    have hmem : (k0, i) ∈ (invertedCache t).zipIdx.flatMap fun ki => (rawKeysGenerator ki.1 t.schema).map fun rk => (rk, ki.2) := by
      rw [rawCacheExisting_eq] at hk0
      rw [Dict.get?_update] at hk0
      simp only [Dict.get?, Option.or_none] at hk0
      simpa using Dict.mem_of_get? hk0
    obtain ⟨k, hk, _⟩ := (rawCacheExisting_mem hfits).mp hmem
    exact (List.getElem?_eq_some_iff.mp hk).1

/-- The full combination a `Properties` object stands for, given a word type. -/
def comboOf (p : Properties) (schema : List Group) : List Rec := schema.filterMap p.get

theorem schema_not_wordType (t : WordType) : Group.WORD_TYPE ∉ t.schema := by cases t <;> decide

theorem getRawKey_eq {p : Properties} (hp : WFProps p) {schema : List Group} (h : Group.WORD_TYPE ∉ schema) :
    ∃ c, FullCombination schema c ∧ p.getRawKey schema = c.map some := by
  induction schema with
  | nil => exact ⟨[], List.Forall₂.nil, rfl⟩
  | cons g gs ih =>
    simp only [List.mem_cons, not_or] at h
    obtain ⟨c, h1, h2⟩ := ih h.2
    obtain ⟨r, hr, h3⟩ := get_mem_records hp (Ne.symm h.1)
    refine ⟨r :: c, List.Forall₂.cons hr h1, ?_⟩
    simp only [Properties.getRawKey, List.map_cons, h3] at h2 ⊢
    rw [h2]

theorem matches_of_forall₂ {p : Properties} {gs : List Group} {k : Key} {c : List Rec}
    (hk : List.Forall₂ (fun o g => o = none ∨ o = p.get g) k gs) (hc : FullCombination gs c)
    (hr : p.getRawKey gs = c.map some) : Matches k c := by
  induction hk generalizing c with
  | nil => cases hc; exact List.Forall₂.nil
  | cons h1 h2 ih =>
    cases hc with
    | cons hc1 hc2 =>
      simp only [Properties.getRawKey, List.map_cons, List.cons.injEq] at hr
      exact List.Forall₂.cons (by rcases h1 with h1 | h1; exact Or.inl h1; right; rw [h1, hr.1]) (ih hc2 hr.2)

/-- `_form` on a word with the right number of forms. -/
theorem formRaw_spec {w : Word} (hw : w.forms.length = (invertedCache w.type).length) {p : Properties} (hp : WFProps p) :
    ∃ (i : Nat) (f : Str), w.formRaw p = .ok f ∧ w.forms[i]? = some f ∧
      (∀ (j : Nat) (k : Key), (invertedCache w.type)[j]? = some k →
        List.Forall₂ (fun o g => o = none ∨ o = p.get g) k w.type.schema → i = j) := by
  obtain ⟨cache, hc, hs⟩ := rawWordsCache_spec w.type
  obtain ⟨c, hfull, hraw⟩ := getRawKey_eq hp (schema_not_wordType w.type)
  obtain ⟨i, hi⟩ := hs.total c hfull
  have hlt := hs.bound _ _ hi
  have hlt' : i < w.forms.length := by omega
  refine ⟨i, w.forms[i], ?_, by simp, ?_⟩
  · unfold Word.formRaw
    simp only [hc, bind, Except.bind, hraw, hi]
    simp [hlt']
  · intro j k hj hk
    have hm : Matches k c := matches_of_forall₂ hk hfull hraw
    have := hs.slot j k c hj hfull hm
    rw [hi] at this; injection this

theorem formRaw_congr {w : Word} {p q : Properties} (h : ∀ g ∈ w.type.schema, p.get g = q.get g) : w.formRaw p = w.formRaw q := by
  have : p.getRawKey w.type.schema = q.getRawKey w.type.schema := List.map_congr_left h
  unfold Word.formRaw; rw [this]

theorem formRaw_ok {w : Word} (hw : w.forms.length = (invertedCache w.type).length) {p : Properties} (hp : WFProps p) :
    ∃ f ∈ w.forms, w.formRaw p = .ok f := by
  obtain ⟨i, f, h1, h2, _⟩ := formRaw_spec hw hp
  exact ⟨f, List.mem_of_getElem? h2, h1⟩

end Utg
