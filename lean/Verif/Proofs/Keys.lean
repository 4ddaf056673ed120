import Verif.Spec.Keys
import Verif.Model.Data
import Verif.Proofs.Properties
/-! # Lemmas about key generators (`utg/logic.py`) -/

namespace Utg
open Py Spec

theorem records_nodup (g : Group) : g.records.Nodup := by cases g <;> decide

theorem records_ne_nil (g : Group) : g.records ≠ [] := by cases g <;> decide

theorem isRestricted_iff {left : Key} {g : Group} {rs : Restrictions} :
    isRestricted left g rs = true ↔ ∃ r, some r ∈ left ∧ SwitchesOff rs r g := by
  simp only [isRestricted, List.any_eq_true]
  constructor
  · rintro ⟨o, ho, h⟩
    cases o with
    | none => simp at h
    | some r =>
      simp only at h
      cases h2 : rs.get? r with
      | none => rw [h2] at h; simp at h
      | some gs => rw [h2] at h; exact ⟨r, ho, gs, h2, by simpa using h⟩
  · rintro ⟨r, hr, gs, hgs, hg⟩
    exact ⟨some r, hr, by simp [hgs, hg]⟩

/-- The pattern of a combination, computed from left to right. -/
def patternFrom (rs : Restrictions) (left : Key) : List Group → List Rec → Key
  | g :: gs, r :: cs =>
    if isRestricted left g rs then none :: patternFrom rs (left ++ [none]) gs cs
    else some r :: patternFrom rs (left ++ [some r]) gs cs
  | _, _ => []

theorem patternFrom_length (rs : Restrictions) (left : Key) (gs : List Group) (c : List Rec) (h : c.length = gs.length) :
    (patternFrom rs left gs c).length = gs.length := by
  induction gs generalizing left c with
  | nil => cases c <;> simp [patternFrom]
  | cons g gs ih =>
    cases c with
    | nil => simp at h
    | cons r c =>
      simp only [List.length_cons, Nat.add_right_cancel_iff] at h
      simp only [patternFrom]; split <;> simp [ih _ c h]

/-- The generator yields a key iff it is the pattern of some full combination. -/
theorem mem_keysGenerator (rs : Restrictions) (left : Key) (gs : List Group) (k : Key) :
    k ∈ keysGenerator left gs rs ↔ ∃ c, FullCombination gs c ∧ k = patternFrom rs left gs c := by
  induction gs generalizing left k with
  | nil =>
    simp only [keysGenerator, List.mem_singleton]
    constructor
    · rintro rfl; exact ⟨[], .nil, rfl⟩
    · rintro ⟨c, hc, rfl⟩; simp [patternFrom]
  | cons g gs ih =>
    simp only [keysGenerator]
    by_cases hr : isRestricted left g rs = true
    · simp only [hr, if_true, List.mem_map]
      constructor
      · rintro ⟨t, ht, rfl⟩
        obtain ⟨c, hc, rfl⟩ := (ih _ t).mp ht
        obtain ⟨r, hrr⟩ := List.exists_mem_of_ne_nil _ (records_ne_nil g)
        exact ⟨r :: c, .cons hrr hc, by simp [patternFrom, hr]⟩
      · rintro ⟨c, hc, rfl⟩
        cases hc with
        | cons h1 h2 => exact ⟨_, (ih _ _).mpr ⟨_, h2, rfl⟩, by simp [patternFrom, hr]⟩
    · rw [if_neg hr]; simp only [List.mem_flatMap, List.mem_map]
      constructor
      · rintro ⟨r, hrr, t, ht, rfl⟩
        obtain ⟨c, hc, rfl⟩ := (ih _ t).mp ht
        exact ⟨r :: c, .cons hrr hc, by simp [patternFrom, hr]⟩
      · rintro ⟨c, hc, rfl⟩
        cases hc with
        | cons h1 h2 => exact ⟨_, h1, _, (ih _ _).mpr ⟨_, h2, rfl⟩, by simp [patternFrom, hr]⟩

theorem nodup_flatMap_cons {α : Type} (rs : List Rec) (f : Rec → List (List α)) (inj : Rec → α)
    (hinj : ∀ a b, inj a = inj b → a = b) (hrs : rs.Nodup) (hf : ∀ r, (f r).Nodup) :
    (rs.flatMap fun r => (f r).map fun t => inj r :: t).Nodup := by
  rw [List.nodup_flatMap]
  refine ⟨fun r _ => ?_, ?_⟩
  · exact (hf r).map (by intro a b h; simpa using h)
  · refine hrs.imp ?_
    intro a b hab x hx hy
    simp only [List.mem_map] at hx hy
    obtain ⟨t, _, rfl⟩ := hx
    obtain ⟨t', _, h⟩ := hy
    simp only [List.cons.injEq] at h
    exact hab (hinj _ _ h.1.symm)

theorem keysGenerator_nodup (rs : Restrictions) (left : Key) (gs : List Group) : (keysGenerator left gs rs).Nodup := by
  induction gs generalizing left with
  | nil => simp [keysGenerator]
  | cons g gs ih =>
    simp only [keysGenerator]
    split
    · exact (ih _).map (by intro a b h; simpa using h)
    · exact nodup_flatMap_cons _ _ some (by simp) (records_nodup g) (fun r => ih _)

/-- A combination's pattern matches it. -/
theorem patternFrom_matches (rs : Restrictions) (left : Key) (gs : List Group) (c : List Rec) (h : c.length = gs.length) :
    Matches (patternFrom rs left gs c) c := by
  induction gs generalizing left c with
  | nil => cases c with
    | nil => exact .nil
    | cons r c => simp at h
  | cons g gs ih =>
    cases c with
    | nil => simp at h
    | cons r c =>
      simp only [List.length_cons, Nat.add_right_cancel_iff] at h
      simp only [patternFrom]
      split
      · exact .cons (Or.inl rfl) (ih _ c h)
      · exact .cons (Or.inr rfl) (ih _ c h)

/-- Two combinations one pattern matches have that same pattern. -/
theorem patternFrom_unique (rs : Restrictions) (left : Key) (gs : List Group) (c c' : List Rec)
    (h : c.length = gs.length) (hm : Matches (patternFrom rs left gs c) c') :
    patternFrom rs left gs c = patternFrom rs left gs c' := by
  induction gs generalizing left c c' with
  | nil => cases c <;> cases c' <;> rfl
  | cons g gs ih =>
    cases c with
    | nil => simp at h
    | cons r c =>
      simp only [List.length_cons, Nat.add_right_cancel_iff] at h
      simp only [patternFrom] at hm
      split at hm
      · rename_i hr
        cases hm with
        | cons h1 h2 => simp only [patternFrom, hr, if_true, List.cons.injEq, true_and]; exact ih _ c _ h h2
      · rename_i hr
        cases hm with
        | cons h1 h2 =>
          simp at h1; subst h1
          simp only [patternFrom]; rw [if_neg hr, if_neg hr, ih _ c _ h h2]

/-- The computed pattern is the specified one. -/
theorem isPattern_patternFrom (rs : Restrictions) (schema : List Group) (c : List Rec) (h : c.length = schema.length) (k : Key) :
    IsPattern rs schema c k ↔ k = patternFrom rs [] schema c := by
  -- generalise over a processed prefix `left`
  suffices H : ∀ (gs : List Group) (c : List Rec) (left k : Key), c.length = gs.length →
      ((k.length = gs.length ∧ ∀ i g r, gs[i]? = some g → c[i]? = some r →
        (((∃ j r', j < i ∧ k[j]? = some (some r') ∧ SwitchesOff rs r' g) ∨ ∃ r', some r' ∈ left ∧ SwitchesOff rs r' g) →
          k[i]? = some none) ∧
        ((¬ ((∃ j r', j < i ∧ k[j]? = some (some r') ∧ SwitchesOff rs r' g) ∨ ∃ r', some r' ∈ left ∧ SwitchesOff rs r' g)) →
          k[i]? = some (some r))) ↔ k = patternFrom rs left gs c) by
    have := H schema c [] k h
    rw [← this]
    simp only [List.not_mem_nil, false_and, exists_false, or_false]
    unfold IsPattern
    constructor
    · rintro ⟨h1, _, h3⟩; exact ⟨h1, h3⟩
    · rintro ⟨h1, h3⟩; exact ⟨h1, h, h3⟩
  intro gs
  induction gs with
  | nil =>
    intro c left k hc
    constructor
    · rintro ⟨h1, _⟩; simp at h1; subst h1; simp [patternFrom]
    · rintro rfl; simp [patternFrom]
  | cons g gs ih =>
    intro c left k hc
    cases c with
    | nil => simp at hc
    | cons r c =>
      simp only [List.length_cons, Nat.add_right_cancel_iff] at hc
      cases k with
      | nil => simp only [patternFrom]; split <;> simp
      | cons o ks =>
        have shift : ∀ i g', (((∃ j r', j < i + 1 ∧ (o :: ks)[j]? = some (some r') ∧ SwitchesOff rs r' g') ∨
            ∃ r', some r' ∈ left ∧ SwitchesOff rs r' g') ↔
            ((∃ j r', j < i ∧ ks[j]? = some (some r') ∧ SwitchesOff rs r' g') ∨
            ∃ r', some r' ∈ left ++ [o] ∧ SwitchesOff rs r' g')) := by
          intro i g'
          constructor
          · rintro (⟨j, r', hj, hk, hs⟩ | ⟨r', hr', hs⟩)
            · cases j with
              | zero => simp at hk; subst hk; exact Or.inr ⟨r', by simp, hs⟩
              | succ j => exact Or.inl ⟨j, r', by omega, by simpa using hk, hs⟩
            · exact Or.inr ⟨r', by simp [hr'], hs⟩
          · rintro (⟨j, r', hj, hk, hs⟩ | ⟨r', hr', hs⟩)
            · exact Or.inl ⟨j + 1, r', by omega, by simpa using hk, hs⟩
            · rcases List.mem_append.mp hr' with h1 | h1
              · exact Or.inr ⟨r', h1, hs⟩
              · simp at h1; subst h1; exact Or.inl ⟨0, r', by omega, by simp, hs⟩
        have ih' := ih c (left ++ [o]) ks hc
        have hhead : (∃ j r', j < 0 ∧ (o :: ks)[j]? = some (some r') ∧ SwitchesOff rs r' g) ↔ False := by
          constructor
          · rintro ⟨j, _, hj, _⟩; omega
          · exact False.elim
        constructor
        · rintro ⟨h1, h2⟩
          have h0 := h2 0 g r (by simp) (by simp)
          rw [hhead] at h0
          simp only [false_or, List.getElem?_cons_zero, Option.some.injEq] at h0
          rw [← isRestricted_iff] at h0
          have htail := ih'.mp ⟨by simpa using h1, fun i g' r' hg' hr' => by
            have := h2 (i + 1) g' r' (by simpa using hg') (by simpa using hr')
            rw [shift] at this; simpa using this⟩
          simp only [patternFrom]
          split
          · rename_i hres
            have ho := h0.1 hres; subst ho; rw [htail]
          · rename_i hres
            have ho := h0.2 hres; subst ho; rw [htail]
        · intro hk
          have hcases : (isRestricted left g rs = true ∧ o = none ∨ ¬ isRestricted left g rs = true ∧ o = some r) ∧
              ks = patternFrom rs (left ++ [o]) gs c := by
            simp only [patternFrom] at hk
            split at hk
            · rename_i hres; simp at hk; obtain ⟨rfl, rfl⟩ := hk; exact ⟨Or.inl ⟨hres, rfl⟩, rfl⟩
            · rename_i hres; simp at hk; obtain ⟨rfl, rfl⟩ := hk; exact ⟨Or.inr ⟨hres, rfl⟩, rfl⟩
          obtain ⟨hcs, htail⟩ := hcases
          obtain ⟨ht1, ht2⟩ := ih'.mpr htail
          refine ⟨by simp [ht1], fun i g' r' hg' hr' => ?_⟩
          cases i with
          | zero =>
            simp only [List.getElem?_cons_zero, Option.some.injEq] at hg' hr'
            subst hg'; subst hr'
            rw [hhead]
            simp only [false_or, List.getElem?_cons_zero, Option.some.injEq]
            rw [← isRestricted_iff]
            rcases hcs with ⟨h1, h2⟩ | ⟨h1, h2⟩
            · exact ⟨fun _ => h2, fun h => absurd h1 h⟩
            · exact ⟨fun h => absurd h h1, fun _ => h2⟩
          | succ i =>
            rw [shift]
            have := ht2 i g' r' (by simpa using hg') (by simpa using hr')
            simpa using this

theorem containsPart_iff {part : List Rec} {k : Key} : containsPart part k = true ↔ ContainsPart part k := by
  simp [containsPart, ContainsPart]

theorem mem_restrictedKeys {left : Key} {gs : List Group} {rs : Restrictions} {parts : List (List Rec)} {k : Key} :
    k ∈ restrictedKeysGenerator left gs rs parts ↔
      k ∈ keysGenerator left gs rs ∧ ∀ part ∈ parts, ¬ ContainsPart part k := by
  simp only [restrictedKeysGenerator, List.mem_filter, Bool.not_eq_true', List.any_eq_false]
  constructor
  · rintro ⟨h1, h2⟩; exact ⟨h1, fun p hp hc => h2 p hp (containsPart_iff.mpr hc)⟩
  · rintro ⟨h1, h2⟩; exact ⟨h1, fun p hp hc => h2 p hp (containsPart_iff.mp hc)⟩

theorem restrictedKeys_nodup (left : Key) (gs : List Group) (rs : Restrictions) (parts : List (List Rec)) :
    (restrictedKeysGenerator left gs rs parts).Nodup := (keysGenerator_nodup rs left gs).filter _

/-! ## Caches -/

/-- `cache[key] = i` for consecutive keys. -/
theorem foldl_set_zipIdx_aux (ks : List Key) (n : Nat) (d : Dict Key Nat) (h : (Dict.keys d ++ ks).Nodup) :
    (ks.zipIdx n).foldl (fun d ki => d.set ki.1 ki.2) d = d ++ ks.zipIdx n := by
  induction ks generalizing n d with
  | nil => simp
  | cons k ks ih =>
    have hk : k ∉ Dict.keys d := by
      intro hm; exact (List.nodup_append.mp h).2.2 k hm k (by simp) rfl
    have hset : ∀ d : Dict Key Nat, k ∉ Dict.keys d → Dict.set d k n = d ++ [(k, n)] := by
      intro d hk
      induction d with
      | nil => rfl
      | cons x d ih =>
        obtain ⟨a, b⟩ := x
        simp only [Dict.keys, List.map_cons, List.mem_cons, not_or] at hk
        have h1 : ¬ a = k := fun e => hk.1 e.symm
        simp only [Dict.set, h1, if_false, List.cons_append]
        rw [ih hk.2]
    rw [List.zipIdx_cons, List.foldl_cons, hset d hk, ih]
    · simp
    · simpa [Dict.keys] using h

theorem getCache_fst (schema : List Group) (rs : Restrictions) (parts : List (List Rec)) :
    (getCache schema rs parts).1 = ((getCache schema rs parts).2).zipIdx := by
  unfold getCache
  simp only
  rw [foldl_set_zipIdx_aux]
  · simp
  · simpa [Dict.keys] using restrictedKeys_nodup [] schema rs parts

theorem getCache_snd_nodup (schema : List Group) (rs : Restrictions) (parts : List (List Rec)) :
    (getCache schema rs parts).2.Nodup := restrictedKeys_nodup _ _ _ _

theorem keys_zipIdx (ks : List Key) (n : Nat) : Dict.keys (ks.zipIdx n) = ks := by
  simp [Dict.keys, List.zipIdx_map_fst]

theorem get?_zipIdx {ks : List Key} (h : ks.Nodup) {k : Key} {i : Nat} :
    Dict.get? (ks.zipIdx) k = some i ↔ ks[i]? = some k := by
  rw [← Dict.mem_iff_get? (by rw [keys_zipIdx]; exact h), List.mem_zipIdx_iff_getElem?]

theorem wordsCache_eq (t : WordType) : wordsCache t = (invertedCache t).zipIdx := getCache_fst _ _ _

theorem invertedCache_nodup (t : WordType) : (invertedCache t).Nodup := getCache_snd_nodup _ _ _

theorem wordsCache_length (t : WordType) : (wordsCache t).length = (invertedCache t).length := by
  rw [wordsCache_eq]; simp

theorem wordsCache_get? {t : WordType} {k : Key} {i : Nat} :
    (wordsCache t).get? k = some i ↔ (invertedCache t)[i]? = some k := by
  rw [wordsCache_eq, get?_zipIdx (invertedCache_nodup t)]

/-! ## Raw keys -/

theorem mem_fullKeys {schema : List Group} {k : Key} :
    k ∈ fullKeysGenerator schema ↔ ∃ c, FullCombination schema c ∧ k = c.map some := by
  induction schema generalizing k with
  | nil =>
    simp only [fullKeysGenerator, List.mem_singleton]
    constructor
    · rintro rfl; exact ⟨[], .nil, rfl⟩
    · rintro ⟨c, hc, rfl⟩; cases hc; rfl
  | cons g gs ih =>
    simp only [fullKeysGenerator, List.mem_flatMap, List.mem_map]
    constructor
    · rintro ⟨r, hr, t, ht, rfl⟩
      obtain ⟨c, hc, rfl⟩ := ih.mp ht
      exact ⟨r :: c, .cons hr hc, rfl⟩
    · rintro ⟨c, hc, rfl⟩
      cases hc with
      | cons h1 h2 => exact ⟨_, h1, _, ih.mpr ⟨_, h2, rfl⟩, rfl⟩

/-- Keys that fit a schema: each position open or a record of its group. -/
def FitsSchema (schema : List Group) (k : Key) : Prop := List.Forall₂ (fun o g => ∀ r, o = some r → r ∈ g.records) k schema

theorem patternFrom_fits {rs : Restrictions} {left : Key} {gs : List Group} {c : List Rec} (h : FullCombination gs c) :
    FitsSchema gs (patternFrom rs left gs c) := by
  induction h generalizing left with
  | nil => simp only [patternFrom]; exact .nil
  | cons h1 h2 ih =>
    simp only [patternFrom]
    split
    · exact .cons (by simp) ih
    · exact .cons (by rintro r ⟨⟩; exact h1) ih

theorem mem_rawKeys {schema : List Group} {k : Key} (hk : FitsSchema schema k) {raw : Key} :
    raw ∈ rawKeysGenerator k schema ↔ ∃ c, FullCombination schema c ∧ Matches k c ∧ raw = c.map some := by
  induction hk generalizing raw with
  | nil =>
    simp only [rawKeysGenerator, List.mem_singleton]
    constructor
    · rintro rfl; exact ⟨[], .nil, .nil, rfl⟩
    · rintro ⟨c, hc, _, rfl⟩; cases hc; rfl
  | @cons o g ks gs h1 h2 ih =>
    cases o with
    | some r =>
      simp only [rawKeysGenerator, List.mem_map]
      constructor
      · rintro ⟨t, ht, rfl⟩
        obtain ⟨c, hc, hm, rfl⟩ := ih.mp ht
        exact ⟨r :: c, .cons (h1 r rfl) hc, .cons (Or.inr rfl) hm, rfl⟩
      · rintro ⟨c, hc, hm, rfl⟩
        cases hc with
        | cons h3 h4 => cases hm with
          | cons h5 h6 =>
            simp at h5; subst h5
            exact ⟨_, ih.mpr ⟨_, h4, h6, rfl⟩, rfl⟩
    | none =>
      simp only [rawKeysGenerator, List.mem_flatMap, List.mem_map]
      constructor
      · rintro ⟨r, hr, t, ht, rfl⟩
        obtain ⟨c, hc, hm, rfl⟩ := ih.mp ht
        exact ⟨r :: c, .cons hr hc, .cons (Or.inl rfl) hm, rfl⟩
      · rintro ⟨c, hc, hm, rfl⟩
        cases hc with
        | cons h3 h4 => cases hm with
          | cons h5 h6 => exact ⟨_, h3, _, ih.mpr ⟨_, h4, h6, rfl⟩, rfl⟩

theorem rawCacheExisting_eq (keys : List Key) (schema : List Group) : rawCacheExisting keys schema =
    Dict.update [] (keys.zipIdx.flatMap fun ki => (rawKeysGenerator ki.1 schema).map fun rk => (rk, ki.2)) := rfl

theorem get?_of_mem_functional {K V : Type} [DecidableEq K] {d : Dict K V} {k : K} {v : V} (h : (k, v) ∈ d)
    (hf : ∀ v', (k, v') ∈ d → v' = v) : d.get? k = some v := by
  cases h2 : d.get? k with
  | none => rw [Dict.get?_eq_none] at h2; exact absurd (List.mem_map_of_mem (f := Prod.fst) h) h2
  | some v' => rw [hf v' (Dict.mem_of_get? h2)]

theorem rawCacheExisting_mem {keys : List Key} {schema : List Group} (hk : ∀ k ∈ keys, FitsSchema schema k)
    {raw : Key} {i : Nat} :
    (raw, i) ∈ (keys.zipIdx.flatMap fun ki => (rawKeysGenerator ki.1 schema).map fun rk => (rk, ki.2)) ↔
      ∃ k, keys[i]? = some k ∧ ∃ c, FullCombination schema c ∧ Matches k c ∧ raw = c.map some := by
  simp only [List.mem_flatMap, List.mem_map, Prod.mk.injEq]
  constructor
  · rintro ⟨⟨k, j⟩, hkj, rk, hrk, rfl, rfl⟩
    rw [List.mem_zipIdx_iff_getElem?] at hkj
    exact ⟨k, hkj, (mem_rawKeys (hk k (List.mem_of_getElem? hkj))).mp hrk⟩
  · rintro ⟨k, hki, hc⟩
    exact ⟨(k, i), List.mem_zipIdx_iff_getElem?.mpr hki, raw,
      (mem_rawKeys (hk k (List.mem_of_getElem? hki))).mpr hc, rfl, rfl⟩

theorem map_some_injective {c c' : List Rec} (h : c.map some = c'.map some) : c = c' :=
  List.map_injective_iff.mpr (fun _ _ h => Option.some.inj h) h

/-- The first phase of the raw cache: a combination is mapped to `i` iff the key of slot `i` matches it. -/
theorem rawCacheExisting_get? {keys : List Key} {schema : List Group} (hk : ∀ k ∈ keys, FitsSchema schema k)
    (huniq : ∀ (i j : Nat) (k k' : Key) (c : List Rec), keys[i]? = some k → keys[j]? = some k' → FullCombination schema c → Matches k c → Matches k' c → i = j)
    {c : List Rec} (hc : FullCombination schema c) {i : Nat} :
    (rawCacheExisting keys schema).get? (c.map some) = some i ↔ ∃ k, keys[i]? = some k ∧ Matches k c := by
  rw [rawCacheExisting_eq, Dict.get?_update]
  simp only [Dict.get?_nil, Option.or_none]
  constructor
  · intro h
    have hm := Dict.mem_of_get? h
    rw [List.mem_reverse, rawCacheExisting_mem hk] at hm
    obtain ⟨k, hki, c', hc', hm', he⟩ := hm
    have := map_some_injective he; subst this
    exact ⟨k, hki, hm'⟩
  · rintro ⟨k, hki, hm⟩
    apply get?_of_mem_functional
    · rw [List.mem_reverse, rawCacheExisting_mem hk]; exact ⟨k, hki, c, hc, hm, rfl⟩
    · intro j hj
      rw [List.mem_reverse, rawCacheExisting_mem hk] at hj
      obtain ⟨k', hk', c', hc', hm', he⟩ := hj
      have := map_some_injective he; subst this
      exact huniq j i k' k c hk' hki hc hm' hm

end Utg
