import Verif.Props.Words
import Verif.Props.Autofill
/-!
# C112: the tables for any schema and any restrictions

`get_caches` and `get_raw_caches` take their tables as arguments. C01 to C07 are about the tables the library has; here is what holds
for every other choice of schema, restrictions and forbidden parts.
-/

namespace Utg
open Py Spec

/-- One step of the second loop, with what it chooses. -/
theorem rawCacheFill_nearest (c : Dict Key Nat) (k : Key) (h : Dict.keys c ≠ []) (hk : k.length ≤ 13) :
    ∃ c', rawCacheFill c k = .ok c' ∧ (∀ k' v, c.get? k' = some v → c'.get? k' = some v) ∧
      (∀ k', k' ∈ Dict.keys c' ↔ k' = k ∨ k' ∈ Dict.keys c) ∧
      (c.get? k = none → ∃ b v, b ≠ k ∧ c.get? b = some v ∧ c'.get? k = some v ∧
        ∀ a ∈ Dict.keys c, (matchedPositions k a).length < (matchedPositions k b).length ∨
          (matchedPositions k a).length = (matchedPositions k b).length ∧ (matchedPositions k a).sum ≤ (matchedPositions k b).sum) := by
  unfold rawCacheFill
  cases hc : c.contains k with
  | true =>
    have hs : ∃ v, c.get? k = some v := by simpa [Dict.contains, Option.isSome_iff_exists] using hc
    have hin : k ∈ Dict.keys c := by
      by_contra hno
      rw [Dict.get?_eq_none.mpr hno] at hs
      simp at hs
    refine ⟨c, rfl, fun _ _ h => h, fun k' => ⟨.inr, ?_⟩, fun hn => ?_⟩
    · rintro (rfl | h')
      · exact hin
      · exact h'
    · rw [hn] at hs; simp at hs
  | false =>
    obtain ⟨b, _, _, h1, _⟩ := getNearestKey_spec k c.keys h
    have hm := getNearestKey_mem h1
    obtain ⟨i, hi⟩ : ∃ i, c.get? b = some i := by
      cases hg : c.get? b with
      | none => exact absurd hm (Dict.get?_eq_none.mp hg)
      | some i => exact ⟨i, rfl⟩
    have hn : c.get? k = none := by simpa [Dict.contains] using hc
    refine ⟨c.set k i, by simp [h1, hi], ?_, fun k' => Dict.mem_keys_set, fun _ => ⟨b, i, ?_, hi, by simp [Dict.get?_set], ?_⟩⟩
    · intro k' v hk'
      rw [Dict.get?_set, if_neg, hk']
      rintro rfl; rw [hn] at hk'; simp at hk'
    · rintro rfl; rw [hn] at hi; simp at hi
    · exact C24_more_matches_win k b _ hk h1

/-- The second loop. -/
theorem rawCacheFill_all (ks : List Key) (hks : ∀ k ∈ ks, k.length ≤ 13) : ∀ (c : Dict Key Nat), Dict.keys c ≠ [] →
    ∃ c', ks.foldlM rawCacheFill c = .ok c' ∧ (∀ k' v, c.get? k' = some v → c'.get? k' = some v) ∧
      (∀ k', k' ∈ Dict.keys c' ↔ k' ∈ ks ∨ k' ∈ Dict.keys c) ∧
      ∀ k ∈ ks, c.get? k = none → ∃ b v, b ≠ k ∧ c'.get? b = some v ∧ c'.get? k = some v ∧
        ∀ a ∈ Dict.keys c, (matchedPositions k a).length < (matchedPositions k b).length ∨
          (matchedPositions k a).length = (matchedPositions k b).length ∧ (matchedPositions k a).sum ≤ (matchedPositions k b).sum := by
  induction ks with
  | nil => intro c _; exact ⟨c, rfl, fun _ _ h => h, by simp, by simp⟩
  | cons k ks ih =>
    intro c h
    obtain ⟨c1, e1, h1, h2, h3⟩ := rawCacheFill_nearest c k h (hks k (by simp))
    have hne : Dict.keys c1 ≠ [] := by
      intro e
      have : k ∈ Dict.keys c1 := (h2 k).mpr (.inl rfl)
      rw [e] at this; simp at this
    obtain ⟨c2, e2, g1, g2, g3⟩ := ih (fun k' hk' => hks k' (by simp [hk'])) c1 hne
    refine ⟨c2, by rw [List.foldlM_cons, e1]; exact e2, fun k' v hv => g1 _ _ (h1 _ _ hv), ?_, ?_⟩
    · intro k'
      rw [g2, h2, List.mem_cons]
      tauto
    · intro k' hk' hn
      rcases eq_or_ne k' k with rfl | hkk
      · obtain ⟨b, v, hb, b1, b2, b3⟩ := h3 hn
        exact ⟨b, v, hb, g1 _ _ (h1 _ _ b1), g1 _ _ b2, b3⟩
      · have hmem : k' ∈ ks := by simpa [hkk] using hk'
        have hn1 : c1.get? k' = none := by
          rw [Dict.get?_eq_none] at hn ⊢
          rw [h2]
          simp [hkk, hn]
        obtain ⟨b, v, hb, b1, b2, b3⟩ := g3 k' hmem hn1
        exact ⟨b, v, hb, b1, b2, fun a ha => b3 a ((h2 a).mpr (.inr ha))⟩

theorem getCache_fits {schema : List Group} {rs : Restrictions} {parts : List (List Rec)} {k : Key}
    (h : k ∈ (getCache schema rs parts).2) : FitsSchema schema k := by
  obtain ⟨c, hc, rfl⟩ := (mem_keysGenerator rs [] schema k).mp (mem_restrictedKeys.mp h).1
  exact patternFrom_fits hc

theorem getCache_index {schema : List Group} {rs : Restrictions} {parts : List (List Rec)} (i j : Nat) (k k' : Key) (c : List Rec)
    (hi : (getCache schema rs parts).2[i]? = some k) (hj : (getCache schema rs parts).2[j]? = some k')
    (_hc : FullCombination schema c) (hm : Matches k c) (hm' : Matches k' c) : i = j := by
  have := C03_slots_disjoint schema rs parts c k k' (List.mem_of_getElem? hi) (List.mem_of_getElem? hj) hm hm'
  subst this
  obtain ⟨hi1, hi2⟩ := List.getElem?_eq_some_iff.mp hi
  obtain ⟨hj1, hj2⟩ := List.getElem?_eq_some_iff.mp hj
  exact (List.Nodup.getElem_inj_iff (getCache_snd_nodup schema rs parts)).mp (hi2.trans hj2.symm)

/-- C112: for every schema (of up to 13 properties), restriction table and list of forbidden parts that leave a slot, the lookup table is
built without error and gives every full combination, and nothing else, the number of a slot: the slot that matches it if there is one, and
otherwise the one given to another combination, which agrees with it at least as well as any that matches a slot. -/
theorem C112_lookup_table (schema : List Group) (rs : Restrictions) (parts : List (List Rec)) (hlen : schema.length ≤ 13)
    (hne : (getCache schema rs parts).2 ≠ []) :
    ∃ cache, getRawCache (getCache schema rs parts).2 schema = .ok cache ∧
      (∀ k, (∃ i, cache.get? k = some i) ↔ ∃ c, FullCombination schema c ∧ k = c.map some) ∧
      (∀ k i, cache.get? k = some i → i < (getCache schema rs parts).2.length) ∧
      (∀ c, FullCombination schema c → ∀ (i : Nat) (k : Key), (getCache schema rs parts).2[i]? = some k → Matches k c →
        cache.get? (c.map some) = some i) ∧
      ∀ c, FullCombination schema c → (∀ k ∈ (getCache schema rs parts).2, ¬ Matches k c) →
        ∃ b i, FullCombination schema b ∧ b ≠ c ∧ cache.get? (b.map some) = some i ∧ cache.get? (c.map some) = some i ∧
          ∀ a, FullCombination schema a → (∃ k ∈ (getCache schema rs parts).2, Matches k a) →
            (matchedPositions (c.map some) (a.map some)).length < (matchedPositions (c.map some) (b.map some)).length ∨
            (matchedPositions (c.map some) (a.map some)).length = (matchedPositions (c.map some) (b.map some)).length ∧
              (matchedPositions (c.map some) (a.map some)).sum ≤ (matchedPositions (c.map some) (b.map some)).sum := by
  have hfits : ∀ k ∈ (getCache schema rs parts).2, FitsSchema schema k := fun k h => getCache_fits h
  have hget := fun {c} hc {i} => @rawCacheExisting_get? _ _ hfits getCache_index c hc i
  have hmem : ∀ k i, (rawCacheExisting (getCache schema rs parts).2 schema).get? k = some i →
      i < (getCache schema rs parts).2.length ∧ ∃ c, FullCombination schema c ∧ k = c.map some := by
    intro k i hk
    have : (k, i) ∈ (getCache schema rs parts).2.zipIdx.flatMap fun ki => (rawKeysGenerator ki.1 schema).map fun rk => (rk, ki.2) := by
      rw [rawCacheExisting_eq, Dict.get?_update] at hk
      simp only [Dict.get?, Option.or_none] at hk
      simpa using Dict.mem_of_get? hk
    obtain ⟨k', h1, h2⟩ := (rawCacheExisting_mem hfits).mp this
    exact ⟨(List.getElem?_eq_some_iff.mp h1).1, by grind⟩
  have hkeys : Dict.keys (rawCacheExisting (getCache schema rs parts).2 schema) ≠ [] := by
    obtain ⟨k, ks, hic⟩ := List.exists_cons_of_ne_nil hne
    have hk : k ∈ (getCache schema rs parts).2 := by simp [hic]
    obtain ⟨d, hd, hp⟩ := (mem_keysGenerator rs [] schema k).mp (mem_restrictedKeys.mp hk).1
    have hm : Matches k d := by rw [hp]; exact patternFrom_matches _ _ _ _ (fullCombination_length hd)
    have h0 := (hget hd (i := 0)).mpr ⟨k, by simp [hic], hm⟩
    intro e
    have : (rawCacheExisting (getCache schema rs parts).2 schema).get? (d.map some) = none := Dict.get?_eq_none.mpr (by rw [e]; simp)
    rw [this] at h0; simp at h0
  have hfl : ∀ k ∈ fullKeysGenerator schema, k.length ≤ 13 := by
    intro k hk
    obtain ⟨c, hc, rfl⟩ := mem_fullKeys.mp hk
    rw [List.length_map, fullCombination_length hc]
    exact hlen
  obtain ⟨cache, h1, h2, h3, h4⟩ := rawCacheFill_all (fullKeysGenerator schema) hfl _ hkeys
  obtain ⟨cache', h1', _, _, h5⟩ := rawCacheFill_foldlM (fullKeysGenerator schema) _ hkeys
  rw [h1] at h1'
  injection h1' with h1'; subst h1'
  have hall : ∀ k, k ∈ Dict.keys cache ↔ ∃ c, FullCombination schema c ∧ k = c.map some := by
    intro k
    rw [h3]
    constructor
    · rintro (h | h)
      · exact mem_fullKeys.mp h
      · cases hg : (rawCacheExisting (getCache schema rs parts).2 schema).get? k with
        | none => exact absurd h (Dict.get?_eq_none.mp hg)
        | some i => exact (hmem k i hg).2
    · exact fun h => .inl (mem_fullKeys.mpr h)
  have hsome : ∀ k, (∃ i, cache.get? k = some i) ↔ k ∈ Dict.keys cache := by
    intro k
    have := Dict.get?_eq_none (d := cache) (k := k)
    cases hg : cache.get? k with
    | none => simpa using this.mp hg
    | some i =>
      rw [hg] at this
      simpa using this
  refine ⟨cache, h1, fun k => (hsome k).trans (hall k), ?_, ?_, ?_⟩
  · intro k i hi
    obtain ⟨k0, hk0⟩ := h5 _ _ hi
    exact (hmem _ _ hk0).1
  · intro c hc i k hi hm
    exact h2 _ _ ((hget hc).mpr ⟨k, hi, hm⟩)
  · intro c hc hno
    have hn : (rawCacheExisting (getCache schema rs parts).2 schema).get? (c.map some) = none := by
      cases hg : (rawCacheExisting (getCache schema rs parts).2 schema).get? (c.map some) with
      | none => rfl
      | some i =>
        obtain ⟨k, hk, hm⟩ := (hget hc).mp hg
        exact absurd hm (hno k (List.mem_of_getElem? hk))
    obtain ⟨b, v, hb, b1, b2, b3⟩ := h4 (c.map some) (mem_fullKeys.mpr ⟨c, hc, rfl⟩) hn
    obtain ⟨b', hb', rfl⟩ := (hall b).mp ((hsome b).mp ⟨v, b1⟩)
    refine ⟨b', v, hb', by rintro rfl; exact hb rfl, b1, b2, ?_⟩
    rintro a ha ⟨k, hk, hm⟩
    refine b3 _ ?_
    obtain ⟨i, hi⟩ := List.getElem?_of_mem hk
    have := (hget ha).mpr ⟨k, hi, hm⟩
    by_contra hcon
    rw [Dict.get?_eq_none.mpr hcon] at this
    simp at this

/-- C112: if the forbidden parts leave no slot, building the lookup table raises `KeyError`. -/
theorem C112_no_slots (schema : List Group) (rs : Restrictions) (parts : List (List Rec)) (h : (getCache schema rs parts).2 = []) :
    getRawCache (getCache schema rs parts).2 schema = .error .KeyError := by
  have hne : fullKeysGenerator schema ≠ [] := by
    clear h
    induction schema with
    | nil => simp [fullKeysGenerator]
    | cons g gs ih =>
      obtain ⟨r, rest, hr⟩ := List.exists_cons_of_ne_nil (records_ne_nil g)
      simp [fullKeysGenerator, hr, ih]
  obtain ⟨k, ks, hk⟩ := List.exists_cons_of_ne_nil hne
  rw [h, getRawCache, hk]
  rfl

/-- The table of the noun, and one with an excluded combination: a countable singular goes to the normal singular. -/
example : (getCache WordType.NOUN.schema (RESTRICTIONS .NOUN) (RESTRICTED_KEY_PARTS .NOUN)).2 ≠ [] ∧ WordType.NOUN.schema.length ≤ 13 :=
  ⟨by decide +kernel, by decide⟩

/-- A table of no word type: two properties, the second switched off in the plural, and the dative forbidden. -/
example : ∃ cache, getRawCache (getCache [.NUMBER, .CASE] [(.NUMBER_PLURAL, [.CASE])] [[.CASE_DATIVE]]).2 [.NUMBER, .CASE] = .ok cache ∧
    (getCache [.NUMBER, .CASE] [(.NUMBER_PLURAL, [.CASE])] [[.CASE_DATIVE]]).2.length = 6 ∧
    cache.get? [some .NUMBER_PLURAL, some .CASE_DATIVE] = some 5 ∧ cache.get? [some .NUMBER_SINGULAR, some .CASE_DATIVE] = some 5 := by
  refine ⟨_, rfl, ?_⟩
  decide +kernel

/-- Forbidding everything. -/
example : (getCache [.NUMBER] [] [[.NUMBER_PLURAL], [.NUMBER_SINGULAR]]).2 = [] := by decide +kernel

end Utg
