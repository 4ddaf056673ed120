import Verif.Proofs.Ties
import Verif.Proofs.WordForms
/-! # Properties C20-C24, C63: `autofill_missed_forms` and `get_nearest_key` -/

namespace Utg
open Py Spec

/-- A noun of which only slots 1, 3 and 8 are present. -/
def exGaps : Word :=
  ⟨.NOUN, (List.range 18).map (fun i => if i = 1 ∨ i = 3 ∨ i = 8 then [Char.ofNat (97 + i)] else []), .new []⟩

theorem exGaps_accepted : Accepted exGaps :=
  ⟨exGaps.type, exGaps.forms, exGaps.properties, wf_empty, by decide +kernel⟩

/-- C20: autofill succeeds, keeps type, properties, the number of forms and every non-empty form. -/
theorem C20_keeps_present (w : Word) (hw : Accepted w) :
    ∃ w', w.autofillMissedForms = .ok w' ∧ w'.type = w.type ∧ w'.properties = w.properties ∧
      w'.forms.length = w.forms.length ∧
      ∀ (i : Nat) (f : Str), w.forms[i]? = some f → f ≠ [] → w'.forms[i]? = some f := by
  obtain ⟨_, h2⟩ := accepted_iff.mp hw
  obtain ⟨w', e, h3, h4, h5, h6⟩ := autofill_spec h2
  refine ⟨w', e, h3, h4, h5, ?_⟩
  intro i f hf hne
  rw [h6]; unfold filledForm; rw [hf]
  cases f with
  | nil => exact absurd rfl hne
  | cons c cs => rfl

example : Accepted exGaps ∧ (exGaps.autofillMissedForms).map Word.forms =
    .ok [str! "b", str! "b", str! "i", str! "d", str! "b", str! "b", str! "i", str! "b", str! "i", str! "d", str! "i", str! "i",
         str! "i", str! "b", str! "i", str! "d", str! "i", str! "i"] := ⟨exGaps_accepted, by decide +kernel⟩

/-- C21: every slot that was empty receives the text of a slot that was present, if there is one; otherwise nothing
changes. -/
theorem C21_completes (w w' : Word) (hw : Accepted w) (h : w.autofillMissedForms = .ok w') :
    ((∃ f ∈ w.forms, f ≠ []) → ∀ (i : Nat) (f : Str), w'.forms[i]? = some f → f ≠ [] ∧ f ∈ w.forms) ∧
    ((∀ f ∈ w.forms, f = []) → w' = w) := by
  obtain ⟨_, h2⟩ := accepted_iff.mp hw
  obtain ⟨w'', e, h3, h4, h5, h6⟩ := autofill_spec h2
  rw [h] at e; injection e with e; subst e
  constructor
  · rintro ⟨f0, hf0, hne0⟩ i f hf
    rw [h6] at hf
    unfold filledForm at hf
    split at hf
    · simp at hf
    · rename_i c cs hi
      injection hf with hf; subst hf
      exact ⟨by simp, List.mem_of_getElem? hi⟩
    · rename_i hi
      have hilt := (List.getElem?_eq_some_iff.mp hi).1
      rw [List.getElem?_eq_getElem (by omega)] at hf
      simp only at hf
      obtain ⟨j0, hj0⟩ := List.mem_iff_getElem?.mp hf0
      have hj0lt := (List.getElem?_eq_some_iff.mp hj0).1
      have hk0 : (invertedCache w.type)[j0]'(by omega) ∈ presentKeys w.type w.forms :=
        (mem_presentKeys h2).mpr ⟨j0, f0, hj0, hne0, by simp⟩
      cases hg : getNearestKey ((invertedCache w.type)[i]'(by omega)) (presentKeys w.type w.forms) with
      | none => rw [getNearestKey_eq_none] at hg; rw [hg] at hk0; simp at hk0
      | some nk =>
        obtain ⟨j, f', g1, _, g2, g3⟩ := nearest_slot h2 hg
        simp only [hg, g1, g2] at hf
        injection hf with hf; subst hf
        exact ⟨g3, List.mem_of_getElem? g2⟩
  · intro hall
    have hforms : w'.forms = w.forms := by
      apply List.ext_getElem?
      intro i
      rw [h6]; unfold filledForm
      have hpk : presentKeys w.type w.forms = [] := by
        rw [List.eq_nil_iff_forall_not_mem]
        intro k hk
        obtain ⟨i, f, hf, hne, _⟩ := (mem_presentKeys h2).mp hk
        exact hne (hall f (List.mem_of_getElem? hf))
      rw [hpk]
      cases hi : w.forms[i]? with
      | none => rfl
      | some f =>
        have := hall f (List.mem_of_getElem? hi)
        subst this
        simp only [getNearestKey_nil]
        cases (invertedCache w.type)[i]? <;> rfl
    cases w; cases w'; simp_all

/-- C21: a second call changes nothing. -/
theorem C21_idempotent (w w' : Word) (hw : Accepted w) (h : w.autofillMissedForms = .ok w') :
    w'.autofillMissedForms = .ok w' := by
  obtain ⟨h1, h2⟩ := accepted_iff.mp hw
  obtain ⟨w0, e0, t0, p0, l0, _⟩ := C20_keeps_present w hw
  rw [h] at e0; injection e0 with e0; subst e0
  have hw' : Accepted w' := accepted_iff.mpr ⟨p0 ▸ h1, by rw [l0, h2, t0]⟩
  obtain ⟨w'', e, t, p, l, keep⟩ := C20_keeps_present w' hw'
  rw [e]
  by_cases hex : ∃ f ∈ w.forms, f ≠ []
  · have hall := (C21_completes w w' hw h).1 hex
    have : w''.forms = w'.forms := by
      apply List.ext_getElem?
      intro i
      cases hi : w'.forms[i]? with
      | none => rw [List.getElem?_eq_none_iff] at hi ⊢; omega
      | some f => exact keep i f hi (hall i f hi).1
    cases w''; cases w'; simp_all
  · have hall : ∀ f ∈ w.forms, f = [] := by
      intro f hf; by_contra hne; exact hex ⟨f, hf, hne⟩
    have hww := (C21_completes w w' hw h).2 hall
    subst hww
    rw [h] at e; exact e.symm

/-- Slots in `presentKeys` are in increasing order. -/
theorem presentKeys_order {t : WordType} {forms : List Str} {pre post : List Key} {b : Key}
    (hp : presentKeys t forms = pre ++ b :: post) {k : Key} (hk : k ∈ post) {i j : Nat}
    (hb : (invertedCache t)[i]? = some b) (hk' : (invertedCache t)[j]? = some k) : i < j := by
  have hinj : ∀ (x y : Nat) (q : Key), (invertedCache t)[x]? = some q → (invertedCache t)[y]? = some q → x = y := by
    intro x y q hx hy
    obtain ⟨hx1, hx2⟩ := List.getElem?_eq_some_iff.mp hx
    obtain ⟨hy1, hy2⟩ := List.getElem?_eq_some_iff.mp hy
    exact (List.Nodup.getElem_inj_iff (invertedCache_nodup t)).mp (hx2.trans hy2.symm)
  have hpw : (presentKeys t forms).Pairwise fun k k' => ∀ i j : Nat, (invertedCache t)[i]? = some k →
      (invertedCache t)[j]? = some k' → i < j := by
    unfold presentKeys presentSlots
    rw [List.pairwise_filterMap]
    refine List.Pairwise.imp ?_ ((List.pairwise_lt_range).filter _)
    intro x y hxy q hq q' hq' i j hi hj
    rw [hinj i x q hi hq, hinj j y q' hj hq']
    exact hxy
  rw [hp, List.pairwise_append] at hpw
  have h2 := hpw.2.1
  rw [List.pairwise_cons] at h2
  exact h2.1 k hk i j hb hk'

/-- C22: a missing slot receives the text of the present slot whose key agrees with its own in the most positions; among
equal counts the larger sum of positions wins; among equal sums the lowest slot. -/
theorem C22_nearest_present (w w' : Word) (hw : Accepted w) (h : w.autofillMissedForms = .ok w') (ks : List (Option Key))
    (hks : Word.getKeys w.type = .ok ks) (i : Nat) (k : Key) (hi : w.forms[i]? = some []) (hk : ks[i]? = some (some k))
    (hex : ∃ f ∈ w.forms, f ≠ []) :
    ∃ (j : Nat) (kj : Key) (f : Str), ks[j]? = some (some kj) ∧ w.forms[j]? = some f ∧ f ≠ [] ∧ w'.forms[i]? = some f ∧
      ∀ (j' : Nat) (kj' : Key) (f' : Str), ks[j']? = some (some kj') → w.forms[j']? = some f' → f' ≠ [] →
        (matchedPositions k kj').length < (matchedPositions k kj).length ∨
        (matchedPositions k kj').length = (matchedPositions k kj).length ∧
          ((matchedPositions k kj').sum < (matchedPositions k kj).sum ∨
           (matchedPositions k kj').sum = (matchedPositions k kj).sum ∧ j ≤ j') := by
  obtain ⟨_, h2⟩ := accepted_iff.mp hw
  obtain ⟨w'', e, h3, h4, h5, h6⟩ := autofill_spec h2
  rw [h] at e; injection e with e; subst e
  rw [getKeys_eq] at hks; injection hks with hks; subst hks
  have hkey : ∀ (n : Nat) (q : Key), ((invertedCache w.type).map some)[n]? = some (some q) ↔ (invertedCache w.type)[n]? = some q := by
    intro n q; rw [List.getElem?_map]
    cases (invertedCache w.type)[n]? <;> simp
  rw [hkey] at hk
  have hlen : ∀ x ∈ invertedCache w.type, x.length ≤ 6 := by
    intro x hx
    have := (invertedCache_fits hx).length_eq
    have hn : w.type.schema.length ≤ 6 := by cases w.type <;> decide
    omega
  have hkl := hlen k (List.mem_of_getElem? hk)
  obtain ⟨f0, hf0, hne0⟩ := hex
  obtain ⟨j0, hj0⟩ := List.mem_iff_getElem?.mp hf0
  have hj0lt := (List.getElem?_eq_some_iff.mp hj0).1
  have hne : presentKeys w.type w.forms ≠ [] := by
    have : (invertedCache w.type)[j0]'(by omega) ∈ presentKeys w.type w.forms :=
      (mem_presentKeys h2).mpr ⟨j0, f0, hj0, hne0, by simp⟩
    intro e; rw [e] at this; simp at this
  obtain ⟨nk, pre, post, hg, hsplit, hpre, hpost⟩ := getNearestKey_spec k _ hne
  obtain ⟨j, f, g1, g1', g2, g3⟩ := nearest_slot h2 hg
  refine ⟨j, nk, f, (hkey j nk).mpr g1', g2, g3, ?_, ?_⟩
  · rw [h6]; unfold filledForm; rw [hi, hk]; simp only [hg, g1, g2]
  · intro j' kj' f' hk' hf' hne'
    rw [hkey] at hk'
    have hmem : kj' ∈ presentKeys w.type w.forms := (mem_presentKeys h2).mpr ⟨j', f', hf', hne', hk'⟩
    have hle := score_le_of_similarity_le (by omega) (getNearestKey_max hg kj' hmem)
    have s1 := score_eq k kj'
    have s2 := score_eq k nk
    have b1 := matchedPositions_sum_lt (key := k) (a := kj') (by omega)
    have b2 := matchedPositions_sum_lt (key := k) (a := nk) (by omega)
    by_cases hlt : score k kj' < score k nk
    · omega
    · have heq : score k kj' = score k nk := by omega
      have hj : j ≤ j' := by
        by_contra hjj
        rw [Nat.not_le] at hjj
        have hsim := similarity_tie (List.mem_of_getElem? hk) hk' g1' hjj heq
        rw [hsplit] at hmem
        rcases List.mem_append.mp hmem with hm | hm
        · have := hpre kj' hm; omega
        · rcases List.mem_cons.mp hm with rfl | hm
          · obtain ⟨hx1, hx2⟩ := List.getElem?_eq_some_iff.mp hk'
            obtain ⟨hy1, hy2⟩ := List.getElem?_eq_some_iff.mp g1'
            have := (List.Nodup.getElem_inj_iff (invertedCache_nodup w.type)).mp (hx2.trans hy2.symm)
            omega
          · have := presentKeys_order hsplit hm g1' hk'
            omega
      omega

example : Accepted exGaps ∧ exGaps.forms[9]? = some [] ∧ (∃ f ∈ exGaps.forms, f ≠ []) :=
  ⟨exGaps_accepted, by decide +kernel, ⟨str! "b", by decide +kernel, by decide⟩⟩

/-- C23: `None` only if there is nothing to choose from; otherwise the first available key of maximal similarity. -/
theorem C23_argmax (key : Key) (avail : List Key) :
    (getNearestKey key avail = none ↔ avail = []) ∧
    (avail ≠ [] → ∃ b pre post, getNearestKey key avail = some b ∧ avail = pre ++ b :: post ∧
      (∀ a ∈ pre, similarity key a < similarity key b) ∧ ∀ a ∈ post, similarity key a ≤ similarity key b) :=
  ⟨getNearestKey_eq_none, fun h => getNearestKey_spec key avail h⟩

/-- C23: an available key is returned unchanged (for keys up to 40 properties; the longest in the library has 6). -/
theorem C23_available_key (key : Key) (avail : List Key) (hlen : key.length ≤ 40) (hl : ∀ a ∈ avail, a.length = key.length)
    (hm : key ∈ avail) : getNearestKey key avail = some key := getNearestKey_self hlen hl hm

example : getNearestKey [some .NUMBER_PLURAL, some .CASE_DATIVE]
    [[some .NUMBER_SINGULAR, some .CASE_DATIVE], [some .NUMBER_PLURAL, some .CASE_GENITIVE], [some .NUMBER_SINGULAR, some .CASE_GENITIVE]] =
    some [some .NUMBER_SINGULAR, some .CASE_DATIVE] := by decide +kernel

/-- C24: float rounding never reverses a strict order of the exact sums of `1 + index / 100` (in hundredths: 100 per match
plus the sum of the matched positions), for keys up to 40 properties. -/
theorem C24_rounding_keeps_order (key a b : Key) (hlen : key.length ≤ 40)
    (h : 100 * (matchedPositions key a).length + (matchedPositions key a).sum <
      100 * (matchedPositions key b).length + (matchedPositions key b).sum) : similarity key a < similarity key b := by
  rw [← score_eq, ← score_eq] at h
  exact similarity_lt_of_score_lt hlen h

/-- C24: hence the chosen key has the most matching properties, and among those the largest sum of positions (for keys up to
13 properties). -/
theorem C24_more_matches_win (key b : Key) (avail : List Key) (hlen : key.length ≤ 13) (h : getNearestKey key avail = some b) :
    ∀ a ∈ avail, (matchedPositions key a).length < (matchedPositions key b).length ∨
      (matchedPositions key a).length = (matchedPositions key b).length ∧ (matchedPositions key a).sum ≤ (matchedPositions key b).sum := by
  intro a ha
  have hle := score_le_of_similarity_le (by omega) (getNearestKey_max h a ha)
  have s1 := score_eq key a
  have s2 := score_eq key b
  have b1 := matchedPositions_sum_lt (key := key) (a := a) hlen
  have b2 := matchedPositions_sum_lt (key := key) (a := b) hlen
  omega

example : (matchedPositions [some .NUMBER_PLURAL, none, some .CASE_DATIVE] [some .NUMBER_PLURAL, none, some .CASE_GENITIVE]) = [0, 1] := by
  decide +kernel

/-- C63, the part that holds: for keys of at most four properties exact ties go to the first available key. Missing: longer
keys, for which the claim is false of the code (`C63_violated`). -/
theorem C63_ties_first_partial (key b : Key) (pre post : List Key) (hlen : key.length ≤ 4)
    (hl : ∀ a ∈ pre ++ b :: post, a.length = key.length) (h : getNearestKey key (pre ++ b :: post) = some b) (hnb : b ∉ pre) :
    ∀ a ∈ pre, 100 * (matchedPositions key a).length + (matchedPositions key a).sum <
      100 * (matchedPositions key b).length + (matchedPositions key b).sum := by
  intro a ha
  rw [← score_eq, ← score_eq]
  obtain ⟨b', pre', post', h1, h2, h3, h4⟩ := getNearestKey_spec key (pre ++ b :: post) (by simp)
  rw [h] at h1; injection h1 with h1; subst h1
  have ham : a ∈ pre' := by
    rcases List.append_eq_append_iff.mp h2 with ⟨c, hc1, hc2⟩ | ⟨c, hc1, hc2⟩
    · rw [hc1]; exact List.mem_append_left _ ha
    · cases c with
      | nil => simp at hc1; rw [← hc1]; exact ha
      | cons x c =>
        simp only [List.cons_append, List.cons.injEq] at hc2
        rw [hc2.1] at hnb
        exact absurd (by rw [hc1]; simp) hnb
  have hlt := h3 a ham
  have hle : score key a ≤ score key b := score_le_of_similarity_le (by omega) (Nat.le_of_lt hlt)
  rcases Nat.lt_or_ge (score key a) (score key b) with hx | hx
  · exact hx
  · have := similarity_of_score_eq hlen (hl a (by simp [ha])) (hl b (by simp)) (by omega)
    omega

example : getNearestKey [some .NUMBER_PLURAL, some .CASE_DATIVE]
    ([] ++ [some .NUMBER_SINGULAR, some .CASE_DATIVE] :: [[some .NUMBER_PLURAL, some .CASE_GENITIVE]]) =
    some [some .NUMBER_SINGULAR, some .CASE_DATIVE] := by decide +kernel

/-- C63 is false of the code for longer keys: here the second of two keys with equal exact similarity (3.06) is returned,
because the rounded sums differ. -/
theorem C63_violated : ∃ key a b : Key, key.length = 5 ∧ a.length = 5 ∧ b.length = 5 ∧
    100 * (matchedPositions key a).length + (matchedPositions key a).sum =
      100 * (matchedPositions key b).length + (matchedPositions key b).sum ∧ a ≠ b ∧
    getNearestKey key [a, b] = some b := by
  refine ⟨[some .NUMBER_PLURAL, some .CASE_DATIVE, some .GENDER_NEUTER, some .TIME_PAST, some .PERSON_FIRST],
    [some .NUMBER_PLURAL, some .CASE_GENITIVE, some .GENDER_NEUTER, some .TIME_FUTURE, some .PERSON_FIRST],
    [some .NUMBER_SINGULAR, some .CASE_DATIVE, some .GENDER_NEUTER, some .TIME_PAST, some .PERSON_SECOND], ?_⟩
  decide +kernel

end Utg
