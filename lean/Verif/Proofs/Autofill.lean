import Verif.Proofs.Words
/-! # Lemmas about similarity scores and `autofill_missed_forms` -/

namespace Utg
open Py Spec

/-! ## Exact scores and matched positions -/

/-- Which positions match. -/
def matchBits : Key → Key → List Bool
  | k :: ks, a :: as => decide (k = a) :: matchBits ks as
  | _, _ => []

def bitsScore (i : Nat) : List Bool → Nat
  | [] => 0
  | b :: bs => (if b then 100 + i else 0) + bitsScore (i + 1) bs

def bitsSim (i acc : Nat) : List Bool → Nat
  | [] => acc
  | b :: bs => bitsSim (i + 1) (if b then F64.add acc (simTerm i) else acc) bs

theorem scoreFrom_bits (i : Nat) (key a : Key) : scoreFrom i key a = bitsScore i (matchBits key a) := by
  induction key generalizing i a with
  | nil => simp [scoreFrom, matchBits, bitsScore]
  | cons k ks ih => cases a with
    | nil => simp [scoreFrom, matchBits, bitsScore]
    | cons x xs => simp [scoreFrom, matchBits, bitsScore, ih]

theorem similarityFrom_bits (i acc : Nat) (key a : Key) : similarityFrom i acc key a = bitsSim i acc (matchBits key a) := by
  induction key generalizing i acc a with
  | nil => simp [similarityFrom, matchBits, bitsSim]
  | cons k ks ih => cases a with
    | nil => simp [similarityFrom, matchBits, bitsSim]
    | cons x xs => simp [similarityFrom, matchBits, bitsSim, ih]

theorem matchBits_length (key a : Key) : (matchBits key a).length = min key.length a.length := by
  induction key generalizing a with
  | nil => simp [matchBits]
  | cons k ks ih => cases a with
    | nil => simp [matchBits]
    | cons x xs => simp [matchBits, ih]

/-- Positions of the true bits. -/
def bitPositions (bs : List Bool) : List Nat := (List.range bs.length).filter fun i => bs[i]? = some true

theorem matchedPositions_bits (key a : Key) : matchedPositions key a = bitPositions (matchBits key a) := by
  unfold matchedPositions bitPositions
  rw [matchBits_length]
  apply List.filter_congr
  intro i hi
  simp only [List.mem_range] at hi
  apply decide_eq_decide.mpr
  clear * - hi
  induction key generalizing a i with
  | nil => simp at hi
  | cons k ks ih => cases a with
    | nil => simp at hi
    | cons x xs => cases i with
      | zero => simp [matchBits]
      | succ i => simp only [matchBits, List.getElem?_cons_succ]; exact ih xs i (by simp at hi ⊢; omega)

theorem bitPositions_cons (b : Bool) (bs : List Bool) :
    bitPositions (b :: bs) = (if b then [0] else []) ++ (bitPositions bs).map (· + 1) := by
  unfold bitPositions
  rw [List.length_cons, List.range_succ_eq_map, List.filter_cons, List.filter_map]
  simp only [List.getElem?_cons_zero]
  have : ((fun i => decide ((b :: bs)[i]? = some true)) ∘ Nat.succ) = fun i => decide (bs[i]? = some true) := by
    funext i; simp
  rw [this]
  cases b <;> simp

theorem bitsScore_eq (i : Nat) (bs : List Bool) :
    bitsScore i bs = 100 * (bitPositions bs).length + (bitPositions bs).sum + i * (bitPositions bs).length := by
  induction bs generalizing i with
  | nil => simp [bitsScore, bitPositions]
  | cons b bs ih =>
    have hsum : ∀ l : List Nat, (l.map (· + 1)).sum = l.sum + l.length := by
      intro l; induction l with
      | nil => rfl
      | cons x l ih => simp [ih]; omega
    rw [bitsScore, ih, bitPositions_cons]
    have h1 : (i + 1) * (bitPositions bs).length = i * (bitPositions bs).length + (bitPositions bs).length := Nat.succ_mul _ _
    have h2 : i * ((bitPositions bs).length + 1) = i * (bitPositions bs).length + i := Nat.mul_succ _ _
    cases b
    · simp [hsum]; omega
    · simp [hsum]
      omega

theorem score_eq (key a : Key) : score key a = 100 * (matchedPositions key a).length + (matchedPositions key a).sum := by
  unfold score
  rw [scoreFrom_bits, bitsScore_eq, matchedPositions_bits]; simp

theorem sum_le_of_sublist {l l' : List Nat} (h : l.Sublist l') : l.sum ≤ l'.sum := by
  induction h with
  | slnil => simp
  | cons a _ ih => simp; omega
  | cons_cons a _ ih => simp; omega

theorem matchedPositions_sum_lt {key a : Key} (h : key.length ≤ 13) : (matchedPositions key a).sum < 100 := by
  have h1 : (matchedPositions key a).Sublist (List.range 13) := by
    unfold matchedPositions
    refine (List.filter_sublist).trans ?_
    exact List.range_sublist.mpr (by omega)
  have : (matchedPositions key a).sum ≤ (List.range 13).sum := sum_le_of_sublist h1
  have h2 : (List.range 13).sum = 78 := by decide
  omega

/-- Equal match positions, equal similarity. -/
theorem bitPositions_inj {bs bs' : List Bool} (hl : bs.length = bs'.length) (h : bitPositions bs = bitPositions bs') : bs = bs' := by
  apply List.ext_getElem hl
  intro i h1 h2
  have hm : ∀ cs : List Bool, (hi : i < cs.length) → (i ∈ bitPositions cs ↔ cs[i] = true) := by
    intro cs hi
    simp [bitPositions, hi]
  have a := hm bs h1
  have b := hm bs' h2
  rw [h] at a
  rw [Bool.eq_iff_iff]
  exact a.symm.trans b

theorem similarity_congr {key a b : Key} (hl : a.length = b.length) (h : matchedPositions key a = matchedPositions key b) :
    similarity key a = similarity key b := by
  unfold similarity
  rw [similarityFrom_bits, similarityFrom_bits]
  rw [matchedPositions_bits, matchedPositions_bits] at h
  rw [bitPositions_inj (by rw [matchBits_length, matchBits_length, hl]) h]

/-- All lists of booleans of a given length. -/
def boolLists : Nat → List (List Bool)
  | 0 => [[]]
  | n + 1 => (boolLists n).flatMap fun l => [true :: l, false :: l]

theorem mem_boolLists {l : List Bool} {n : Nat} (h : l.length = n) : l ∈ boolLists n := by
  induction l generalizing n with
  | nil => subst h; simp [boolLists]
  | cons b l ih =>
    cases n with
    | zero => simp at h
    | succ n =>
      simp only [boolLists, List.mem_flatMap]
      refine ⟨l, ih (by simpa using h), ?_⟩
      cases b <;> simp

/-- With at most four positions equal exact scores have equal float similarities. -/
theorem similarity_of_score_eq {key a b : Key} (h : key.length ≤ 4) (hla : a.length = key.length) (hlb : b.length = key.length)
    (hs : score key a = score key b) : similarity key a = similarity key b := by
  unfold score at hs
  unfold similarity
  rw [scoreFrom_bits, scoreFrom_bits] at hs
  rw [similarityFrom_bits, similarityFrom_bits]
  have h1 := matchBits_length key a
  have h2 := matchBits_length key b
  rw [hla, Nat.min_self] at h1
  rw [hlb, Nat.min_self] at h2
  generalize matchBits key a = xs at *
  generalize matchBits key b = ys at *
  have hb : ∀ n, n ≤ 4 → ∀ xs ∈ boolLists n, ∀ ys ∈ boolLists n, bitsScore 0 xs = bitsScore 0 ys → bitsSim 0 0 xs = bitsSim 0 0 ys := by
    intro n hn
    have : n = 0 ∨ n = 1 ∨ n = 2 ∨ n = 3 ∨ n = 4 := by omega
    rcases this with rfl | rfl | rfl | rfl | rfl <;> decide +kernel
  exact hb key.length h xs (mem_boolLists h1) ys (mem_boolLists h2) hs

/-! ## autofill -/

theorem mapM_range_ok {β ε : Type} (f : Nat → Except ε β) (g : Nat → β) (n : Nat) (h : ∀ i < n, f i = .ok (g i)) :
    (List.range n).mapM f = .ok ((List.range n).map g) := by
  have : ∀ l : List Nat, (∀ i ∈ l, i < n) → l.mapM f = .ok (l.map g) := by
    intro l
    induction l with
    | nil => intro _; rfl
    | cons a l ih =>
      intro hl
      rw [List.mapM_cons, h a (hl a (by simp)), ih (fun i hi => hl i (List.mem_cons_of_mem _ hi))]; rfl
  exact this _ (by simp)

/-- The present slots, in slot order. -/
def presentSlots (forms : List Str) : List Nat :=
  (List.range forms.length).filter fun i => decide (∃ f, forms[i]? = some f ∧ f ≠ [])

/-- The keys of the present slots, in slot order. -/
def presentKeys (t : WordType) (forms : List Str) : List Key := (presentSlots forms).filterMap fun i => (invertedCache t)[i]?

theorem availableKeys_eq {t : WordType} {forms : List Str} (h : forms.length = (invertedCache t).length) :
    availableKeys t forms = .ok (presentKeys t forms) := by
  unfold availableKeys
  rw [mapM_range_ok _ (fun i => if (∃ f, forms[i]? = some f ∧ f ≠ []) then (invertedCache t)[i]? else none) forms.length (by
      intro i hi
      have hi' : i < (invertedCache t).length := by omega
      simp only [List.getElem?_eq_getElem hi, List.getElem?_eq_getElem hi']
      cases hf : forms[i] with
      | nil => simp
      | cons c cs => simp)]
  simp only [bind, Except.bind]
  congr 1
  unfold presentKeys presentSlots
  rw [List.filterMap_map, List.filterMap_filter]
  apply List.filterMap_congr
  intro i _
  simp

theorem mem_presentKeys {t : WordType} {forms : List Str} (h : forms.length = (invertedCache t).length) {k : Key} :
    k ∈ presentKeys t forms ↔ ∃ (i : Nat) (f : Str), forms[i]? = some f ∧ f ≠ [] ∧ (invertedCache t)[i]? = some k := by
  unfold presentKeys presentSlots
  simp only [List.mem_filterMap, List.mem_filter, List.mem_range, decide_eq_true_eq]
  constructor
  · rintro ⟨i, ⟨_, f, hf, hne⟩, hk⟩; exact ⟨i, f, hf, hne, hk⟩
  · rintro ⟨i, f, hf, hne, hk⟩; exact ⟨i, ⟨(List.getElem?_eq_some_iff.mp hf).1, f, hf, hne⟩, hk⟩

/-- What ends up in slot `i`. -/
def filledForm (t : WordType) (forms : List Str) (i : Nat) : Option Str :=
  match forms[i]? with
  | none => none
  | some (c :: cs) => some (c :: cs)
  | some [] => match (invertedCache t)[i]? with
    | none => some []
    | some key => match getNearestKey key (presentKeys t forms) with
      | none => some []
      | some nk => match (wordsCache t).get? nk with
        | none => some []
        | some j => forms[j]?

theorem nearest_slot {t : WordType} {forms : List Str} (h : forms.length = (invertedCache t).length) {key nk : Key}
    (hn : getNearestKey key (presentKeys t forms) = some nk) :
    ∃ (j : Nat) (f : Str), (wordsCache t).get? nk = some j ∧ (invertedCache t)[j]? = some nk ∧ forms[j]? = some f ∧ f ≠ [] := by
  obtain ⟨j, f, hf, hne, hk⟩ := (mem_presentKeys h).mp (getNearestKey_mem hn)
  exact ⟨j, f, wordsCache_get?.mpr hk, hk, hf, hne⟩

theorem autofill_loop {t : WordType} {orig : List Str} (h : orig.length = (invertedCache t).length) :
    ∀ n, n ≤ orig.length → ∃ cur : List Str,
      (List.range n).foldlM (autofillStep t (presentKeys t orig)) orig = .ok cur ∧ cur.length = orig.length ∧
      (∀ i < n, cur[i]? = filledForm t orig i) ∧ (∀ i, n ≤ i → cur[i]? = orig[i]?) := by
  intro n
  induction n with
  | zero => intro _; exact ⟨orig, rfl, rfl, by simp, by simp⟩
  | succ n ih =>
    intro hn
    obtain ⟨cur, h1, h2, h3, h4⟩ := ih (by omega)
    have hnlt : n < orig.length := by omega
    have hcur_n : cur[n]? = some orig[n] := by rw [h4 n (Nat.le_refl _)]; simp
    have hpres : ∀ (j : Nat) (f : Str), orig[j]? = some f → f ≠ [] → cur[j]? = some f := by
      intro j f hj hne
      by_cases hjn : j < n
      · rw [h3 j hjn]; unfold filledForm; rw [hj]
        cases f with
        | nil => exact absurd rfl hne
        | cons c cs => rfl
      · rw [h4 j (by omega), hj]
    have hstep : ∃ cur', autofillStep t (presentKeys t orig) cur n = .ok cur' ∧ cur'.length = orig.length ∧
        cur'[n]? = filledForm t orig n ∧ ∀ i, i ≠ n → cur'[i]? = cur[i]? := by
      unfold autofillStep
      rw [hcur_n]
      have hik : n < (invertedCache t).length := by omega
      cases hf : orig[n] with
      | cons c cs =>
        refine ⟨cur, by simp, h2, ?_, fun _ _ => rfl⟩
        rw [hcur_n]; unfold filledForm; rw [List.getElem?_eq_getElem hnlt, hf]
      | nil =>
        simp only [ne_eq, not_true_eq_false, if_false]
        rw [List.getElem?_eq_getElem hik]
        simp only
        cases hg : getNearestKey (invertedCache t)[n] (presentKeys t orig) with
        | none =>
          refine ⟨cur, rfl, h2, ?_, fun _ _ => rfl⟩
          rw [hcur_n]; unfold filledForm
          rw [List.getElem?_eq_getElem hnlt, hf, List.getElem?_eq_getElem hik]
          simp [hg]
        | some nk =>
          obtain ⟨j, f, hj1, hj2, hj3, hj4⟩ := nearest_slot h hg
          have hcf := hpres j f hj3 hj4
          simp only [hj1, hcf]
          refine ⟨cur.set n f, rfl, by simp [h2], ?_, ?_⟩
          · unfold filledForm
            rw [List.getElem?_eq_getElem hnlt, hf, List.getElem?_eq_getElem hik]
            simp only [hg, hj1, hj3]
            rw [List.getElem?_set]; simp [h2, hnlt]
          · intro i hi
            rw [List.getElem?_set_ne (Ne.symm hi)]
    obtain ⟨cur', e1, e2, e3, e4⟩ := hstep
    refine ⟨cur', ?_, e2, ?_, ?_⟩
    · rw [List.range_succ, List.foldlM_append, h1]
      simp only [List.foldlM_cons, List.foldlM_nil, bind, Except.bind, e1]
      rfl
    · intro i hi
      by_cases hin : i = n
      · rw [hin, e3]
      · rw [e4 i hin, h3 i (by omega)]
    · intro i hi
      rw [e4 i (by omega), h4 i (by omega)]

theorem autofill_spec {w : Word} (h : w.forms.length = (invertedCache w.type).length) :
    ∃ w', w.autofillMissedForms = .ok w' ∧ w'.type = w.type ∧ w'.properties = w.properties ∧
      w'.forms.length = w.forms.length ∧ ∀ i, w'.forms[i]? = filledForm w.type w.forms i := by
  obtain ⟨cur, h1, h2, h3, h4⟩ := autofill_loop h w.forms.length (Nat.le_refl _)
  refine ⟨{ w with forms := cur }, ?_, rfl, rfl, h2, ?_⟩
  · unfold Word.autofillMissedForms
    simp only [availableKeys_eq h, bind, Except.bind, h1]
  · intro i
    by_cases hi : i < w.forms.length
    · exact h3 i hi
    · show cur[i]? = _
      rw [h4 i (by omega)]
      unfold filledForm
      rw [List.getElem?_eq_none (by omega)]

end Utg
