import Verif.Spec.Digits
import Verif.Props.Numbers
import Verif.Props.ReadInt
/-! # Property C146: the limit on digits -/

namespace Utg
open Py Spec

theorem natDigits_length (k : Nat) : ∀ n, (natDigits n).length ≤ k + 1 ↔ n < 10 ^ (k + 1) := by
  induction k with
  | zero =>
    intro n
    by_cases h : n < 10
    · rw [natDigits_lt h]; simp [h]
    · rw [natDigits_ge h]
      obtain ⟨c, cs, e, _⟩ := natDigits_cons (n / 10)
      rw [e]
      simp only [List.length_append, List.length_cons, List.length_nil]
      omega
  | succ k ih =>
    intro n
    by_cases h : n < 10
    · rw [natDigits_lt h]
      have : 10 ≤ 10 ^ (k + 1 + 1) := by
        rw [pow_succ]; have := Nat.one_le_pow (k + 1) 10 (by omega); omega
      simp; omega
    · rw [natDigits_ge h, List.length_append, List.length_singleton, Nat.add_le_add_iff_right, ih, pow_succ 10 (k + 1)]
      omega

theorem tooLong_iff (limit : Nat) (n : Int) : limit ≠ 0 ∧ limit < (natDigits n.natAbs).length ↔ TooLong limit n := by
  unfold TooLong
  constructor
  · rintro ⟨h, h'⟩
    refine ⟨h, ?_⟩
    obtain ⟨k, rfl⟩ := Nat.exists_eq_succ_of_ne_zero h
    by_contra hc
    have := (natDigits_length k n.natAbs).mpr (by omega)
    omega
  · rintro ⟨h, h'⟩
    refine ⟨h, ?_⟩
    obtain ⟨k, rfl⟩ := Nat.exists_eq_succ_of_ne_zero h
    by_contra hc
    have := (natDigits_length k n.natAbs).mp (by omega)
    simp only [Nat.succ_eq_add_one] at h'
    omega

theorem limitedStr_short {limit : Nat} {n : Int} (h : ¬ TooLong limit n) : limitedStr limit n = .ok (pyStr n) := by
  unfold limitedStr
  rw [if_neg (fun hc => h ((tooLong_iff limit n).mp hc))]

theorem limitedStr_long {limit : Nat} {n : Int} (h : TooLong limit n) : limitedStr limit n = .error .ValueError := by
  unfold limitedStr
  rw [if_pos ((tooLong_iff limit n).mpr h)]

theorem fresh_short {limit : Nat} {n : Int} (h : ¬ TooLong limit n) : constructLimitedFresh limit n = constructIntegerFresh n := by
  unfold constructLimitedFresh constructIntegerFresh
  rw [limitedStr_short h]; rfl

theorem fresh_long {limit : Nat} {n : Int} (h : TooLong limit n) : constructLimitedFresh limit n = .error .ValueError := by
  unfold constructLimitedFresh
  rw [limitedStr_long h]; rfl

theorem short_of_le {limit : Nat} (hl : IsLimit limit) {n : Int} (h0 : 0 ≤ n) (h1 : n ≤ 10000) : ¬ TooLong limit n := by
  rintro ⟨hne, h⟩
  have h640 : 5 ≤ limit := by rcases hl with h | h <;> omega
  have : 10 ^ 5 ≤ 10 ^ limit := Nat.pow_le_pow_right (by omega) h640
  have e : (10 : Nat) ^ 5 = 100000 := rfl
  omega

theorem allocMany_limited {limit : Nat} (start k : Nat) (s : IntState) (h : ∀ i, start ≤ i → i < start + k → ¬ TooLong limit i) :
    IntState.allocManyLimited limit start k s = IntState.allocMany start k s := by
  induction k generalizing start s with
  | zero => rfl
  | succ k ih =>
    unfold IntState.allocManyLimited IntState.allocMany IntState.allocLimited IntState.alloc
    rw [fresh_short (h start (Nat.le_refl _) (by omega)), constructIntegerFresh_eq]
    simp only [bind, Except.bind]
    rw [ih (start + 1) _ fun i h1 h2 => h i (by omega) (by omega)]

theorem limited_short {R limit : Nat} (hR : R = 10000) (hl : IsLimit limit) (s : IntState) (o : Option Nat) (hs : Filled R s o) (n : Int)
    (h : ¬ TooLong limit n) : constructLimitedWith R limit s n = s.outcome (constructIntegerWith R s n) := by
  by_cases hn : 0 ≤ n ∧ n ≤ (R : Int)
  · have hall : IntState.allocManyLimited limit 0 (R - 0 + 1) s = IntState.allocMany 0 (R - 0 + 1) s :=
      allocMany_limited 0 _ s fun i _ h2 => short_of_le hl (by omega) (by omega)
    unfold constructLimitedWith
    rw [if_pos hn]
    obtain ⟨k, c⟩ := s
    cases o with
    | none =>
      simp only [Filled] at hs
      subst hs
      rw [constructInteger_first R k n hn]
      have hc : (List.map (fun i => (⟨k + i, integerForm ((0 + i : Nat) : Int)⟩ : Obj)) (List.range (R - 0 + 1))) = cacheAt R k := by
        unfold cacheAt; congr 1; funext i; rw [Nat.zero_add]
      simp only [hall, allocMany_eq, bind, Except.bind, hc, cacheAt_get R _ n hn]
      rfl
    | some b =>
      obtain ⟨h1, h2⟩ := hs
      simp only at h1
      subst h1
      rw [constructInteger_again R k b n hn]
      simp only [cacheAt_get R _ n hn]
      rfl
  · unfold constructLimitedWith
    rw [if_neg hn, constructInteger_outside R s n hn]
    unfold IntState.allocLimited
    rw [fresh_short h, constructIntegerFresh_eq]; rfl

theorem limited_long {R limit : Nat} (hR : R = 10000) (hl : IsLimit limit) (s : IntState) (n : Int) (h : TooLong limit n) :
    constructLimitedWith R limit s n = (s, .error .ValueError) := by
  have hn : ¬ (0 ≤ n ∧ n ≤ (R : Int)) := fun hc => short_of_le hl hc.1 (by omega) h
  unfold constructLimitedWith
  rw [if_neg hn]
  unfold IntState.allocLimited
  rw [fresh_long h]; rfl

/-- `limitedHistory` with the size of the cache as a parameter. -/
def limitedHistoryWith (R limit : Nat) : IntState → List Int → List (Except PyErr Obj)
  | _, [] => []
  | s, n :: ns => (constructLimitedWith R limit s n).2 :: limitedHistoryWith R limit (constructLimitedWith R limit s n).1 ns

theorem limitedHistory_eq (limit : Nat) (s : IntState) (ns : List Int) :
    limitedHistory limit s ns = limitedHistoryWith INTEGER_CACHE_RIGHT limit s ns := by
  induction ns generalizing s with
  | nil => rfl
  | cons a as ih => simp only [limitedHistory, limitedHistoryWith, constructLimited, ih]

theorem limitedHistory_answers {R limit : Nat} (hR : R = 10000) (hl : IsLimit limit) (ns : List Int) : ∀ (s : IntState) (o : Option Nat),
    Filled R s o → ∃ rest, numberHistoryWith R s ((ns.filter fun n => ¬ TooLong limit n).map PyNumber.int) = rest ∧
      ((ns.zip (limitedHistoryWith R limit s ns)).filter fun p => ¬ TooLong limit p.1).map (·.2) = rest ∧
      (limitedHistoryWith R limit s ns).length = ns.length ∧
      ∀ p ∈ ns.zip (limitedHistoryWith R limit s ns), TooLong limit p.1 → p.2 = .error .ValueError := by
  induction ns with
  | nil => intro s o _; exact ⟨_, rfl, rfl, rfl, fun p hp => (by cases hp)⟩
  | cons n ns ih =>
    intro s o h
    by_cases hn : TooLong limit n
    · have e := limited_long hR hl s n hn
      obtain ⟨rest, h1, h2, h3, h4⟩ := ih s o h
      refine ⟨rest, ?_, ?_, ?_, ?_⟩
      · simpa only [List.filter_cons, hn, not_true_eq_false, decide_false, Bool.false_eq_true, if_false] using h1
      · simp only [limitedHistoryWith, e, List.zip_cons_cons, List.filter_cons, hn, not_true_eq_false, decide_false, Bool.false_eq_true, if_false]
        exact h2
      · simp only [limitedHistoryWith, e, List.length_cons, h3]
      · simp only [limitedHistoryWith, e, List.zip_cons_cons, List.mem_cons]
        rintro p (rfl | hp) hp'
        · rfl
        · exact h4 p hp hp'
    · have e := limited_short hR hl s o h n hn
      obtain ⟨o', st⟩ := step_integer R s o h (.int n) n rfl
      obtain ⟨rest, h1, h2, h3, h4⟩ := ih _ o' st.filled
      refine ⟨_, rfl, ?_, ?_, ?_⟩
      · simp only [limitedHistoryWith, e, List.zip_cons_cons, List.filter_cons, hn, not_false_eq_true,
          decide_true, if_true, List.map_cons, numberHistoryWith, constructNumberWith]
        rw [h2, ← h1]
      · simp only [limitedHistoryWith, e, List.length_cons, h3]
      · simp only [limitedHistoryWith, e, List.zip_cons_cons, List.mem_cons]
        rintro p (rfl | hp) hp'
        · exact absurd hp' hn
        · exact h4 p hp hp'

theorem limitedInt_eq (limit : Nat) (s : Str) (n : Int) :
    limitedInt limit s = .ok n ↔ pyInt s = .ok n ∧ (limit = 0 ∨ digitCount s ≤ limit) := by
  unfold limitedInt digitCount
  rw [← List.countP_eq_length_filter]
  generalize List.countP _ s = k
  cases hs : pyInt s with
  | error e => simp [bind, Except.bind]
  | ok m =>
    simp only [bind, Except.bind]
    by_cases h : limit ≠ 0 ∧ limit < k
    · rw [if_pos h]
      constructor
      · intro hc; cases hc
      · rintro ⟨_, h'⟩; omega
    · rw [if_neg h]
      constructor
      · intro hc; exact ⟨hc, by omega⟩
      · exact fun hc => hc.1

theorem limitedInt_error (limit : Nat) (s : Str) (e : PyErr) (h : limitedInt limit s = .error e) : e = .ValueError := by
  unfold limitedInt at h
  cases hs : pyInt s with
  | error e' =>
    rw [hs] at h
    have : e' = .ValueError := by
      unfold pyInt at hs; split at hs
      · cases hs
      · exact (Except.error.inj hs).symm
    subst this
    exact (Except.error.inj h).symm
  | ok m =>
    rw [hs] at h
    simp only [bind, Except.bind] at h
    split at h
    · exact (Except.error.inj h).symm
    · cases h

/-- C146: a call with a number of too many digits raises `ValueError` and leaves no trace; the others give what they would have given, object by
object, without it and without a limit. -/
theorem C146_construct (limit : Nat) (hl : IsLimit limit) (numbers : List Int) :
    (limitedHistory limit .init numbers).length = numbers.length ∧
    (∀ p ∈ numbers.zip (limitedHistory limit .init numbers), TooLong limit p.1 → p.2 = .error .ValueError) ∧
    ((numbers.zip (limitedHistory limit .init numbers)).filter fun p => ¬ TooLong limit p.1).map (·.2) =
      numberHistory .init ((numbers.filter fun n => ¬ TooLong limit n).map .int) := by
  rw [limitedHistory_eq, numberHistory_eq]
  obtain ⟨rest, h1, h2, h3, h4⟩ := limitedHistory_answers (R := INTEGER_CACHE_RIGHT) rfl hl numbers .init none rfl
  exact ⟨h3, h4, by rw [h1, h2]⟩

/-- The items agree where the digits suffice. -/
theorem itemLimited_ok (limit : Nat) (kv : JKey × Int) (o : Option Rec) :
    deserializeItemLimited limit kv = .ok o ↔ deserializeItem kv = .ok o ∧ ∀ s, kv.1 = .str s → limit = 0 ∨ digitCount s ≤ limit := by
  obtain ⟨k, v⟩ := kv
  cases k with
  | int n =>
    constructor
    · intro h; exact ⟨h, fun s hs => (by cases hs)⟩
    · exact fun h => h.1
  | str s =>
    unfold deserializeItemLimited deserializeItem
    simp only [JKey.toInt]
    cases hl : limitedInt limit s with
    | error e =>
      constructor
      · intro h; cases h
      · rintro ⟨h, h'⟩
        cases hs : pyInt s with
        | error e' => rw [hs] at h; cases h
        | ok n => rw [(limitedInt_eq limit s n).mpr ⟨hs, h' s rfl⟩] at hl; cases hl
    | ok n =>
      obtain ⟨hs, hd⟩ := (limitedInt_eq limit s n).mp hl
      rw [hs]
      constructor
      · intro h; exact ⟨h, fun s' hs' => (by cases hs'; exact hd)⟩
      · exact fun h => h.1

theorem itemLimited_error (limit : Nat) (kv : JKey × Int) (e : PyErr) (h : deserializeItemLimited limit kv = .error e) : e = .ValueError := by
  obtain ⟨k, v⟩ := kv
  unfold deserializeItemLimited at h
  cases k with
  | int n => simp only [bind, Except.bind] at h; split at h <;> cases h
  | str s =>
    cases hl : limitedInt limit s with
    | error e' =>
      simp only [hl] at h
      cases h
      exact limitedInt_error limit s _ hl
    | ok n => simp only [hl, bind, Except.bind] at h; split at h <;> cases h

theorem mapM_limited (limit : Nat) (d : Dict JKey Int) (os : List (Option Rec)) :
    d.mapM (deserializeItemLimited limit) = .ok os ↔
      d.mapM deserializeItem = .ok os ∧ ∀ s v, (JKey.str s, v) ∈ d → limit = 0 ∨ digitCount s ≤ limit := by
  constructor
  · intro h
    have h' := forall₂_of_mapM h
    have h2 : List.Forall₂ (fun kv o => deserializeItem kv = .ok o) d os := h'.imp fun a b hab => ((itemLimited_ok limit a b).mp hab).1
    refine ⟨mapM_of_forall₂ h2, fun s v hm => ?_⟩
    obtain ⟨o, ho⟩ := mapM_ok_mem h _ hm
    exact ((itemLimited_ok limit _ o).mp ho).2 s rfl
  · rintro ⟨h, hd⟩
    have h' := forall₂_of_mapM h
    refine mapM_of_forall₂ ?_
    clear h
    induction h' with
    | nil => exact .nil
    | @cons a b l l' hab _ ih =>
      refine .cons ((itemLimited_ok limit a b).mpr ⟨hab, fun s hs => ?_⟩) (ih fun s v hm => hd s v (List.mem_cons_of_mem _ hm))
      obtain ⟨k, v⟩ := a
      cases hs
      exact hd s v (by simp)

/-- C146: properties load under a limit exactly if they load without one and no key has more digits; they are the same properties. -/
theorem C146_keys (limit : Nat) (d : Dict JKey Int) (p : Properties) :
    Properties.deserializeLimited limit d = .ok p ↔
      Properties.deserialize d = .ok p ∧ ∀ s v, (JKey.str s, v) ∈ d → limit = 0 ∨ digitCount s ≤ limit := by
  unfold Properties.deserializeLimited Properties.deserialize
  cases hm : d.mapM (deserializeItemLimited limit) with
  | ok os =>
    obtain ⟨h1, h2⟩ := (mapM_limited limit d os).mp hm
    rw [h1]
    exact ⟨fun h => ⟨h, h2⟩, fun h => h.1⟩
  | error e =>
    constructor
    · intro h; cases h
    · rintro ⟨h, h2⟩
      cases hm' : d.mapM deserializeItem with
      | error e' => rw [hm'] at h; cases h
      | ok os => rw [(mapM_limited limit d os).mpr ⟨hm', h2⟩] at hm; cases hm

/-- C146: otherwise the error is `ValueError`. -/
theorem C146_keys_error (limit : Nat) (d : Dict JKey Int) (e : PyErr) (h : Properties.deserializeLimited limit d = .error e) : e = .ValueError := by
  unfold Properties.deserializeLimited at h
  cases hm : d.mapM (deserializeItemLimited limit) with
  | ok os => rw [hm] at h; cases h
  | error e' =>
    rw [hm] at h; cases h
    obtain ⟨a, _, ha⟩ := mapM_error_mem hm
    exact itemLimited_error limit a _ ha

/-- C146: what the library saved always loads: a key has at most two digits. -/
theorem C146_saved (limit : Nat) (hl : IsLimit limit) (p : Properties) (hp : WFProps p) (d d' : Dict JKey Int)
    (hj : List.Forall₂ ViaJson p.serialize d) (hperm : d'.Perm d) :
    ∃ q, Properties.deserializeLimited limit d' = .ok q ∧ q.eq p = true := by
  obtain ⟨q, h1, h2⟩ := C13_roundtrip p hp d d' hj hperm
  refine ⟨q, (C146_keys limit d' q).mpr ⟨h1, fun s v hm => ?_⟩, h2⟩
  have hm' := hperm.mem_iff.mp hm
  have : ∃ g : Group, s = pyStr g.code := by
    unfold Properties.serialize at hj
    generalize p.data = l at hj
    clear hm hperm h1
    induction l generalizing d with
    | nil => cases hj; cases hm'
    | cons a l ih =>
      cases hj with
      | cons hab hr =>
        rcases List.mem_cons.mp hm' with h | h
        · subst h
          cases hab
          exact ⟨_, rfl⟩
        · exact ih _ h hr
  obtain ⟨g, rfl⟩ := this
  have hlen : digitCount (pyStr g.code) ≤ 2 := by clear hm hm'; cases g <;> decide +kernel
  rcases hl with h | h
  · exact .inl h
  · exact .inr (by omega)

example : IsLimit 4300 ∧ TooLong 4300 (-(10 ^ 4300)) ∧ ¬ TooLong 4300 (10 ^ 4300 - 1) := by
  refine ⟨.inr (by omega), ?_, ?_⟩ <;> decide +kernel
/-- Six hundred and forty zeros and a one, as a key, are a `ValueError`. -/
example : Properties.deserializeLimited 640 [(.str (List.replicate 640 '0' ++ ['1']), 0)] = .error .ValueError ∧
    ∃ p, Properties.deserialize [(.str (List.replicate 640 '0' ++ ['1']), 0)] = .ok p := by
  refine ⟨?_, ?_⟩
  · decide +kernel
  · refine (C145_loadable _).mpr fun s v h => ⟨1, (C145_reads s 1).mp ?_⟩
    rw [List.mem_singleton] at h
    injection h with h _
    injection h with h
    subst h
    decide +kernel

end Utg
