import Verif.Spec.Numbers
import Verif.Props.Integers
import Mathlib.Tactic.Linarith
import Mathlib.Tactic.NormNum
import Mathlib.Tactic.FieldSimp
import Mathlib.Algebra.Order.Floor.Semifield
/-! # Property C144: `construct_integer` of what is not an integer -/

namespace Utg
open Py Spec

theorem ratMod_nat (w m : Nat) : ratMod (w : ℚ) m = ((w % m : Nat) : ℚ) := by
  unfold ratMod
  have : ⌊(w : ℚ) / (m : ℚ)⌋₊ = w / m := Nat.floor_div_eq_div w m
  rw [this]
  have h := Nat.div_add_mod w m
  have : (w : ℚ) = m * (w / m : Nat) + (w % m : Nat) := by exact_mod_cast h.symm
  linarith

theorem ratMod_between {y : ℚ} {w m : Nat} (h1 : (w : ℚ) < y) (h2 : y < w + 1) : ratMod y m = ((w % m : Nat) : ℚ) + (y - w) := by
  have hf : ⌊y⌋₊ = w := by rw [Nat.floor_eq_iff (by have : (0 : ℚ) ≤ w := Nat.cast_nonneg w; linarith)]; exact ⟨le_of_lt h1, h2⟩
  unfold ratMod
  rw [Nat.floor_div_natCast, hf]
  have h := Nat.div_add_mod w m
  have : (w : ℚ) = m * (w / m : Nat) + (w % m : Nat) := by exact_mod_cast h.symm
  linarith

theorem classifyReal_nat (w : Nat) : classifyReal (some (w : ℚ)) = classifyInteger w := by
  unfold classifyReal classifyInteger
  simp only [ratMod_nat]
  norm_cast

theorem classifyReal_between {y : ℚ} {w : Nat} (h1 : (w : ℚ) < y) (h2 : y < w + 1) :
    (classifyReal (some y)).properties = .new [.record .NUMBER_PLURAL, .record (fractionClass w)] := by
  have hne : ∀ m : Nat, y ≠ m := by
    rintro m rfl
    have a : w < m := by exact_mod_cast h1
    have b : m < w + 1 := by exact_mod_cast h2
    omega
  have ge : ∀ m k : Nat, (k : ℚ) ≤ ratMod y m ↔ k ≤ w % m := by
    intro m k
    rw [ratMod_between h1 h2]
    constructor
    · intro h
      have : (k : ℚ) < (w % m : Nat) + 1 := by linarith
      have : k < w % m + 1 := by exact_mod_cast this
      omega
    · intro h
      have : (k : ℚ) ≤ (w % m : Nat) := by exact_mod_cast h
      linarith
  have le : ∀ m k : Nat, ratMod y m ≤ (k : ℚ) ↔ w % m < k := by
    intro m k
    rw [ratMod_between h1 h2]
    constructor
    · intro h
      have : ((w % m : Nat) : ℚ) < k := by linarith
      exact_mod_cast this
    · intro h
      have : ((w % m : Nat) : ℚ) + 1 ≤ k := by exact_mod_cast h
      linarith
  have ne1 : ratMod y 10 ≠ 1 := by
    intro h
    have a := (ge 10 1).mp (by rw [h]; norm_num)
    have b := (le 10 1).mp (by rw [h]; norm_num)
    omega
  have g10 : (10 : ℚ) ≤ ratMod y 100 ↔ 10 ≤ w % 100 := by simpa using ge 100 10
  have l19 : ratMod y 100 ≤ 19 ↔ w % 100 < 19 := by simpa using le 100 19
  have g2 : (2 : ℚ) ≤ ratMod y 10 ↔ 2 ≤ w % 10 := by simpa using ge 10 2
  have l4 : ratMod y 10 ≤ 4 ↔ w % 10 < 4 := by simpa using le 10 4
  have n6 : y ≠ 1000000 := by simpa using hne 1000000
  have n9 : y ≠ 1000000000 := by simpa using hne 1000000000
  have n1 : y ≠ 1 := by simpa using hne 1
  have n2 : y ≠ 2 := by simpa using hne 2
  have n3 : y ≠ 3 := by simpa using hne 3
  have n4 : y ≠ 4 := by simpa using hne 4
  have e2 : EndsIn (w : Int) (str! "2") ↔ _ := endsIn1 w 2 (by omega)
  have e3 : EndsIn (w : Int) (str! "3") ↔ _ := endsIn1 w 3 (by omega)
  have e12 : EndsIn (w : Int) (str! "12") ↔ _ := endsIn2 w 1 2 (by omega) (by omega) (by omega)
  have e13 : EndsIn (w : Int) (str! "13") ↔ _ := endsIn2 w 1 3 (by omega) (by omega) (by omega)
  unfold classifyReal fractionClass
  simp only [n6, n9, n1, n2, n3, n4, ne1, or_false, if_false, g10, l19, g2, l4, e2, e3, e12, e13, Int.natAbs_natCast]
  split
  · rw [if_neg (by omega)]; rfl
  · split
    · rw [if_pos (by omega)]; rfl
    · rw [if_neg (by omega)]; rfl

theorem constructRealFresh_eq (written : Str) (value : Option ℚ) :
    constructRealFresh written value =
      .ok (WordForm.new ⟨.INTEGER, [written], (classifyReal (value.map fun x => |x|)).properties⟩) := by
  unfold constructRealFresh
  have : Word.new .INTEGER [written] (classifyReal (value.map fun x => |x|)).properties =
      .ok ⟨.INTEGER, [written], (classifyReal (value.map fun x => |x|)).properties⟩ := (C08_constructor _ _ _).1 rfl
  simp only [this]; rfl

theorem integerForm_numeral (n : Int) : integerForm n = numeral (pyStr n) (grammaticalNumber n) (agreementClass n) := by
  unfold integerForm numeral; rw [classify_properties]

theorem real_answers (written : Str) (value : Option ℚ) (h : ¬ ∃ x, value = some x ∧ 0 ≤ x ∧ x ≤ 10000) (f : WordForm)
    (hf : constructRealFresh written value = .ok f) : Answers (.real written value) (.ok f) := by
  rw [constructRealFresh_eq] at hf
  cases hf
  cases value with
  | none => exact .unbounded written
  | some x =>
    have hout : x < 0 ∨ 10000 < x := by
      by_contra hc
      push Not at hc
      exact h ⟨x, rfl, hc.1, hc.2⟩
    by_cases hx : ∃ n : Int, x = n
    · obtain ⟨n, rfl⟩ := hx
      have e : (|(n : ℚ)|) = (n.natAbs : ℚ) := by rw [Nat.cast_natAbs, Int.cast_abs]
      simp only [Option.map_some, e, classifyReal_nat, classify_properties]
      exact .whole written n (by
        rcases hout with h | h
        · left; exact_mod_cast h
        · right; exact_mod_cast h)
    · have h0 : (⌊|x|⌋₊ : ℚ) ≤ |x| := Nat.floor_le (abs_nonneg x)
      have h1 : (⌊|x|⌋₊ : ℚ) < |x| := by
        refine lt_of_le_of_ne h0 fun e => hx ?_
        rcases abs_choice x with hc | hc
        · exact ⟨(⌊|x|⌋₊ : Int), by rw [hc] at e; push_cast; rw [hc]; exact e.symm⟩
        · refine ⟨-(⌊|x|⌋₊ : Int), ?_⟩
          push_cast
          rw [e, hc]; ring
      have h2 : |x| < (⌊|x|⌋₊ : ℚ) + 1 := Nat.lt_floor_add_one _
      simp only [Option.map_some, classifyReal_between h1 h2]
      exact .fraction written x _ hout h1 h2

theorem answers_unique {a : PyNumber} {r r' : Except PyErr WordForm} (h : Answers a r) (h' : Answers a r') : r = r' := by
  have key : ∀ (n : Int) (m : Nat), (m : ℚ) < |(n : ℚ)| → |(n : ℚ)| < m + 1 → False := by
    intro n m h1 h2
    have e : (|(n : ℚ)|) = (n.natAbs : ℚ) := by rw [Nat.cast_natAbs, Int.cast_abs]
    rw [e] at h1 h2
    have a : m < n.natAbs := by exact_mod_cast h1
    have b : n.natAbs < m + 1 := by exact_mod_cast h2
    omega
  cases h with
  | integer _ n is =>
    cases h' with
    | integer _ n' is' => rw [is] at is'; cases is'; rfl
    | whole _ _ _ => cases is
    | fraction _ _ _ _ _ _ => cases is
    | unbounded _ => cases is
    | within _ _ _ _ => cases is
    | other => cases is
  | whole written n outside =>
    generalize hx : (n : ℚ) = x at h'
    cases h' with
    | integer _ _ is => cases is
    | whole _ n' _ => have : n = n' := by exact_mod_cast hx
                      rw [this]
    | fraction _ _ m _ above below => subst hx; exact (key n m above below).elim
    | within _ _ least most =>
      subst hx
      have a : 0 ≤ n := by exact_mod_cast least
      have b : n ≤ 10000 := by exact_mod_cast most
      omega
  | fraction written x m outside above below =>
    generalize hx : x = y at h'
    cases h' with
    | integer _ _ is => cases is
    | whole _ n' _ => subst hx; exact (key n' m above below).elim
    | fraction _ _ m' _ above' below' =>
      subst hx
      have a : (m : ℚ) < m' + 1 := lt_trans above below'
      have b : (m' : ℚ) < m + 1 := lt_trans above' below
      have a' : m < m' + 1 := by exact_mod_cast a
      have b' : m' < m + 1 := by exact_mod_cast b
      have : m = m' := by omega
      rw [this]
    | within _ _ least most => subst hx; rcases outside with h | h <;> linarith
  | unbounded written =>
    cases h' with
    | integer _ _ is => cases is
    | unbounded _ => rfl
  | within written x least most =>
    generalize hx : x = y at h'
    cases h' with
    | integer _ _ is => cases is
    | whole _ n outside =>
      subst hx
      have a : 0 ≤ n := by exact_mod_cast least
      have b : n ≤ 10000 := by exact_mod_cast most
      omega
    | fraction _ _ _ outside _ _ => subst hx; rcases outside with h | h <;> linarith
    | within _ _ _ _ => rfl
  | other =>
    cases h' with
    | integer _ _ is => cases is
    | other => rfl

/-- What holds of the module's state between calls: the cache is `None`, or was filled when the next identity was `b`. -/
def Filled (R : Nat) (s : IntState) : Option Nat → Prop
  | none => s.cache = none
  | some b => s.cache = some (cacheAt R b) ∧ b + (R + 1) ≤ s.nextId

/-- The index an argument is, if it is one of the cached numbers. -/
def cachedIndex (R : Nat) (a : PyNumber) : Option Int := (asInteger a).filter fun n => decide (0 ≤ n ∧ n ≤ (R : Int))

theorem fill_filled (R : Nat) (s : IntState) (o : Option Nat) (h : Filled R s o) :
    ∃ s' b, s.fill R = .ok s' ∧ Filled R s' (some b) ∧ s.nextId ≤ s'.nextId ∧ (∀ b', o = some b' → b = b') ∧
      (o = none → s.nextId = b) := by
  obtain ⟨k, c⟩ := s
  cases o with
  | none =>
    simp only [Filled] at h
    subst h
    have hc : (List.map (fun i => (⟨k + i, integerForm ((0 + i : Nat) : Int)⟩ : Obj)) (List.range (R - 0 + 1))) = cacheAt R k := by
      unfold cacheAt; congr 1; funext i; rw [Nat.zero_add]
    refine ⟨⟨k + (R + 1), some (cacheAt R k)⟩, k, ?_, ⟨rfl, Nat.le_refl _⟩, Nat.le_add_right _ _, ?_, fun _ => rfl⟩
    · unfold IntState.fill
      simp only [bind, Except.bind, allocMany_eq, hc]
      rfl
    · intro b' e; cases e
  | some b =>
    obtain ⟨h1, h2⟩ := h
    simp only at h1 h2
    subst h1
    exact ⟨_, b, rfl, ⟨rfl, h2⟩, Nat.le_refl _, fun b' e => Option.some.inj e, fun e => (by cases e)⟩

/-- What one call does. -/
structure Step (R : Nat) (s : IntState) (o : Option Nat) (a : PyNumber) (s' : IntState) (r : Except PyErr Obj) (o' : Option Nat) : Prop where
  filled : Filled R s' o'
  grows : s.nextId ≤ s'.nextId
  keeps : ∀ b, o = some b → o' = some b
  later : ∀ b, o = none → o' = some b → s.nextId ≤ b
  cached : ∀ x n, r = .ok x → cachedIndex R a = some n → ∃ b, o' = some b ∧ x.id = b + n.toNat
  fresh : ∀ x, r = .ok x → cachedIndex R a = none → o' = o ∧ s.nextId ≤ x.id ∧ x.id < s'.nextId
  answers : Answers a (r.map (·.value))

theorem step_integer (R : Nat) (s : IntState) (o : Option Nat) (h : Filled R s o) (a : PyNumber) (n : Int) (ha : asInteger a = some n) :
    ∃ o', Step R s o a (s.outcome (constructIntegerWith R s n)).1 (s.outcome (constructIntegerWith R s n)).2 o' := by
  have ans : ∀ i, Answers a (Except.map (·.value) (.ok (⟨i, integerForm n⟩ : Obj) : Except PyErr Obj)) := by
    intro i
    show Answers a (.ok (integerForm n))
    rw [integerForm_numeral]; exact .integer a n ha
  by_cases hn : 0 ≤ n ∧ n ≤ (R : Int)
  · have hc : cachedIndex R a = some n := by simp [cachedIndex, ha, hn]
    obtain ⟨k, c⟩ := s
    cases o with
    | none =>
      simp only [Filled] at h
      subst h
      rw [constructInteger_first R k n hn]
      refine ⟨some k, ⟨rfl, Nat.le_refl _⟩, Nat.le_add_right _ _, fun b e => (by cases e), fun b _ e => ?_, fun x m hx hm => ?_,
        fun x _ hx => ?_, ans _⟩
      · cases e; exact Nat.le_refl _
      · cases hx; rw [hc] at hm; cases hm; exact ⟨k, rfl, rfl⟩
      · rw [hc] at hx; cases hx
    | some b =>
      obtain ⟨h1, h2⟩ := h
      simp only at h1 h2
      subst h1
      rw [constructInteger_again R k b n hn]
      refine ⟨some b, ⟨rfl, h2⟩, Nat.le_refl _, fun b e => e, fun b e => (by cases e), fun x m hx hm => ?_, fun x _ hx => ?_, ans _⟩
      · cases hx; rw [hc] at hm; cases hm; exact ⟨b, rfl, rfl⟩
      · rw [hc] at hx; cases hx
  · have hc : cachedIndex R a = none := by simp only [cachedIndex, ha, Option.filter, hn, decide_false, Bool.false_eq_true, if_false]
    rw [constructInteger_outside R s n hn]
    refine ⟨o, ?_, Nat.le_succ _, fun b e => e, fun b e e' => ?_, fun x m _ hm => ?_, fun x hx _ => ?_, ans _⟩
    · cases o with
      | none => exact h
      | some b => exact ⟨h.1, Nat.le_succ_of_le h.2⟩
    · rw [e] at e'; cases e'
    · rw [hc] at hm; cases hm
    · cases hx; exact ⟨rfl, Nat.le_refl _, Nat.lt_succ_self _⟩

theorem step_number (R : Nat) (hR : R = 10000) (s : IntState) (o : Option Nat) (h : Filled R s o) (a : PyNumber) :
    ∃ o', Step R s o a (constructNumberWith R s a).1 (constructNumberWith R s a).2 o' := by
  cases a with
  | int n => exact step_integer R s o h _ n rfl
  | bool b => cases b <;> exact step_integer R s o h _ _ rfl
  | other =>
    exact ⟨o, h, Nat.le_refl _, fun b e => e, fun b e e' => (by rw [e] at e'; cases e'), fun x n hx => (by cases hx), fun x hx => (by cases hx),
      .other⟩
  | real written value =>
    simp only [constructNumberWith]
    split
    · rename_i hv
      obtain ⟨s', b, e, hf, hg, hk, hl⟩ := fill_filled R s o h
      rw [e]
      refine ⟨some b, hf, hg, fun b' e' => by rw [hk b' e'], fun b' e' e'' => ?_, fun x n hx => (by cases hx), fun x hx => (by cases hx), ?_⟩
      · cases e''; exact Nat.le_of_eq (hl e')
      · obtain ⟨x, rfl, h0, h1⟩ := hv
        rw [hR] at h1
        exact .within written x h0 (by exact_mod_cast h1)
    · rename_i hv
      have hv' : ¬ ∃ x, value = some x ∧ 0 ≤ x ∧ x ≤ 10000 := by
        rintro ⟨x, e, h0, h1⟩
        exact hv ⟨x, e, h0, by rw [hR]; exact_mod_cast h1⟩
      have hf := constructRealFresh_eq written value
      have ha := real_answers written value hv' _ hf
      rw [hf]
      refine ⟨o, ?_, Nat.le_succ _, fun b e => e, fun b e e' => ?_, fun x m _ hm => (by cases hm), fun x hx _ => ?_, ha⟩
      · cases o with
        | none => exact h
        | some b => exact ⟨h.1, Nat.le_succ_of_le h.2⟩
      · rw [e] at e'; cases e'
      · cases hx; exact ⟨rfl, Nat.le_refl _, Nat.lt_succ_self _⟩

/-- `numberHistory` with the size of the cache as a parameter. -/
def numberHistoryWith (R : Nat) : IntState → List PyNumber → List (Except PyErr Obj)
  | _, [] => []
  | s, a :: as => (constructNumberWith R s a).2 :: numberHistoryWith R (constructNumberWith R s a).1 as

theorem numberHistory_eq (s : IntState) (as : List PyNumber) : numberHistory s as = numberHistoryWith INTEGER_CACHE_RIGHT s as := by
  induction as generalizing s with
  | nil => rfl
  | cons a as ih => simp only [numberHistory, numberHistoryWith, constructNumber, ih]

theorem history_answers (R : Nat) (hR : R = 10000) (as : List PyNumber) : ∀ (s : IntState) (o : Option Nat), Filled R s o →
    List.Forall₂ (fun a r => Answers a (r.map (·.value))) as (numberHistoryWith R s as) := by
  induction as with
  | nil => intro s o _; exact .nil
  | cons a as ih =>
    intro s o h
    obtain ⟨o', st⟩ := step_number R hR s o h a
    exact .cons st.answers (ih _ o' st.filled)

theorem history_later (R : Nat) (hR : R = 10000) (as : List PyNumber) : ∀ (s : IntState) (o : Option Nat), Filled R s o →
    ∀ p ∈ as.zip (numberHistoryWith R s as), ∀ x, p.2 = .ok x →
      (∀ n, cachedIndex R p.1 = some n → ∃ b, x.id = b + n.toNat ∧ (∀ b', o = some b' → b' = b) ∧ (o = none → s.nextId ≤ b)) ∧
      (cachedIndex R p.1 = none → s.nextId ≤ x.id) := by
  induction as with
  | nil => intro s o _ p hp; cases hp
  | cons a as ih =>
    intro s o h p hp x hx
    obtain ⟨o', st⟩ := step_number R hR s o h a
    simp only [numberHistoryWith, List.zip_cons_cons, List.mem_cons] at hp
    rcases hp with rfl | hp
    · constructor
      · intro n hn
        obtain ⟨b, hb, hi⟩ := st.cached x n hx hn
        exact ⟨b, hi, fun b' e => by rw [st.keeps b' e] at hb; exact Option.some.inj hb, fun e => st.later b e hb⟩
      · intro hn; exact (st.fresh x hx hn).2.1
    · obtain ⟨h1, h2⟩ := ih _ o' st.filled p hp x hx
      constructor
      · intro n hn
        obtain ⟨b, hi, hb, hl⟩ := h1 n hn
        refine ⟨b, hi, fun b' e => hb b' (st.keeps b' e), fun e => ?_⟩
        cases ho : o' with
        | none => exact Nat.le_trans st.grows (hl ho)
        | some b' => rw [← hb b' ho]; exact st.later b' e ho
      · intro hn; exact Nat.le_trans st.grows (h2 hn)

theorem cachedIndex_some {R : Nat} {a : PyNumber} {n : Int} : cachedIndex R a = some n ↔ asInteger a = some n ∧ 0 ≤ n ∧ n ≤ (R : Int) := by
  unfold cachedIndex
  simp [Option.filter_eq_some_iff]

theorem history_identity (R : Nat) (hR : R = 10000) (as : List PyNumber) : ∀ (s : IntState) (o : Option Nat), Filled R s o →
    (as.zip (numberHistoryWith R s as)).Pairwise fun p q => ∀ x y, p.2 = .ok x → q.2 = .ok y →
      (x.id = y.id ↔ ∃ n, cachedIndex R p.1 = some n ∧ cachedIndex R q.1 = some n) := by
  induction as with
  | nil => intro s o _; exact .nil
  | cons a as ih =>
    intro s o h
    obtain ⟨o', st⟩ := step_number R hR s o h a
    simp only [numberHistoryWith, List.zip_cons_cons]
    refine .cons (fun q hq x y hx hy => ?_) (ih _ o' st.filled)
    obtain ⟨h1, h2⟩ := history_later R hR as _ o' st.filled q hq y hy
    have hfil := st.filled
    simp only at hx ⊢
    cases hp : cachedIndex R a with
    | some n =>
      obtain ⟨b, hb, hi⟩ := st.cached x n hx hp
      rw [hb] at hfil
      have hn := cachedIndex_some.mp hp
      cases hq' : cachedIndex R q.1 with
      | some m =>
        obtain ⟨b', hj, hb', _⟩ := h1 m hq'
        have := hb' b hb
        have hm := cachedIndex_some.mp hq'
        simp only [Option.some.injEq]
        constructor
        · intro e; exact ⟨n, rfl, by omega⟩
        · rintro ⟨_, rfl, rfl⟩; omega
      | none =>
        have hl := h2 hq'
        have := hfil.2
        constructor
        · intro e; omega
        · rintro ⟨_, _, e⟩; cases e
    | none =>
      obtain ⟨ho, hlo, hhi⟩ := st.fresh x hx hp
      constructor
      · intro e
        exfalso
        cases hq' : cachedIndex R q.1 with
        | none => have := h2 hq'; omega
        | some m =>
          obtain ⟨b', hj, hb', hl⟩ := h1 m hq'
          have hm := cachedIndex_some.mp hq'
          cases ho' : o' with
          | none => have := hl ho'; omega
          | some b =>
            have e1 := hb' b ho'
            rw [ho'] at ho
            rw [← ho] at h
            have := h.2
            omega
      · rintro ⟨_, e, _⟩; cases e

/-! ## C144 -/

/-- C144: in any history of calls of `construct_integer`, with arguments of any kinds, failed calls included, every call gives what its
argument alone says. -/
theorem C144_answers (calls : List PyNumber) :
    List.Forall₂ (fun a r => Answers a (r.map (·.value))) calls (numberHistory .init calls) := by
  rw [numberHistory_eq]
  exact history_answers _ rfl calls .init none rfl

/-- C144: and that is one thing. -/
theorem C144_decided (a : PyNumber) (r r' : Except PyErr WordForm) (h : Answers a r) (h' : Answers a r') : r = r' := answers_unique h h'

/-- C144: two calls return one object if and only if both asked for the same `int` from 0 to 10000 (`True` and `False` are the `int`s 1
and 0); what is outside, and a number such as `20000.0`, is built anew. -/
theorem C144_identity (calls : List PyNumber) :
    (calls.zip (numberHistory .init calls)).Pairwise fun p q => ∀ x y, p.2 = .ok x → q.2 = .ok y →
      (x.id = y.id ↔ ∃ n, asInteger p.1 = some n ∧ asInteger q.1 = some n ∧ 0 ≤ n ∧ n ≤ 10000) := by
  rw [numberHistory_eq]
  refine (history_identity _ rfl calls .init none rfl).imp fun {p q} h x y hx hy => (h x y hx hy).trans ?_
  constructor
  · rintro ⟨n, h1, h2⟩
    have a := cachedIndex_some.mp h1
    have b := cachedIndex_some.mp h2
    exact ⟨n, a.1, b.1, a.2.1, a.2.2⟩
  · rintro ⟨n, h1, h2, h3, h4⟩
    exact ⟨n, cachedIndex_some.mpr ⟨h1, h3, h4⟩, cachedIndex_some.mpr ⟨h2, h3, h4⟩⟩

example : Answers (.int 5) (.ok (numeral (str! "5") .NUMBER_PLURAL .INTEGER_FORM_PLURAL)) := by
  have h := Answers.integer (.int 5) 5 rfl
  rwa [show pyStr 5 = str! "5" from by decide +kernel, show agreementClass 5 = .INTEGER_FORM_PLURAL from by decide +kernel] at h
example : Answers (.bool true) (.ok (numeral (str! "1") .NUMBER_SINGULAR .INTEGER_FORM_SINGULAR)) := by
  have h := Answers.integer (.bool true) 1 rfl
  rwa [show pyStr 1 = str! "1" from by decide +kernel, show agreementClass 1 = .INTEGER_FORM_SINGULAR from by decide +kernel] at h
example : Answers (.real (str! "5.0") (some 5)) (.error .TypeError) := .within _ 5 (by norm_num) (by norm_num)
example : Answers (.real (str! "-21.0") (some (-21))) (.ok (numeral (str! "-21.0") .NUMBER_PLURAL .INTEGER_FORM_SINGULAR)) := by
  have h := Answers.whole (str! "-21.0") (-21) (by omega)
  rw [show agreementClass (-21) = .INTEGER_FORM_SINGULAR from by decide +kernel] at h
  exact_mod_cast h
/-- The code: `-2.5` agrees as a number that ends in 2 or 3, `-4.5` as one that ends in 0. -/
example : Answers (.real (str! "-2.5") (some (-5 / 2))) (.ok (numeral (str! "-2.5") .NUMBER_PLURAL .INTEGER_FORM_COMPOSITE_DUAL)) := by
  have h := Answers.fraction (str! "-2.5") (-5 / 2) 2 (by norm_num) (by norm_num [abs_of_neg]) (by norm_num [abs_of_neg])
  rwa [show fractionClass (2 : Nat) = .INTEGER_FORM_COMPOSITE_DUAL from by decide +kernel] at h
example : Answers (.real (str! "-4.5") (some (-9 / 2))) (.ok (numeral (str! "-4.5") .NUMBER_PLURAL .INTEGER_FORM_PLURAL)) := by
  have h := Answers.fraction (str! "-4.5") (-9 / 2) 4 (by norm_num) (by norm_num [abs_of_neg]) (by norm_num [abs_of_neg])
  rwa [show fractionClass (4 : Nat) = .INTEGER_FORM_PLURAL from by decide +kernel] at h

end Utg
