import Verif.Model.Logic
import Verif.Proofs.Dict
/-! # Lemmas about `get_nearest_key` -/

namespace Utg
open Py

/-- The loop keeps the first maximum. -/
theorem nearestLoop_spec (key : Key) (as : List Key) (b : Key) (t : Nat) (ht : t = similarity key b) :
    ∃ b', nearestLoop key as (some (b, t)) = some (b', similarity key b') ∧
      ((b' = b ∧ ∀ a ∈ as, similarity key a ≤ t) ∨
        ∃ pre post, as = pre ++ b' :: post ∧ t < similarity key b' ∧ (∀ a ∈ pre, similarity key a < similarity key b') ∧
          ∀ a ∈ post, similarity key a ≤ similarity key b') := by
  induction as generalizing b t with
  | nil => exact ⟨b, by simp [nearestLoop, ht], Or.inl ⟨rfl, by simp⟩⟩
  | cons a as ih =>
    simp only [nearestLoop]
    by_cases h : t < similarity key a
    · rw [if_pos h]
      obtain ⟨b', h1, h2⟩ := ih a (similarity key a) rfl
      refine ⟨b', h1, Or.inr ?_⟩
      rcases h2 with ⟨rfl, h3⟩ | ⟨pre, post, rfl, h3, h4, h5⟩
      · exact ⟨[], as, rfl, h, by simp, h3⟩
      · refine ⟨a :: pre, post, rfl, Nat.lt_trans h h3, ?_, h5⟩
        intro x hx
        rcases List.mem_cons.mp hx with rfl | hx
        · exact h3
        · exact h4 x hx
    · rw [if_neg h]
      obtain ⟨b', h1, h2⟩ := ih b t ht
      refine ⟨b', h1, ?_⟩
      rcases h2 with ⟨rfl, h3⟩ | ⟨pre, post, rfl, h3, h4, h5⟩
      · left; refine ⟨rfl, ?_⟩
        intro x hx
        rcases List.mem_cons.mp hx with rfl | hx
        · exact Nat.le_of_not_lt h
        · exact h3 x hx
      · right; refine ⟨a :: pre, post, rfl, h3, ?_, h5⟩
        intro x hx
        rcases List.mem_cons.mp hx with rfl | hx
        · exact Nat.lt_of_le_of_lt (Nat.le_of_not_lt h) h3
        · exact h4 x hx

theorem getNearestKey_nil (key : Key) : getNearestKey key [] = none := rfl

/-- The result is the first available key of maximal similarity. -/
theorem getNearestKey_spec (key : Key) (avail : List Key) (h : avail ≠ []) :
    ∃ b pre post, getNearestKey key avail = some b ∧ avail = pre ++ b :: post ∧
      (∀ a ∈ pre, similarity key a < similarity key b) ∧ ∀ a ∈ post, similarity key a ≤ similarity key b := by
  cases avail with
  | nil => exact absurd rfl h
  | cons a as =>
    obtain ⟨b', h1, h2⟩ := nearestLoop_spec key as a (similarity key a) rfl
    have : getNearestKey key (a :: as) = some b' := by simp [getNearestKey, nearestLoop, h1]
    rcases h2 with ⟨rfl, h3⟩ | ⟨pre, post, rfl, h3, h4, h5⟩
    · exact ⟨b', [], as, this, rfl, by simp, h3⟩
    · refine ⟨b', a :: pre, post, this, rfl, ?_, h5⟩
      intro x hx
      rcases List.mem_cons.mp hx with rfl | hx
      · exact h3
      · exact h4 x hx

theorem getNearestKey_eq_none {key : Key} {avail : List Key} : getNearestKey key avail = none ↔ avail = [] := by
  constructor
  · intro h
    by_cases h2 : avail = []
    · exact h2
    · obtain ⟨b, _, _, h3, _⟩ := getNearestKey_spec key avail h2; rw [h] at h3; simp at h3
  · rintro rfl; rfl

theorem getNearestKey_mem {key : Key} {avail : List Key} {b : Key} (h : getNearestKey key avail = some b) : b ∈ avail := by
  have hne : avail ≠ [] := by intro e; subst e; simp [getNearestKey_nil] at h
  obtain ⟨b', pre, post, h1, rfl, _⟩ := getNearestKey_spec key avail hne
  rw [h] at h1; injection h1 with h1; subst h1; simp

theorem getNearestKey_max {key : Key} {avail : List Key} {b : Key} (h : getNearestKey key avail = some b) :
    ∀ a ∈ avail, similarity key a ≤ similarity key b := by
  have hne : avail ≠ [] := by intro e; subst e; simp [getNearestKey_nil] at h
  obtain ⟨b', pre, post, h1, rfl, h2, h3⟩ := getNearestKey_spec key avail hne
  rw [h] at h1; injection h1 with h1; subst h1
  intro a ha
  rcases List.mem_append.mp ha with ha | ha
  · exact Nat.le_of_lt (h2 a ha)
  · rcases List.mem_cons.mp ha with rfl | ha
    · exact Nat.le_refl _
    · exact h3 a ha

/-! ## Float rounding -/

theorem round_error {n : Nat} (h : n < 2 ^ 66) : F64.round n ≤ n + 2 ^ 12 ∧ n ≤ F64.round n + 2 ^ 12 := by
  unfold F64.round
  split
  · omega
  · rename_i h53
    have hne : n ≠ 0 := by intro e; subst e; exact h53 (by decide)
    have hlog : Nat.log2 n < 66 := (Nat.log2_lt hne).mpr h
    have hexp : Nat.log2 n - 52 ≤ 13 := by omega
    have hu : 2 ^ (Nat.log2 n - 52) ≤ 2 ^ 13 := Nat.pow_le_pow_right (by decide) hexp
    have hupos : 0 < 2 ^ (Nat.log2 n - 52) := Nat.pow_pos (by decide)
    simp only
    generalize 2 ^ (Nat.log2 n - 52) = u at hu hupos
    have hdm := Nat.div_add_mod n u
    have hmod := Nat.mod_lt n hupos
    have hcomm : u * (n / u) = n / u * u := Nat.mul_comm _ _
    have hsucc : (n / u + 1) * u = n / u * u + u := Nat.succ_mul _ _
    split
    · omega
    · split
      · rw [hsucc]; omega
      · split
        · omega
        · rw [hsucc]; omega

/-- One term: `1 + 0.01 * index`, scaled by 100, is `100 + index` up to a small error (all in units of `2^-60`). -/
theorem simTerm_error {i : Nat} (h : i < 40) :
    100 * simTerm i ≤ (100 + i) * 2 ^ 60 + 100 * 2 ^ 14 ∧ (100 + i) * 2 ^ 60 ≤ 100 * simTerm i + 100 * 2 ^ 14 := by
  unfold simTerm F64.add F64.mulNat F64.c001 F64.one
  have h1 : 5764607523034235 * 2 * i < 2 ^ 66 := by
    have : 5764607523034235 * 2 * i ≤ 5764607523034235 * 2 * 40 := Nat.mul_le_mul_left _ (by omega)
    omega
  have e1 := round_error h1
  generalize hm : F64.round (5764607523034235 * 2 * i) = m at e1
  have h2 : 2 ^ 60 + m < 2 ^ 66 := by
    have : 5764607523034235 * 2 * i ≤ 5764607523034235 * 2 * 40 := Nat.mul_le_mul_left _ (by omega)
    omega
  have e2 := round_error h2
  omega

/-- The exact similarity in hundredths: `100 + position` for each matching position. -/
def scoreFrom (index : Nat) : Key → Key → Nat
  | k :: ks, a :: as => (if k = a then 100 + index else 0) + scoreFrom (index + 1) ks as
  | _, _ => 0

/-- The exact similarity in hundredths. -/
def score (key a : Key) : Nat := scoreFrom 0 key a

theorem similarityFrom_error (n : Nat) : ∀ (index : Nat) (acc : Nat) (key a : Key) (e : Nat), n = key.length →
    index + n ≤ 40 → e ≤ 140 * index →
    100 * acc ≤ 2 ^ 60 * e + 3276800 * index → 2 ^ 60 * e ≤ 100 * acc + 3276800 * index →
    100 * similarityFrom index acc key a ≤ 2 ^ 60 * (e + scoreFrom index key a) + 3276800 * (index + n) ∧
    2 ^ 60 * (e + scoreFrom index key a) ≤ 100 * similarityFrom index acc key a + 3276800 * (index + n) := by
  induction n with
  | zero =>
    intro index acc key a e hn hi he h1 h2
    have : key = [] := List.length_eq_zero_iff.mp hn.symm
    subst this
    simp only [similarityFrom, scoreFrom, Nat.add_zero]; exact ⟨h1, h2⟩
  | succ n ih =>
    intro index acc key a e hn hi he h1 h2
    cases key with
    | nil => simp at hn
    | cons k ks =>
      cases a with
      | nil => simp only [similarityFrom, scoreFrom, Nat.add_zero]; constructor <;> omega
      | cons x xs =>
        simp only [similarityFrom, scoreFrom]
        simp only [List.length_cons, Nat.add_right_cancel_iff] at hn
        by_cases hk : k = x
        · rw [if_pos hk, if_pos hk]
          have ht := simTerm_error (i := index) (by omega)
          generalize simTerm index = t at ht
          have hsum : acc + t < 2 ^ 66 := by omega
          have hr := round_error hsum
          have h3 : 100 * F64.add acc t ≤ 2 ^ 60 * (e + (100 + index)) + 3276800 * (index + 1) := by
            unfold F64.add; generalize F64.round (acc + t) = r at hr ⊢; omega
          have h4 : 2 ^ 60 * (e + (100 + index)) ≤ 100 * F64.add acc t + 3276800 * (index + 1) := by
            unfold F64.add; generalize F64.round (acc + t) = r at hr ⊢; omega
          have := ih (index + 1) (F64.add acc t) ks xs (e + (100 + index)) hn (by omega) (by omega) h3 h4
          generalize similarityFrom (index + 1) (F64.add acc t) ks xs = r at this ⊢
          constructor <;> omega
        · rw [if_neg hk, if_neg hk]
          have := ih (index + 1) acc ks xs e hn (by omega) (by omega) (by omega) (by omega)
          generalize similarityFrom (index + 1) acc ks xs = r at this ⊢
          constructor <;> omega

theorem similarity_error {key a : Key} (h : key.length ≤ 40) :
    100 * similarity key a < 2 ^ 60 * score key a + 2 ^ 59 ∧ 2 ^ 60 * score key a < 100 * similarity key a + 2 ^ 59 := by
  have := similarityFrom_error key.length 0 0 key a 0 rfl (by omega) (by omega) (by omega) (by omega)
  simp only [Nat.zero_add] at this
  unfold similarity score
  constructor <;> omega

/-- A strictly larger exact score has a strictly larger float similarity. -/
theorem similarity_lt_of_score_lt {key a b : Key} (h : key.length ≤ 40) (hs : score key a < score key b) :
    similarity key a < similarity key b := by
  have h1 := similarity_error (a := a) h
  have h2 := similarity_error (a := b) h
  omega

theorem score_le_of_similarity_le {key a b : Key} (h : key.length ≤ 40) (hs : similarity key a ≤ similarity key b) :
    score key a ≤ score key b := by
  have := @similarity_lt_of_score_lt key b a h
  omega

theorem scoreFrom_self_lt {i : Nat} {key a : Key} (hl : a.length = key.length) (h : a ≠ key) :
    scoreFrom i key a < scoreFrom i key key := by
  induction key generalizing i a with
  | nil => cases a <;> simp_all
  | cons k ks ih =>
    cases a with
    | nil => simp at hl
    | cons x xs =>
      simp only [List.length_cons, Nat.add_right_cancel_iff] at hl
      simp only [scoreFrom, if_true]
      have hle : ∀ (i : Nat) (ks xs : Key), scoreFrom i ks xs ≤ scoreFrom i ks ks := by
        intro i ks
        induction ks generalizing i with
        | nil => intro xs; simp [scoreFrom]
        | cons k ks ih => intro xs; cases xs with
          | nil => simp [scoreFrom]
          | cons x xs => simp only [scoreFrom, if_true]; have := ih (i + 1) xs; split <;> omega
      by_cases hk : k = x
      · subst hk
        have : xs ≠ ks := fun e => h (by rw [e])
        have := ih (i := i + 1) hl this
        simp; omega
      · have := hle (i + 1) ks xs
        rw [if_neg hk]; omega

/-- An available key is its own nearest key. -/
theorem getNearestKey_self {key : Key} {avail : List Key} (h : key.length ≤ 40) (hl : ∀ a ∈ avail, a.length = key.length)
    (hm : key ∈ avail) : getNearestKey key avail = some key := by
  obtain ⟨b, hb⟩ : ∃ b, getNearestKey key avail = some b := by
    cases hg : getNearestKey key avail with
    | none => rw [getNearestKey_eq_none] at hg; subst hg; simp at hm
    | some b => exact ⟨b, rfl⟩
  rw [hb]
  by_cases hne : b = key
  · rw [hne]
  · have h1 := scoreFrom_self_lt (i := 0) (hl b (getNearestKey_mem hb)) hne
    have h2 := score_le_of_similarity_le h (getNearestKey_max hb key hm)
    unfold score at h2; omega

end Utg
