import Verif.Py.Dict
import Mathlib.Data.List.Nodup
import Mathlib.Data.List.Perm.Subperm
/-! # Lemmas about Python dictionaries -/

namespace Py.Dict
variable {K V : Type} [DecidableEq K]

@[simp] theorem get?_nil (k : K) : get? ([] : Dict K V) k = none := rfl

theorem get?_set (d : Dict K V) (k k' : K) (v : V) : get? (set d k v) k' = if k = k' then some v else get? d k' := by
  induction d with
  | nil => simp [set, get?]
  | cons e d ih =>
    obtain ⟨a, b⟩ := e
    by_cases h : a = k
    · subst h; by_cases h2 : a = k' <;> simp [set, get?, h2]
    · by_cases h2 : a = k'
      · subst h2; have h3 : ¬ k = a := fun e => h e.symm
        simp [set, get?, h, h3]
      · simp [set, get?, h, h2, ih]

theorem keys_set (d : Dict K V) (k : K) (v : V) : keys (set d k v) = if k ∈ keys d then keys d else keys d ++ [k] := by
  induction d with
  | nil => simp [set, keys]
  | cons e d ih =>
    obtain ⟨a, b⟩ := e
    by_cases h : a = k
    · subst h; simp [set, keys]
    · have h' : ¬ k = a := fun e => h e.symm
      simp only [set, h, if_false, keys, List.map_cons, List.mem_cons, h', false_or] at *
      by_cases h2 : k ∈ List.map Prod.fst d
      · simp [h2] at ih; simp [h2, ih]
      · simp [h2] at ih; simp [h2, ih]

theorem nodup_set {d : Dict K V} (h : (keys d).Nodup) (k : K) (v : V) : (keys (set d k v)).Nodup := by
  rw [keys_set]; split
  · exact h
  · rename_i h2; rw [List.nodup_append]; refine ⟨h, by simp, ?_⟩
    intro a ha b hb; simp at hb; subst hb; intro e; subst e; exact h2 ha

theorem get?_eq_none {d : Dict K V} {k : K} : get? d k = none ↔ k ∉ keys d := by
  induction d with
  | nil => simp [keys]
  | cons e d ih =>
    obtain ⟨a, b⟩ := e
    by_cases h : a = k
    · subst h; simp [get?, keys]
    · have h' : ¬ k = a := fun e => h e.symm
      simp only [keys] at ih
      simp [get?, h, keys, h', ih]

theorem contains_iff {d : Dict K V} {k : K} : contains d k = true ↔ k ∈ keys d := by
  unfold contains
  cases h : get? d k with
  | none => simp [get?_eq_none.mp h]
  | some v =>
    have : ¬ (get? d k = none) := by simp [h]
    rw [get?_eq_none] at this; simpa using this

theorem mem_of_get? {d : Dict K V} {k : K} {v : V} (h : get? d k = some v) : (k, v) ∈ d := by
  induction d with
  | nil => simp at h
  | cons e d ih =>
    obtain ⟨a, b⟩ := e
    by_cases h2 : a = k
    · subst h2; simp [get?] at h; subst h; simp
    · simp [get?, h2] at h; exact List.mem_cons_of_mem _ (ih h)

theorem get?_of_mem {d : Dict K V} (hd : (keys d).Nodup) {k : K} {v : V} (h : (k, v) ∈ d) : get? d k = some v := by
  induction d with
  | nil => simp at h
  | cons e d ih =>
    obtain ⟨a, b⟩ := e
    simp only [keys, List.map_cons, List.nodup_cons] at hd
    rcases List.mem_cons.mp h with h | h
    · cases h; simp [get?]
    · have : a ≠ k := by
        intro e; subst e; exact hd.1 (List.mem_map_of_mem (f := Prod.fst) h)
      simp [get?, this]; exact ih hd.2 h

theorem mem_iff_get? {d : Dict K V} (hd : (keys d).Nodup) {k : K} {v : V} : (k, v) ∈ d ↔ get? d k = some v :=
  ⟨get?_of_mem hd, mem_of_get?⟩

theorem get?_append (d e : Dict K V) (k : K) : get? (d ++ e) k = (get? d k).or (get? e k) := by
  induction d with
  | nil => simp
  | cons x d ih =>
    obtain ⟨a, b⟩ := x
    by_cases h : a = k <;> simp [get?, h, ih]

theorem update_cons (d e : Dict K V) (kv : K × V) : update d (kv :: e) = update (set d kv.1 kv.2) e := rfl

/-- `update` reads like the last matching item of `e`. -/
theorem get?_update (d e : Dict K V) (k : K) : get? (update d e) k = (get? e.reverse k).or (get? d k) := by
  induction e generalizing d with
  | nil => simp [update]
  | cons x e ih =>
    obtain ⟨a, b⟩ := x
    rw [update_cons, ih, List.reverse_cons, get?_append, get?_set, Option.or_assoc]
    congr 1
    by_cases h : a = k <;> simp [get?, h]

theorem get?_reverse {e : Dict K V} (he : (keys e).Nodup) (k : K) : get? e.reverse k = get? e k := by
  have hr : (keys e.reverse).Nodup := by
    unfold keys; rw [List.map_reverse]; exact List.pairwise_reverse.mpr (List.Pairwise.imp (fun h => Ne.symm h) he)
  cases h : get? e k with
  | none =>
    rw [get?_eq_none] at *
    simpa [keys] using h
  | some v => exact get?_of_mem hr (by simpa using mem_of_get? h)

theorem get?_update' (d : Dict K V) {e : Dict K V} (he : (keys e).Nodup) (k : K) :
    get? (update d e) k = (get? e k).or (get? d k) := by
  rw [get?_update, get?_reverse he]

theorem nodup_update {d : Dict K V} (h : (keys d).Nodup) (e : Dict K V) : (keys (update d e)).Nodup := by
  induction e generalizing d with
  | nil => exact h
  | cons x e ih => exact ih (nodup_set h _ _)

theorem mem_keys_set {d : Dict K V} {k k' : K} {v : V} : k' ∈ keys (set d k v) ↔ k' = k ∨ k' ∈ keys d := by
  rw [keys_set]; split
  · constructor
    · exact Or.inr
    · rintro (h | h)
      · subst h; assumption
      · exact h
  · simp [or_comm]

omit [DecidableEq K] in
theorem length_keys (d : Dict K V) : (keys d).length = d.length := by simp [keys]

/-- Python's `==` on dictionaries with distinct keys is equality of lookups. -/
theorem beq_iff [DecidableEq V] {d e : Dict K V} (hd : (keys d).Nodup) (he : (keys e).Nodup) :
    beq d e = true ↔ ∀ k, get? d k = get? e k := by
  constructor
  · intro h
    simp only [beq, Bool.and_eq_true, beq_iff_eq, List.all_eq_true] at h
    obtain ⟨hl, hall⟩ := h
    have hsub : ∀ k ∈ keys d, k ∈ keys e := by
      intro k hk
      obtain ⟨kv, hkv, rfl⟩ := List.mem_map.mp hk
      have := hall kv hkv
      have hn : ¬ get? e kv.1 = none := by simp [this]
      rw [get?_eq_none] at hn; simpa using hn
    have hsub2 : ∀ k ∈ keys e, k ∈ keys d := by
      have hp : (keys d).Subperm (keys e) := List.subperm_of_subset hd hsub
      have := hp.perm_of_length_le (by rw [length_keys, length_keys]; omega)
      intro k hk; exact this.mem_iff.mpr hk
    intro k
    cases hk : get? d k with
    | some v =>
      exact (hall (k, v) (mem_of_get? hk)).symm
    | none =>
      rw [get?_eq_none] at hk
      have : k ∉ keys e := fun h => hk (hsub2 k h)
      exact (get?_eq_none.mpr this).symm
  · intro h
    simp only [beq, Bool.and_eq_true, beq_iff_eq, List.all_eq_true]
    constructor
    · have hmem : ∀ k, k ∈ keys d ↔ k ∈ keys e := by
        intro k; rw [← not_iff_not, ← get?_eq_none, ← get?_eq_none, h]
      have : (keys d).Perm (keys e) := (List.perm_ext_iff_of_nodup hd he).mpr hmem
      have := this.length_eq; rwa [length_keys, length_keys] at this
    · intro kv hkv
      rw [← h]; exact get?_of_mem hd hkv

end Py.Dict
