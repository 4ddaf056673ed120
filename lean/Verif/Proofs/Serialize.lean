import Verif.Proofs.Properties
import Verif.Proofs.Str
/-! # Serialization of `Properties` -/

namespace Utg
open Py Spec

theorem forall₂_append_right {α β : Type} {R : α → β → Prop} {l : List α} {o1 o2 : List β}
    (h : List.Forall₂ R l (o1 ++ o2)) : ∃ l1 l2, List.Forall₂ R l1 o1 ∧ List.Forall₂ R l2 o2 ∧ l = l1 ++ l2 := by
  induction o1 generalizing l with
  | nil => exact ⟨[], l, .nil, h, rfl⟩
  | cons o o1 ih =>
    cases h with
    | cons hh ht =>
      obtain ⟨l1, l2, h1, h2, rfl⟩ := ih ht
      exact ⟨_ :: l1, l2, .cons hh h1, h2, rfl⟩

theorem forall₂_append_left {α β : Type} {R : α → β → Prop} {l : List β} {o1 o2 : List α}
    (h : List.Forall₂ R (o1 ++ o2) l) : ∃ l1 l2, List.Forall₂ R o1 l1 ∧ List.Forall₂ R o2 l2 ∧ l = l1 ++ l2 := by
  induction o1 generalizing l with
  | nil => exact ⟨[], l, .nil, h, rfl⟩
  | cons o o1 ih =>
    cases h with
    | cons hh ht =>
      obtain ⟨l1, l2, h1, h2, rfl⟩ := ih ht
      exact ⟨_ :: l1, l2, .cons hh h1, h2, rfl⟩

theorem groupOfCode_code (g : Group) : groupOfCode (g.code : Int) = some g := by cases g <;> decide

theorem groupOfCode_some {n : Int} {g : Group} (h : groupOfCode n = some g) : (g.code : Int) = n := by
  have := List.find?_some h; simpa using this

theorem recOfValue_value (r : Rec) : recOfValue r.group (r.value : Int) = some r := by cases r <;> decide

theorem recOfValue_some {g : Group} {v : Int} {r : Rec} (h : recOfValue g v = some r) : r.group = g ∧ (r.value : Int) = v := by
  refine ⟨mem_records_iff.mp (List.mem_of_find?_eq_some h), ?_⟩
  have := List.find?_some h; simpa using this

/-- What one item yields. -/
theorem deserializeItem_iff {kv : JKey × Int} {n : Int} (hn : kv.1.toInt = .ok n) :
    ∃ o, deserializeItem kv = .ok o ∧ ∀ r, o = some r ↔ Denotes kv r := by
  unfold deserializeItem
  rw [hn]
  simp only [bind, Except.bind]
  cases hg : groupOfCode n with
  | none =>
    refine ⟨none, rfl, fun r => ⟨fun h => by simp at h, ?_⟩⟩
    rintro ⟨h1, _⟩
    rw [hn] at h1; injection h1 with h1
    rw [h1, groupOfCode_code] at hg; simp at hg
  | some g =>
    refine ⟨_, rfl, fun r => ⟨fun h => ?_, ?_⟩⟩
    · obtain ⟨h1, h2⟩ := recOfValue_some h
      refine ⟨?_, h2.symm⟩
      rw [hn, h1, groupOfCode_some hg]
    · rintro ⟨h1, h2⟩
      rw [hn] at h1; injection h1 with h1
      rw [h1, groupOfCode_code] at hg; injection hg with hg
      subst hg; rw [h2]; exact recOfValue_value r

theorem mapM_items (d : Dict JKey Int) (h : ∀ kv ∈ d, ∃ n, kv.1.toInt = .ok n) :
    ∃ os, d.mapM deserializeItem = .ok os ∧
      List.Forall₂ (fun kv o => ∀ r, o = some r ↔ Denotes kv r) d os := by
  induction d with
  | nil => exact ⟨[], rfl, .nil⟩
  | cons kv d ih =>
    obtain ⟨n, hn⟩ := h kv (by simp)
    obtain ⟨o, ho, ho2⟩ := deserializeItem_iff hn
    obtain ⟨os, hos, hos2⟩ := ih (fun kv' h' => h kv' (List.mem_cons_of_mem _ h'))
    refine ⟨o :: os, ?_, .cons ho2 hos2⟩
    rw [List.mapM_cons, ho, hos]; rfl

/-- The list of records a serialized dictionary denotes, in order. -/
theorem deserialize_records (d : Dict JKey Int) (h : ∀ kv ∈ d, ∃ n, kv.1.toInt = .ok n) :
    ∃ os, Properties.deserialize d = .ok (.new ((os.filterMap id).map .record)) ∧
      List.Forall₂ (fun kv o => ∀ r, o = some r ↔ Denotes kv r) d os := by
  obtain ⟨os, h1, h2⟩ := mapM_items d h
  refine ⟨os, ?_, h2⟩
  unfold Properties.deserialize
  rw [h1]; rfl

/-- Lookup in an object built from records: the last record of the group. -/
theorem records_get? (rs : List Rec) (g : Group) :
    (Properties.new (rs.map .record)).data.get? g = rs.reverse.find? fun r => decide (r.group = g) := by
  rw [new_get? (wfargs_records rs), ← List.map_reverse]
  generalize rs.reverse = l
  induction l with
  | nil => rfl
  | cons r l ih =>
    rw [List.map_cons, List.findSome?_cons, List.find?_cons]
    have ha : argGet (.record r) g = if r.group = g then some r else none := rfl
    rw [ha]
    by_cases hr : r.group = g
    · simp [hr]
    · simp [hr]; simpa using ih

theorem deserialize_wf {data : Dict JKey Int} {p : Properties} (h : Properties.deserialize data = .ok p) : WFProps p := by
  unfold Properties.deserialize at h
  cases hm : data.mapM deserializeItem with
  | error e => simp [hm, bind, Except.bind] at h
  | ok rs =>
    simp [hm, bind, Except.bind] at h
    subst h
    exact wf_new (by intro p hp; simp at hp)

end Utg
