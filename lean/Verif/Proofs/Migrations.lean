import Verif.Spec.Migrations
import Verif.Proofs.Layout
import Verif.Proofs.Plan7
import Verif.Proofs.Plan8
import Verif.Proofs.Plan9
import Verif.Model.Migrations
import Verif.Proofs.Words
import Verif.Proofs.Templates
/-!
# Facts about the frozen-table migrations
-/

namespace Utg
open Py Spec

theorem moves_foldlM (near : Key → Except PyErr Nat) (fs : List Str) (ks : List Key) (plan : List Nat)
    (h : List.Forall₂ (fun k i => near k = .ok i) ks plan) (hb : ∀ i ∈ plan, i < fs.length) (rs : List Str) :
    (ks.zipIdx rs.length).foldlM
      (fun newForms e => do moveForm fs newForms e.2 (← near e.1)) (rs ++ List.replicate ks.length [])
      = .ok (rs ++ plan.map fun i => fs.getD i []) := by
  induction h generalizing rs with
  | nil => simp [pure, Except.pure]
  | @cons k i ks plan hk hrest ih =>
    have hi : i < fs.length := hb i (by simp)
    rw [List.zipIdx_cons, List.foldlM_cons]
    simp only [hk]
    have hm : moveForm fs (rs ++ List.replicate (k :: ks).length []) rs.length i
        = .ok ((rs ++ [fs.getD i []]) ++ List.replicate ks.length []) := by
      unfold moveForm
      rw [List.getElem?_eq_getElem hi]
      simp only [List.length_append, List.length_replicate, List.length_cons]
      rw [if_pos (by omega)]
      simp [List.replicate_succ, hi]
    have := ih (fun j hj => hb j (by simp [hj])) (rs ++ [fs.getD i []])
    simp only [List.length_append, List.length_cons, List.length_nil] at this
    simp only [bind, Except.bind] at this ⊢
    rw [hm]
    simp only [this]
    simp

theorem moves_plan {near : Key → Except PyErr Nat} {new : Dict Key Nat} {fs : List Str} {plan : List Nat}
    (hnew : new = new.keys.zipIdx) (hplan : new.keys.mapM near = .ok plan) (hb : ∀ i ∈ plan, i < fs.length) :
    new.foldlM (fun newForms e => do moveForm fs newForms e.2 (← near e.1)) (List.replicate new.length [])
      = .ok (plan.map fun i => fs.getD i []) := by
  have := moves_foldlM near fs new.keys plan (forall₂_of_mapM hplan) hb []
  simp only [List.length_nil, List.nil_append] at this
  rw [← this]
  have hl : new.length = new.keys.length := by simp [Dict.keys]
  rw [hl, ← hnew]

theorem migrateForms_plan {old new : Dict Key Nat} {fs : List Str} {plan : List Nat}
    (hnew : new = new.keys.zipIdx) (hplan : new.keys.mapM (getNearestOldIndex · old) = .ok plan)
    (hb : ∀ i ∈ plan, i < fs.length) : migrateForms old new fs = .ok (plan.map fun i => fs.getD i []) :=
  moves_plan hnew hplan hb

/-- `M0001.getNearestOldIndex` with `None` as the error it leads to. -/
def M0001.near (old : Dict Key Nat) (k : Key) : Except PyErr Nat :=
  match M0001.getNearestOldIndex k old with
  | none => .error .TypeError
  | some i => .ok i

theorem M0001.migrateForms_plan {old new : Dict Key Nat} {fs : List Str} {plan : List Nat}
    (hnew : new = new.keys.zipIdx) (hplan : new.keys.mapM (M0001.near old) = .ok plan)
    (hb : ∀ i ∈ plan, i < fs.length) : M0001.migrateForms old new fs = .ok (plan.map fun i => fs.getD i []) := by
  rw [← moves_plan hnew hplan hb]
  unfold M0001.migrateForms
  congr 1
  funext newForms e
  unfold M0001.near
  cases M0001.getNearestOldIndex e.1 old <;> rfl

theorem wordTypeOfValue_value (t : WordType) : wordTypeOfValue t.value = some t := by cases t <;> decide

theorem stored_map {after : Layout} (f : List Rec → Str) {m : List Rec} (hm : m ∈ after) :
    stored after (after.map f) m = some (f m) := by
  unfold stored
  rw [List.getElem?_map, List.getElem?_eq_getElem (List.idxOf_lt_length_of_mem hm)]
  simp

theorem stored_mem {before : Layout} {fs : List Str} (hl : fs.length = before.length) {m : List Rec} (hm : m ∈ before) :
    stored before fs m = some (fs.getD (before.idxOf m) []) := by
  unfold stored
  have : before.idxOf m < fs.length := by rw [hl]; exact List.idxOf_lt_length_of_mem hm
  simp [List.getD, this]

theorem stored_not_mem {before : Layout} {fs : List Str} (hl : fs.length = before.length) {m : List Rec} (hm : m ∉ before) :
    stored before fs m = none := by
  unfold stored
  rw [List.idxOf_eq_length hm, ← hl]
  simp

/-- What a frozen-table migration does, given the combination each new position takes its form from. -/
theorem migrateWith_spec {old new : WordType → Dict Key Nat} {before after : WordType → Layout} {t : WordType}
    {src : List Rec → List Rec} {d : WordData}
    (hnew : new t = (new t).keys.zipIdx)
    (hplan : (new t).keys.mapM (getNearestOldIndex · (old t)) = .ok ((after t).map fun m => (before t).idxOf (src m)))
    (hsrc : ∀ m ∈ after t, src m ∈ before t) (hd : InLayout before t d) :
    migrateWith old new d = .ok { d with forms := (after t).map fun m => d.forms.getD ((before t).idxOf (src m)) [] } := by
  unfold migrateWith
  rw [hd.type, wordTypeOfValue_value]
  simp only
  rw [migrateForms_plan hnew hplan]
  · simp [bind, Except.bind]
  · intro i hi
    obtain ⟨m, hm, rfl⟩ := List.mem_map.mp hi
    rw [hd.forms]
    exact List.idxOf_lt_length_of_mem (hsrc m hm)


theorem new7 (t : WordType) : M0007.newCaches t = (M0007.newCaches t).keys.zipIdx := by cases t <;> decide +kernel
theorem new8 (t : WordType) : M0008.newCaches t = (M0008.newCaches t).keys.zipIdx := by cases t <;> decide +kernel
theorem new9 (t : WordType) : M0009.newCaches t = (M0009.newCaches t).keys.zipIdx := by cases t <;> decide +kernel

theorem source7_mem (t : WordType) : ∀ m ∈ layoutBefore8 t, source7 t m ∈ layoutBefore7 t := by cases t <;> decide +kernel
theorem source8_mem (t : WordType) : ∀ m ∈ layoutBefore9 t, m ∈ layoutBefore8 t := by cases t <;> decide +kernel
theorem source9_mem (t : WordType) : ∀ m ∈ layoutNow t, source9 t m ∈ layoutBefore9 t := by cases t <;> decide +kernel

theorem layout8_perm (t : WordType) : (layoutBefore9 t).Perm (layoutBefore8 t) := by cases t <;> decide +kernel
theorem layout8_nodup (t : WordType) : (layoutBefore8 t).Nodup := by cases t <;> decide +kernel


end Utg
