import Verif.Spec.Lazy
/-! # Property C54: lazy properties -/

namespace Utg
open Spec

variable {S V : Type}

theorem lazyAfter_state (func : S → V) (o : LazyObj S V) (ops : List (LazyOp S)) :
    (ops.foldl (LazyOp.apply func) o).state = stateAfter o.state ops := by
  induction ops generalizing o with
  | nil => rfl
  | cons op ops ih =>
    rw [List.foldl_cons, ih]
    cases op with
    | read => simp only [LazyOp.apply, LazyObj.read, stateAfter]; split <;> rfl
    | delete => rfl
    | mutate s => rfl

theorem mutations_hidden (func : S → V) (o : LazyObj S V) (ops : List (LazyOp S)) (h : ∀ op ∈ ops, ∃ s, op = LazyOp.mutate s) :
    (ops.foldl (LazyOp.apply func) o).hidden = o.hidden := by
  induction ops generalizing o with
  | nil => rfl
  | cons op ops ih =>
    rw [List.foldl_cons, ih _ (fun x hx => h x (List.mem_cons_of_mem _ hx))]
    obtain ⟨s, rfl⟩ := h op (List.mem_cons_self ..)
    rfl

theorem unread_hidden (func : S → V) (s : S) (ops : List (LazyOp S)) (h : Unread ops) :
    (lazyAfter func s ops).hidden = none := by
  obtain ⟨pre, post, rfl, hpre, hpost⟩ := h
  unfold lazyAfter
  rw [List.foldl_append, mutations_hidden _ _ _ hpost]
  rcases hpre with rfl | ⟨p, rfl⟩
  · rfl
  · rw [List.foldl_append]; rfl

theorem kept_hidden (func : S → V) (o : LazyObj S V) (v : V) (ho : o.hidden = some v) (ops : List (LazyOp S))
    (h : ∀ op ∈ ops, op ≠ LazyOp.delete) : (ops.foldl (LazyOp.apply func) o).hidden = some v := by
  induction ops generalizing o with
  | nil => exact ho
  | cons op ops ih =>
    rw [List.foldl_cons]
    apply ih _ _ (fun x hx => h x (List.mem_cons_of_mem _ hx))
    cases op with
    | read => simp only [LazyOp.apply, LazyObj.read, ho]
    | delete => exact absurd rfl (h _ (List.mem_cons_self ..))
    | mutate s => exact ho

/-- C54: the first read since creation or the last delete computes the value from the current state. -/
theorem C54_first_read (func : S → V) (s : S) (ops : List (LazyOp S)) (h : Unread ops) :
    readAfter func s ops = func (stateAfter s ops) := by
  unfold readAfter LazyObj.read
  rw [unread_hidden func s ops h]
  have := lazyAfter_state func ⟨s, none⟩ ops
  show func (lazyAfter func s ops).state = _
  rw [show (lazyAfter func s ops).state = _ from this]

/-- C54: later reads give that value again, whatever else happens, until the next delete. -/
theorem C54_later_reads (func : S → V) (s : S) (ops later : List (LazyOp S)) (h : Unread ops)
    (hl : ∀ op ∈ later, op ≠ LazyOp.delete) :
    readAfter func s (ops ++ .read :: later) = readAfter func s ops := by
  rw [C54_first_read func s ops h]
  have h1 : ((lazyAfter func s ops).read func).2.hidden = some (func (stateAfter s ops)) := by
    unfold LazyObj.read
    rw [unread_hidden func s ops h]
    show some (func (lazyAfter func s ops).state) = _
    rw [show (lazyAfter func s ops).state = _ from lazyAfter_state func ⟨s, none⟩ ops]
  have h2 : (lazyAfter func s (ops ++ .read :: later)).hidden = some (func (stateAfter s ops)) := by
    unfold lazyAfter
    rw [List.foldl_append, List.foldl_cons]
    exact kept_hidden func _ _ h1 later hl
  show ((lazyAfter func s (ops ++ .read :: later)).read func).1 = _
  unfold LazyObj.read; rw [h2]

/-- C54: the two cases above are the only ones: every history either has no read since creation or the last delete, or
splits at the first such read. -/
theorem C54_cases (ops : List (LazyOp S)) :
    Unread ops ∨ ∃ before later, ops = before ++ .read :: later ∧ Unread before ∧ ∀ op ∈ later, op ≠ LazyOp.delete := by
  suffices h : ∀ rev : List (LazyOp S), Unread rev.reverse ∨ ∃ before later, rev.reverse = before ++ .read :: later ∧
      Unread before ∧ ∀ op ∈ later, op ≠ LazyOp.delete by simpa using h ops.reverse
  intro rev
  induction rev with
  | nil => exact Or.inl ⟨[], [], rfl, Or.inl rfl, by simp⟩
  | cons op rev ih =>
    rw [List.reverse_cons]
    cases op with
    | delete => exact Or.inl ⟨rev.reverse ++ [.delete], [], by simp, Or.inr ⟨_, rfl⟩, by simp⟩
    | read =>
      rcases ih with h | ⟨b, l, h1, h2, h3⟩
      · exact Or.inr ⟨rev.reverse, [], rfl, h, by simp⟩
      · refine Or.inr ⟨b, l ++ [.read], by rw [h1]; simp, h2, ?_⟩
        intro x hx
        rcases List.mem_append.mp hx with hx | hx
        · exact h3 x hx
        · rw [List.mem_singleton] at hx; subst hx; intro h; cases h
    | mutate s =>
      rcases ih with ⟨p, q, h1, h2, h3⟩ | ⟨b, l, h1, h2, h3⟩
      · refine Or.inl ⟨p, q ++ [.mutate s], by rw [h1]; simp, h2, ?_⟩
        intro x hx
        rcases List.mem_append.mp hx with hx | hx
        · exact h3 x hx
        · rw [List.mem_singleton] at hx; exact ⟨s, hx⟩
      · refine Or.inr ⟨b, l ++ [.mutate s], by rw [h1]; simp, h2, ?_⟩
        intro x hx
        rcases List.mem_append.mp hx with hx | hx
        · exact h3 x hx
        · rw [List.mem_singleton] at hx; subst hx; intro h; cases h

example : readAfter (fun n : Nat => n + 1) 0 [.mutate 5, .read, .mutate 7, .read] = 6 ∧
    readAfter (fun n : Nat => n + 1) 0 [.mutate 5, .read, .mutate 7, .delete] = 8 ∧
    Unread [LazyOp.mutate 5, .read, .mutate 7, .delete, .mutate 9] :=
  ⟨rfl, rfl, [.mutate 5, .read, .mutate 7, .delete], [.mutate 9], rfl, Or.inr ⟨[.mutate 5, .read, .mutate 7], rfl⟩, by simp⟩

end Utg
