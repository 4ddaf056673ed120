import Verif.Props.Lexicon
/-!
# C115: random templates are drawn fairly

`random.choice` takes each index of the list with the same chance; the draws are numbered so that draw `r` takes index `r` modulo the
length (`choice`). So a request is fair if as many numbers, out of as many as there are calls to choose from, give one call as another.
-/

namespace Utg
open Py Spec

variable {K T R : Type} [DecidableEq K] [DecidableEq R]

/-- Whether a call is a most specific one can be decided. -/
instance (calls : List (Added K T R)) (key : K) (rs : Finset R) (c : Added K T R) : Decidable (MostSpecific calls key rs c) :=
  inferInstanceAs (Decidable (_ ∧ ∀ c' ∈ calls, _))

theorem range_choice (l : List T) : (List.range l.length).map (choice l) = l.map .ok := by
  apply List.ext_getElem (by simp)
  intro i h1 h2
  have hi : i < l.length := by simpa using h2
  simp [choice, Nat.mod_eq_of_lt hi, hi]

/-- The templates `get_random_nearest_template` chooses from, in order and with repetitions. -/
theorem getNearestTemplates_eq (calls : List (Added K T R)) (key : K) (rs : Finset R) :
    (lexiconOf calls).getNearestTemplates key rs = (calls.filter fun c => decide (MostSpecific calls key rs c)).map (·.template) := by
  unfold Lexicon.getNearestTemplates
  rw [lexiconOf_getD]
  obtain ⟨h1, h2, h3, -, -⟩ := nearest_loop rs ((calls.filter fun c => decide (c.key = key)).map fun c => (c.template, c.restrictions))
  generalize List.foldl (nearestTemplatesStep rs) ([], -1) _ = s at *
  dsimp only
  rw [h1, List.filter_map, List.filter_filter, List.filter_map, List.filter_filter, List.map_map, List.map_map]
  have : (calls.filter fun c => ((fun tr : T × Finset R => ((fun td : T × Nat => decide ((td.2 : Int) = s.2)) ∘ fun tr => (tr.1, tr.2.card)) tr &&
      decide (tr.2 ⊆ rs)) ∘ fun c : Added K T R => (c.template, c.restrictions)) c && decide (c.key = key)) =
      calls.filter fun c => decide (MostSpecific calls key rs c) := by
    apply List.filter_congr
    intro c hc
    rw [Bool.eq_iff_iff]
    simp only [Function.comp, Bool.and_eq_true, decide_eq_true_eq]
    constructor
    · rintro ⟨⟨hd, hs⟩, hk⟩
      refine ⟨⟨hk, hs⟩, ?_⟩
      intro c' hc' ha'
      have := h2 (c'.template, c'.restrictions) (by simp; exact ⟨c', ⟨hc', ha'.1⟩, rfl, rfl⟩) ha'.2
      simp only at this hd; omega
    · rintro ⟨ha, hm⟩
      refine ⟨⟨?_, ha.2⟩, ha.1⟩
      obtain ⟨tr, htr, hs', he'⟩ := h3 ⟨(c.template, c.restrictions), by simp; exact ⟨c, ⟨hc, ha.1⟩, rfl, rfl⟩, ha.2⟩
      simp only [List.mem_map, List.mem_filter, decide_eq_true_eq] at htr
      obtain ⟨c', ⟨hc', hk'⟩, rfl⟩ := htr
      have hle := hm c' hc' ⟨hk', hs'⟩
      have hge := h2 (c.template, c.restrictions) (by simp; exact ⟨c, ⟨hc, ha.1⟩, rfl, rfl⟩) ha.2
      simp only at he' hge ⊢; omega
  rw [this]
  rfl

/-- C115: out of as many draws as there are applicable calls of `add_template`, each call is taken by exactly one; draws that differ by
this number take the same one. -/
theorem C115_random_template (calls : List (Added K T R)) (key : K) (rs : Finset R) :
    let applicable := calls.filter fun c => decide (Applicable key rs c)
    (List.range applicable.length).map ((lexiconOf calls).getRandomTemplate key rs) = applicable.map (fun c => .ok c.template) ∧
    ∀ draw, (lexiconOf calls).getRandomTemplate key rs (draw % applicable.length) = (lexiconOf calls).getRandomTemplate key rs draw := by
  intro applicable
  have hg : (lexiconOf calls).getTemplates key rs = applicable.map (·.template) := C31_get_templates calls key rs
  constructor
  · cases ha : applicable with
    | nil => rfl
    | cons c cs =>
      have hc : c ∈ calls ∧ Applicable key rs c := by
        have : c ∈ applicable := by rw [ha]; simp
        simpa [applicable] using this
      have hb : Dict.contains (lexiconOf calls) key = true := by rw [lexiconOf_contains]; simp; exact ⟨c, hc.1, hc.2.1⟩
      have he : (lexiconOf calls).getRandomTemplate key rs = choice ((c :: cs).map (·.template)) := by
        funext r; unfold Lexicon.getRandomTemplate; simp [hb, hg, ha]
      rw [he, ← List.length_map (f := (·.template)), range_choice, List.map_map]; rfl
  · intro draw
    have hl : applicable.length = ((lexiconOf calls).getTemplates key rs).length := by rw [hg, List.length_map]
    unfold Lexicon.getRandomTemplate choice
    rw [hl]; simp only [Nat.mod_mod]

/-- C115: the same for `get_random_nearest_template` and the most specific calls. -/
theorem C115_nearest_template (calls : List (Added K T R)) (key : K) (rs : Finset R) :
    let best := calls.filter fun c => decide (MostSpecific calls key rs c)
    (List.range best.length).map ((lexiconOf calls).getRandomNearestTemplate key rs) = best.map (fun c => .ok c.template) ∧
    ∀ draw, (lexiconOf calls).getRandomNearestTemplate key rs (draw % best.length) = (lexiconOf calls).getRandomNearestTemplate key rs draw := by
  intro best
  have hg : (lexiconOf calls).getNearestTemplates key rs = best.map (·.template) := getNearestTemplates_eq calls key rs
  constructor
  · cases ha : best with
    | nil => rfl
    | cons c cs =>
      have hc : c ∈ calls ∧ MostSpecific calls key rs c := by
        have : c ∈ best := by rw [ha]; simp
        simpa [best] using this
      have hb : Dict.contains (lexiconOf calls) key = true := by rw [lexiconOf_contains]; simp; exact ⟨c, hc.1, hc.2.1.1⟩
      have he : (lexiconOf calls).getRandomNearestTemplate key rs = choice ((c :: cs).map (·.template)) := by
        funext r; unfold Lexicon.getRandomNearestTemplate; simp [hb, hg, ha]
      rw [he, ← List.length_map (f := (·.template)), range_choice, List.map_map]; rfl
  · intro draw
    have hl : best.length = ((lexiconOf calls).getNearestTemplates key rs).length := by rw [hg, List.length_map]
    unfold Lexicon.getRandomNearestTemplate choice
    rw [hl]; simp only [Nat.mod_mod]

/-- C115: so the chance of a template is the share of the calls that added it: of the `n` draws as many give `t` as there are applicable
calls with `t`. -/
theorem C115_share [DecidableEq T] (calls : List (Added K T R)) (key : K) (rs : Finset R) (t : T) :
    let applicable := calls.filter fun c => decide (Applicable key rs c)
    let best := calls.filter fun c => decide (MostSpecific calls key rs c)
    ((List.range applicable.length).filter fun draw => match (lexiconOf calls).getRandomTemplate key rs draw with
      | .ok t' => decide (t' = t) | .error _ => false).length = (applicable.filter fun c => decide (c.template = t)).length ∧
    ((List.range best.length).filter fun draw => match (lexiconOf calls).getRandomNearestTemplate key rs draw with
      | .ok t' => decide (t' = t) | .error _ => false).length = (best.filter fun c => decide (c.template = t)).length := by
  have key' : ∀ (f : Nat → Except PyErr T) (l : List (Added K T R)), (List.range l.length).map f = l.map (fun c => .ok c.template) →
      ((List.range l.length).filter fun draw => match f draw with | .ok t' => decide (t' = t) | .error _ => false).length =
      (l.filter fun c => decide (c.template = t)).length := by
    intro f l h
    have h1 := congrArg (fun x => (x.filter fun r : Except PyErr T => match r with | .ok t' => decide (t' = t) | .error _ => false).length) h
    simp only [List.filter_map, List.length_map] at h1
    exact h1
  exact ⟨key' _ _ (C115_random_template calls key rs).1, key' _ _ (C115_nearest_template calls key rs).1⟩

/-- Four calls to choose from, two of them with the same template, which is drawn twice as often as another. -/
example : (List.range 4).map ((lexiconOf exCalls).getRandomTemplate 1 {10, 20, 5}) = [.ok "a", .ok "b", .ok "c", .ok "b"] := by decide

end Utg
