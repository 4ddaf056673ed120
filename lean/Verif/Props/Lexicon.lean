import Verif.Spec.Lexicon
import Verif.Proofs.Dict
import Mathlib.Data.List.Induction
/-! # Properties C31-C34: lexicons

Keys, templates and restrictions are arbitrary; `calls` is an arbitrary history of `add_template`. -/

namespace Utg
open Py Spec

variable {K T R : Type} [DecidableEq K] [DecidableEq R]

theorem addTemplate_get? (l : Lexicon K T R) (k : K) (t : T) (rs : Finset R) (k' : K) :
    Dict.get? (l.addTemplate k t rs) k' = if k = k' then some ((Dict.get? l k).getD [] ++ [(t, rs)]) else Dict.get? l k' := by
  unfold Lexicon.addTemplate
  by_cases hc : Dict.contains l k = true
  · simp [hc, Dict.get?_set]
  · have hn : Dict.get? l k = none := by
      unfold Dict.contains at hc; simpa using hc
    simp only [hc, Bool.false_eq_true, if_false, Dict.get?_set, if_true, hn]
    by_cases h : k = k' <;> simp [h]

theorem lexiconOf_get? (calls : List (Added K T R)) (k : K) :
    Dict.get? (lexiconOf calls) k =
      if ∃ c ∈ calls, c.key = k
      then some ((calls.filter fun c => decide (c.key = k)).map fun c => (c.template, c.restrictions)) else none := by
  induction calls using List.reverseRecOn with
  | nil => simp [lexiconOf, Lexicon.empty]
  | append_singleton cs c ih =>
    have : lexiconOf (cs ++ [c]) = (lexiconOf cs).addTemplate c.key c.template c.restrictions := by
      simp [lexiconOf, List.foldl_append]
    rw [this, addTemplate_get?]
    by_cases h : c.key = k
    · subst h
      simp only [if_true, List.filter_append, List.map_append]
      rw [ih]
      by_cases hex : ∃ c' ∈ cs, c'.key = c.key
      · simp [hex]
      · have h0 : cs.filter (fun c' => decide (c'.key = c.key)) = [] := by
          rw [List.filter_eq_nil_iff]; intro a ha; simp; exact fun e => hex ⟨a, ha, e⟩
        simp [hex, h0]
    · simp only [h, if_false, ih, List.filter_append, List.map_append]
      by_cases hex : ∃ c' ∈ cs, c'.key = k
      · have : ∃ c' ∈ cs ++ [c], c'.key = k := by
          obtain ⟨a, ha, e⟩ := hex; exact ⟨a, List.mem_append_left _ ha, e⟩
        simp [hex, this, h]
      · have : ¬ ∃ c' ∈ cs ++ [c], c'.key = k := by
          rintro ⟨a, ha, e⟩
          rcases List.mem_append.mp ha with ha | ha
          · exact hex ⟨a, ha, e⟩
          · simp at ha; subst ha; exact h e
        rw [if_neg hex, if_neg this]

theorem lexiconOf_getD (calls : List (Added K T R)) (k : K) :
    (Dict.get? (lexiconOf calls) k).getD [] =
      (calls.filter fun c => decide (c.key = k)).map fun c => (c.template, c.restrictions) := by
  rw [lexiconOf_get?]
  split
  · rfl
  · rename_i h
    have h0 : calls.filter (fun c' => decide (c'.key = k)) = [] := by
      rw [List.filter_eq_nil_iff]; intro a ha; simp; exact fun e => h ⟨a, ha, e⟩
    simp [h0]

theorem lexiconOf_contains (calls : List (Added K T R)) (k : K) :
    Dict.contains (lexiconOf calls) k = decide (∃ c ∈ calls, c.key = k) := by
  unfold Dict.contains; rw [lexiconOf_get?]; split <;> simp_all

/-- A history for the examples: keys are numbers, templates are strings, restrictions are numbers. -/
def exCalls : List (Added Nat String Nat) :=
  [⟨1, "a", {}⟩, ⟨2, "other", {7}⟩, ⟨1, "b", {10}⟩, ⟨1, "c", {10, 20}⟩, ⟨1, "d", {30}⟩, ⟨1, "b", {20, 10}⟩]

/-! ## C31 -/

/-- C31: `get_templates` gives, in order of addition and with repetitions, exactly the templates added under the key whose
restrictions are all in the given set. -/
theorem C31_get_templates (calls : List (Added K T R)) (key : K) (rs : Finset R) :
    (lexiconOf calls).getTemplates key rs =
      (calls.filter fun c => decide (Applicable key rs c)).map (·.template) := by
  unfold Lexicon.getTemplates
  rw [lexiconOf_getD, List.filter_map, List.map_map, List.filter_filter]
  congr 1
  apply List.filter_congr
  intro c _
  rw [Bool.eq_iff_iff]
  simp only [Function.comp_apply, Bool.and_eq_true, decide_eq_true_eq]
  exact and_comm

/-- C31: an unknown key gives an empty result. -/
theorem C31_unknown_key (calls : List (Added K T R)) (key : K) (rs : Finset R) (h : ∀ c ∈ calls, c.key ≠ key) :
    (lexiconOf calls).getTemplates key rs = [] := by
  rw [C31_get_templates, List.map_eq_nil_iff, List.filter_eq_nil_iff]
  intro c hc e; exact h c hc (of_decide_eq_true e).1

/-- C31: more restrictions never remove a template. -/
theorem C31_monotone (calls : List (Added K T R)) (key : K) (rs rs' : Finset R) (h : rs ⊆ rs') :
    ((lexiconOf calls).getTemplates key rs).Sublist ((lexiconOf calls).getTemplates key rs') := by
  rw [C31_get_templates, C31_get_templates]
  apply List.Sublist.map
  apply List.monotone_filter_right
  intro c hc
  have hc := of_decide_eq_true hc
  exact decide_eq_true ⟨hc.1, hc.2.trans h⟩

example : (lexiconOf exCalls).getTemplates 1 {10, 20, 5} = ["a", "b", "c", "b"] ∧
    (lexiconOf exCalls).getTemplates 3 {10, 20, 5} = [] := by decide

/-! ## C32 -/

theorem choice_ok {cs : List T} (h : cs ≠ []) (r : Nat) : ∃ t ∈ cs, choice cs r = .ok t := by
  have hl : 0 < cs.length := List.length_pos_of_ne_nil h
  have hlt := Nat.mod_lt r hl
  refine ⟨cs[r % cs.length], List.getElem_mem _, ?_⟩
  unfold choice; rw [List.getElem?_eq_getElem hlt]

theorem choice_complete {cs : List T} {t : T} (h : t ∈ cs) : ∃ r, choice cs r = .ok t := by
  obtain ⟨i, hi, rfl⟩ := List.getElem_of_mem h
  refine ⟨i, ?_⟩
  unfold choice; rw [Nat.mod_eq_of_lt hi, List.getElem?_eq_getElem hi]

theorem pick_spec {cs : List T} {b : Bool} {f : Nat → Except PyErr T}
    (hf : ∀ r, f r = if !b then .error .UnknownLexiconKeyError else if cs.isEmpty then .error .NoTemplatesWithSpecifiedRestrictions else choice cs r) :
    (∀ r, f r = .error .UnknownLexiconKeyError ↔ b = false) ∧
    (∀ r, f r = .error .NoTemplatesWithSpecifiedRestrictions ↔ b = true ∧ cs = []) ∧
    (∀ r, b = true → cs ≠ [] → ∃ t ∈ cs, f r = .ok t) ∧
    (∀ r t, f r = .ok t → b = true ∧ t ∈ cs) ∧
    (∀ t ∈ cs, b = true → ∃ r, f r = .ok t) := by
  have key : ∀ r, cs ≠ [] → ∃ t ∈ cs, choice cs r = .ok t := fun r h => choice_ok h r
  cases b with
  | false => simp [hf]
  | true =>
    by_cases h : cs = []
    · subst h; simp [hf]
    · have hE : cs.isEmpty = false := by simpa using h
      simp only [hf, Bool.not_true, Bool.false_eq_true, if_false, hE]
      refine ⟨fun r => ?_, fun r => ?_, fun r _ _ => key r h, fun r t ht => ?_, fun t ht _ => choice_complete ht⟩
      · obtain ⟨t, _, e⟩ := key r h; simp [e]
      · obtain ⟨t, _, e⟩ := key r h; simp [e, h]
      · obtain ⟨t', ht', e⟩ := key r h; rw [e] at ht; injection ht with ht; subst ht; exact ⟨trivial, ht'⟩

/-- C32: `get_random_template` raises exactly when it should, otherwise returns an applicable template, and every applicable
template is returned for some draw. -/
theorem C32_random_template (calls : List (Added K T R)) (key : K) (rs : Finset R) :
    (∀ draw, (lexiconOf calls).getRandomTemplate key rs draw = .error .UnknownLexiconKeyError ↔ ∀ c ∈ calls, c.key ≠ key) ∧
    (∀ draw, (lexiconOf calls).getRandomTemplate key rs draw = .error .NoTemplatesWithSpecifiedRestrictions ↔
      (∃ c ∈ calls, c.key = key) ∧ ∀ c ∈ calls, ¬ Applicable key rs c) ∧
    (∀ draw, (∃ c ∈ calls, Applicable key rs c) →
      ∃ c ∈ calls, Applicable key rs c ∧ (lexiconOf calls).getRandomTemplate key rs draw = .ok c.template) ∧
    (∀ c ∈ calls, Applicable key rs c → ∃ draw, (lexiconOf calls).getRandomTemplate key rs draw = .ok c.template) := by
  obtain ⟨h1, h2, h3, h4, h5⟩ := pick_spec (cs := (lexiconOf calls).getTemplates key rs)
    (b := Dict.contains (lexiconOf calls) key) (f := (lexiconOf calls).getRandomTemplate key rs) (fun r => rfl)
  have hmem : ∀ t, t ∈ (lexiconOf calls).getTemplates key rs ↔ ∃ c ∈ calls, Applicable key rs c ∧ c.template = t := by
    intro t; rw [C31_get_templates]; simp [and_assoc]
  have hnil : (lexiconOf calls).getTemplates key rs = [] ↔ ∀ c ∈ calls, ¬ Applicable key rs c := by
    rw [C31_get_templates, List.map_eq_nil_iff, List.filter_eq_nil_iff]; simp
  refine ⟨fun r => ?_, fun r => ?_, ?_, ?_⟩
  · rw [h1, lexiconOf_contains]; simp
  · rw [h2, lexiconOf_contains, hnil]; simp
  · rintro r ⟨c, hc, ha⟩
    have hb : Dict.contains (lexiconOf calls) key = true := by
      rw [lexiconOf_contains]; simp; exact ⟨c, hc, ha.1⟩
    obtain ⟨t, ht, e⟩ := h3 r hb (fun e => (hnil.mp e) c hc ha)
    obtain ⟨c', hc', ha', rfl⟩ := (hmem t).mp ht
    exact ⟨c', hc', ha', e⟩
  · intro c hc ha
    have hb : Dict.contains (lexiconOf calls) key = true := by
      rw [lexiconOf_contains]; simp; exact ⟨c, hc, ha.1⟩
    exact h5 c.template ((hmem _).mpr ⟨c, hc, ha, rfl⟩) hb

example : (lexiconOf exCalls).getRandomTemplate 2 {10} 5 = .error .NoTemplatesWithSpecifiedRestrictions ∧
    (lexiconOf exCalls).getRandomTemplate 3 {10} 5 = .error .UnknownLexiconKeyError ∧
    (lexiconOf exCalls).getRandomTemplate 1 {10} 5 = .ok "b" := by decide

/-! ## C33 -/

/-- The loop of `_get_nearest_templates`: keeps the applicable entries with their number of restrictions, and the largest
such number seen. -/
theorem nearest_loop (rs : Finset R) (es : List (T × Finset R)) :
    ((es.foldl (nearestTemplatesStep rs) ([], -1)).1 =
      (es.filter fun tr => decide (tr.2 ⊆ rs)).map fun tr => (tr.1, tr.2.card)) ∧
    (∀ tr ∈ es, tr.2 ⊆ rs → (tr.2.card : Int) ≤ (es.foldl (nearestTemplatesStep rs) ([], -1)).2) ∧
    ((∃ tr ∈ es, tr.2 ⊆ rs) →
      ∃ tr ∈ es, tr.2 ⊆ rs ∧ (tr.2.card : Int) = (es.foldl (nearestTemplatesStep rs) ([], -1)).2) ∧
    (-1 ≤ (es.foldl (nearestTemplatesStep rs) ([], -1)).2) ∧
    ((¬ ∃ tr ∈ es, tr.2 ⊆ rs) → (es.foldl (nearestTemplatesStep rs) ([], -1)).2 = -1) := by
  induction es using List.reverseRecOn with
  | nil => simp
  | append_singleton es e ih =>
    obtain ⟨h1, h2, h3, h4, h5⟩ := ih
    simp only [List.foldl_append, List.foldl_cons, List.foldl_nil]
    generalize es.foldl (nearestTemplatesStep rs) ([], -1) = s at *
    by_cases hsub : e.2 ⊆ rs
    · have hcard : e.2 ∩ rs = e.2 := Finset.inter_eq_left.mpr hsub
      have hstep : nearestTemplatesStep rs s e =
          (s.1 ++ [(e.1, e.2.card)], if s.2 < (e.2.card : Int) then (e.2.card : Int) else s.2) := by
        unfold nearestTemplatesStep; simp [hsub, hcard]
      rw [hstep]
      refine ⟨by simp [h1, hsub], ?_, ?_, ?_, ?_⟩
      · intro tr htr ht
        rcases List.mem_append.mp htr with htr | htr
        · have := h2 tr htr ht; simp only; split <;> omega
        · simp only [List.mem_singleton] at htr; subst htr; simp only; split <;> omega
      · intro _
        by_cases hlt : s.2 < (e.2.card : Int)
        · exact ⟨e, by simp, hsub, by simp [hlt]⟩
        · by_cases hex : ∃ tr ∈ es, tr.2 ⊆ rs
          · obtain ⟨tr, htr, ht, he⟩ := h3 hex
            exact ⟨tr, by simp [htr], ht, by simp [hlt, he]⟩
          · have := h5 hex; omega
      · simp only; split <;> omega
      · intro hn; exact absurd ⟨e, by simp, hsub⟩ hn
    · have hstep : nearestTemplatesStep rs s e = s := by unfold nearestTemplatesStep; simp [hsub]
      rw [hstep]
      refine ⟨by simp [h1, hsub], ?_, ?_, h4, ?_⟩
      · intro tr htr ht
        rcases List.mem_append.mp htr with htr | htr
        · exact h2 tr htr ht
        · simp only [List.mem_singleton] at htr; subst htr; exact absurd ht hsub
      · rintro ⟨tr, htr, ht⟩
        rcases List.mem_append.mp htr with htr | htr
        · obtain ⟨a, b, c⟩ := h3 ⟨tr, htr, ht⟩; exact ⟨a, by simp [b], c⟩
        · simp only [List.mem_singleton] at htr; subst htr; exact absurd ht hsub
      · intro hn; exact h5 (fun ⟨tr, htr, ht⟩ => hn ⟨tr, by simp [htr], ht⟩)

theorem getNearestTemplates_mem (calls : List (Added K T R)) (key : K) (rs : Finset R) (t : T) :
    t ∈ (lexiconOf calls).getNearestTemplates key rs ↔ ∃ c ∈ calls, MostSpecific calls key rs c ∧ c.template = t := by
  unfold Lexicon.getNearestTemplates
  rw [lexiconOf_getD]
  obtain ⟨h1, h2, h3, h4, h5⟩ := nearest_loop rs ((calls.filter fun c => decide (c.key = key)).map fun c => (c.template, c.restrictions))
  generalize List.foldl (nearestTemplatesStep rs) ([], -1) _ = s at *
  simp only [List.mem_map, List.mem_filter, h1, decide_eq_true_eq] at *
  constructor
  · rintro ⟨td, ⟨⟨tr, ⟨⟨c, ⟨hc, hk⟩, rfl⟩, hs⟩, rfl⟩, hd⟩, rfl⟩
    refine ⟨c, hc, ⟨⟨hk, hs⟩, ?_⟩, rfl⟩
    intro c' hc' ha'
    have := h2 (c'.template, c'.restrictions) ⟨c', ⟨hc', ha'.1⟩, rfl⟩ ha'.2
    simp only at this hd; omega
  · rintro ⟨c, hc, ⟨ha, hm⟩, rfl⟩
    refine ⟨(c.template, c.restrictions.card), ⟨⟨(c.template, c.restrictions), ⟨⟨c, ⟨hc, ha.1⟩, rfl⟩, ha.2⟩, rfl⟩, ?_⟩, rfl⟩
    obtain ⟨tr, ⟨c', ⟨hc', hk'⟩, rfl⟩, hs', he'⟩ := h3 ⟨(c.template, c.restrictions), ⟨c, ⟨hc, ha.1⟩, rfl⟩, ha.2⟩
    have hle := hm c' hc' ⟨hk', hs'⟩
    have hge := h2 (c.template, c.restrictions) ⟨c, ⟨hc, ha.1⟩, rfl⟩ ha.2
    simp only at he' hge ⊢; omega

theorem exists_mostSpecific (calls : List (Added K T R)) (key : K) (rs : Finset R) (h : ∃ c ∈ calls, Applicable key rs c) :
    ∃ c ∈ calls, MostSpecific calls key rs c := by
  suffices hh : ∀ cs : List (Added K T R), (∃ c ∈ cs, Applicable key rs c) → ∃ c ∈ cs, MostSpecific cs key rs c from hh calls h
  intro cs
  induction cs with
  | nil => simp
  | cons a cs ih =>
    intro hex
    by_cases ht : ∃ c ∈ cs, Applicable key rs c
    · obtain ⟨b, hb, hbm⟩ := ih ht
      by_cases ha : Applicable key rs a ∧ b.restrictions.card ≤ a.restrictions.card
      · refine ⟨a, by simp, ha.1, ?_⟩
        intro c' hc' hc''
        rcases List.mem_cons.mp hc' with rfl | hc'
        · exact le_refl _
        · exact (hbm.2 c' hc' hc'').trans ha.2
      · refine ⟨b, by simp [hb], hbm.1, ?_⟩
        intro c' hc' hc''
        rcases List.mem_cons.mp hc' with rfl | hc'
        · by_contra hlt; exact ha ⟨hc'', by omega⟩
        · exact hbm.2 c' hc' hc''
    · obtain ⟨c, hc, hca⟩ := hex
      rcases List.mem_cons.mp hc with rfl | hc
      · refine ⟨c, by simp, hca, ?_⟩
        intro c' hc' hc''
        rcases List.mem_cons.mp hc' with rfl | hc'
        · exact le_refl _
        · exact absurd ⟨c', hc', hc''⟩ ht
      · exact absurd ⟨c, hc, hca⟩ ht

/-- C33: `get_random_nearest_template` returns a most specific applicable template, each of them for some draw. -/
theorem C33_nearest_template (calls : List (Added K T R)) (key : K) (rs : Finset R) :
    (∀ draw, (∃ c ∈ calls, Applicable key rs c) →
      ∃ c ∈ calls, MostSpecific calls key rs c ∧ (lexiconOf calls).getRandomNearestTemplate key rs draw = .ok c.template) ∧
    (∀ c ∈ calls, MostSpecific calls key rs c →
      ∃ draw, (lexiconOf calls).getRandomNearestTemplate key rs draw = .ok c.template) := by
  obtain ⟨_, _, h3, _, h5⟩ := pick_spec (cs := (lexiconOf calls).getNearestTemplates key rs)
    (b := Dict.contains (lexiconOf calls) key) (f := (lexiconOf calls).getRandomNearestTemplate key rs) (fun r => rfl)
  have hb : ∀ c ∈ calls, Applicable key rs c → Dict.contains (lexiconOf calls) key = true := by
    intro c hc ha; rw [lexiconOf_contains]; simp; exact ⟨c, hc, ha.1⟩
  constructor
  · intro draw hex
    obtain ⟨c, hc, hm⟩ := exists_mostSpecific calls key rs hex
    have hmem := (getNearestTemplates_mem calls key rs c.template).mpr ⟨c, hc, hm, rfl⟩
    obtain ⟨t, ht, e⟩ := h3 draw (hb c hc hm.1) (List.ne_nil_of_mem hmem)
    obtain ⟨c', hc', hm', rfl⟩ := (getNearestTemplates_mem calls key rs t).mp ht
    exact ⟨c', hc', hm', e⟩
  · intro c hc hm
    exact h5 _ ((getNearestTemplates_mem calls key rs c.template).mpr ⟨c, hc, hm, rfl⟩) (hb c hc hm.1)

/-- C33: it raises the same errors in the same situations as `get_random_template`, whatever the draws. -/
theorem C33_same_errors (calls : List (Added K T R)) (key : K) (rs : Finset R) (draw draw' : Nat) (e : PyErr) :
    (lexiconOf calls).getRandomNearestTemplate key rs draw = .error e ↔
      (lexiconOf calls).getRandomTemplate key rs draw' = .error e := by
  by_cases hex : ∃ c ∈ calls, Applicable key rs c
  · obtain ⟨_, _, h1⟩ := (C33_nearest_template calls key rs).1 draw hex
    obtain ⟨_, _, _, h2⟩ := (C32_random_template calls key rs).2.2.1 draw' hex
    rw [h1.2, h2]; simp
  · have hn : (lexiconOf calls).getNearestTemplates key rs = [] := by
      rw [List.eq_nil_iff_forall_not_mem]; intro t ht
      obtain ⟨c, hc, hm, _⟩ := (getNearestTemplates_mem calls key rs t).mp ht
      exact hex ⟨c, hc, hm.1⟩
    have hn' : (lexiconOf calls).getTemplates key rs = [] := by
      rw [C31_get_templates, List.map_eq_nil_iff, List.filter_eq_nil_iff]
      intro c hc hd; exact hex ⟨c, hc, by simpa using hd⟩
    unfold Lexicon.getRandomNearestTemplate Lexicon.getRandomTemplate
    simp [hn, hn']

example : (lexiconOf exCalls).getNearestTemplates 1 {10, 20, 5} = ["c", "b"] ∧
    MostSpecific exCalls 1 {10, 20, 5} ⟨1, "c", {10, 20}⟩ := by
  constructor
  · decide
  · refine ⟨by decide, ?_⟩
    intro c hc
    simp only [exCalls, List.mem_cons, List.not_mem_nil, or_false] at hc
    rcases hc with rfl | rfl | rfl | rfl | rfl | rfl <;> decide

/-! ## C34 -/

/-- C34: `add_template(key, ...)` makes the key known and appends to what is offered under it; other keys keep their
templates and status. -/
theorem C34_add_template (calls : List (Added K T R)) (c : Added K T R) :
    let before := lexiconOf calls
    let after := before.addTemplate c.key c.template c.restrictions
    after.hasKey c.key = true ∧
    (∀ rs, after.getTemplates c.key rs =
      before.getTemplates c.key rs ++ if c.restrictions ⊆ rs then [c.template] else []) ∧
    (∀ key, key ≠ c.key → after.hasKey key = before.hasKey key ∧
      (∀ rs, after.getTemplates key rs = before.getTemplates key rs) ∧
      (∀ rs draw, after.getRandomTemplate key rs draw = before.getRandomTemplate key rs draw) ∧
      (∀ rs draw, after.getRandomNearestTemplate key rs draw = before.getRandomNearestTemplate key rs draw)) := by
  intro before after
  have hg := addTemplate_get? (lexiconOf calls) c.key c.template c.restrictions
  refine ⟨?_, ?_, ?_⟩
  · show (Dict.get? _ _).isSome = true
    rw [hg]; simp
  · intro rs
    show (((Dict.get? ((lexiconOf calls).addTemplate _ _ _) c.key).getD []).filter _).map Prod.fst =
      (((Dict.get? (lexiconOf calls) c.key).getD []).filter _).map Prod.fst ++ _
    rw [hg]
    simp only [if_true, Option.getD_some, List.filter_append, List.map_append]
    by_cases h : c.restrictions ⊆ rs <;> simp [h]
  · intro key hk
    have hk' : Dict.get? ((lexiconOf calls).addTemplate c.key c.template c.restrictions) key = Dict.get? (lexiconOf calls) key := by
      rw [hg, if_neg (Ne.symm hk)]
    refine ⟨?_, ?_, ?_, ?_⟩
    · show (Dict.get? _ _).isSome = (Dict.get? _ _).isSome
      rw [hk']
    · intro rs; show List.map _ (List.filter _ ((Dict.get? _ _).getD [])) = _
      rw [hk']; rfl
    · intro rs draw
      unfold Lexicon.getRandomTemplate Lexicon.getTemplates Dict.contains
      rw [hk']
    · intro rs draw
      unfold Lexicon.getRandomNearestTemplate Lexicon.getNearestTemplates Dict.contains
      rw [hk']

/-- C34: a key is known iff something was added under it. -/
theorem C34_has_key (calls : List (Added K T R)) (key : K) :
    (lexiconOf calls).hasKey key = true ↔ ∃ c ∈ calls, c.key = key := by
  unfold Lexicon.hasKey; rw [lexiconOf_contains]; simp

example : (lexiconOf exCalls).hasKey 2 = true ∧ (lexiconOf exCalls).hasKey 3 = false := by decide

end Utg
