import Verif.Spec.Dictionary
import Verif.Proofs.WordForms
import Mathlib.Data.List.Lex
import Mathlib.Data.Char
import Mathlib.Data.List.Induction
/-! # Lemmas about dictionaries -/

namespace Utg
open Py Spec

theorem strLt_iff {a b : Str} : strLt a b = true ↔ a < b := by
  induction a generalizing b with
  | nil => cases b <;> simp [strLt]
  | cons x xs ih =>
    cases b with
    | nil => simp [strLt]
    | cons y ys =>
      simp only [strLt, List.cons_lt_cons_iff]
      have hlt : ∀ c d : Char, c < d ↔ c.toNat < d.toNat := fun c d => Iff.rfl
      have heq : ∀ c d : Char, c.toNat = d.toNat → c = d := fun c d h => Char.toNat_inj.mp h
      by_cases h1 : x.toNat < y.toNat
      · simp [h1, hlt]
      · by_cases h2 : y.toNat < x.toNat
        · have : x ≠ y := by rintro rfl; exact h1 h2
          simp [h1, h2, hlt, this]
        · have : x = y := heq x y (by omega)
          subst this
          simp [ih]

theorem strListLt_iff {a b : List Str} : strListLt a b = true ↔ a < b := by
  induction a generalizing b with
  | nil => cases b <;> simp [strListLt]
  | cons x xs ih =>
    cases b with
    | nil => simp [strListLt]
    | cons y ys =>
      simp only [strListLt, List.cons_lt_cons_iff]
      by_cases h : x = y
      · subst h
        simp [ih, List.lt_irrefl]
      · simp [h, strLt_iff]

theorem forms_trichotomy (a b : List Str) : a < b ∨ a = b ∨ b < a := lt_trichotomy a b

theorem forms_trans {a b c : List Str} (h : a < b) (h' : b < c) : a < c := lt_trans h h'

theorem forms_irrefl (a : List Str) : ¬ a < a := lt_irrefl a

theorem departures_eq {p : Properties} (hp : WFProps p) : p.manhattanDistance = departures p := by
  rw [manhattan_eq_count hp]
  unfold departures
  congr 1
  refine List.filter_congr fun g _ => ?_
  cases h : p.isSpecified g with
  | true => simp
  | false =>
    have : p.get g = documentedDefault g := by
      unfold Properties.get; rw [isSpecified_false.mp h, defaultProperty_eq]
    simp [this]

theorem departures_congr {p q : Properties} (h : ∀ g, p.get g = q.get g) : departures p = departures q := by
  unfold departures
  congr 1
  exact List.filter_congr fun g _ => by rw [h g]

theorem replaces_iff {f g : WordForm} (hf : WFProps f.properties) (hg : WFProps g.properties) : replaces f g = true ↔ Better f g := by
  unfold replaces Better
  rw [departures_eq hf, departures_eq hg]
  by_cases h1 : f.word.type.value < g.word.type.value
  · simp [h1]
  · by_cases h2 : g.word.type.value < f.word.type.value
    · have : f.word.type.value ≠ g.word.type.value := by omega
      simp [h1, h2, this]
    · have heq : f.word.type.value = g.word.type.value := by omega
      rw [if_neg h1, if_neg h2]
      by_cases h3 : strListLt f.word.forms g.word.forms = true
      · rw [if_pos h3]; simp [heq, strListLt_iff.mp h3]
      · rw [if_neg h3]
        have h3' : ¬ f.word.forms < g.word.forms := fun h => h3 (strListLt_iff.mpr h)
        by_cases h4 : strListLt g.word.forms f.word.forms = true
        · rw [if_pos h4]
          have h4' := strListLt_iff.mp h4
          have : f.word.forms ≠ g.word.forms := by intro e; rw [e] at h4'; exact forms_irrefl _ h4'
          simp [heq, h3', this]
        · rw [if_neg h4]
          have h4' : ¬ g.word.forms < f.word.forms := fun h => h4 (strListLt_iff.mpr h)
          have : f.word.forms = g.word.forms := by
            rcases forms_trichotomy f.word.forms g.word.forms with h | h | h
            · exact absurd h h3'
            · exact h
            · exact absurd h h4'
          simp [heq, this, forms_irrefl]

theorem better_irrefl (f : WordForm) : ¬ Better f f := by
  rintro (h | ⟨_, h | ⟨_, h⟩⟩)
  · omega
  · exact forms_irrefl _ h
  · omega

theorem better_trans {f g h : WordForm} (h1 : Better f g) (h2 : Better g h) : Better f h := by
  unfold Better at *
  rcases h1 with h1 | ⟨e1, h1⟩
  · rcases h2 with h2 | ⟨e2, h2⟩ <;> (left; omega)
  · rcases h2 with h2 | ⟨e2, h2⟩
    · left; omega
    · right; refine ⟨by omega, ?_⟩
      rcases h1 with h1 | ⟨f1, h1⟩
      · rcases h2 with h2 | ⟨f2, h2⟩
        · left; exact forms_trans h1 h2
        · left; rw [← f2]; exact h1
      · rcases h2 with h2 | ⟨f2, h2⟩
        · left; rw [f1]; exact h2
        · right; exact ⟨f1.trans f2, by omega⟩

theorem type_value_inj {t t' : WordType} (h : t.value = t'.value) : t = t' := by
  revert h; cases t <;> cases t' <;> decide

theorem sameRank_of_not_better {f g : WordForm} (h1 : ¬ Better f g) (h2 : ¬ Better g f) : SameRank f g := by
  unfold Better at h1 h2
  simp only [not_or, not_and, not_lt] at h1 h2
  have ht : f.word.type.value = g.word.type.value := by omega
  have h3 := h1.2 ht
  have h4 := h2.2 ht.symm
  have hf : f.word.forms = g.word.forms := by
    rcases forms_trichotomy f.word.forms g.word.forms with h | h | h
    · exact absurd h (not_lt.mpr h3.1)
    · exact h
    · exact absurd h (not_lt.mpr h4.1)
  have h5 := h3.2 hf
  have h6 := h4.2 hf.symm
  exact ⟨type_value_inj ht, hf, by omega⟩

theorem better_congr_left {f f' g : WordForm} (h : SameRank f f') : Better f g ↔ Better f' g := by
  unfold Better; rw [h.1, h.2.1, h.2.2]

/-- Negative transitivity. -/
theorem better_cotrans {c f g : WordForm} (h : Better c f) (hg : ¬ Better g f) : Better c g := by
  by_contra hc
  by_cases hgc : Better g c
  · exact hg (better_trans hgc h)
  · have := sameRank_of_not_better hc hgc
    exact hg ((better_congr_left this).mp h)

/-! ## The state after a history -/

/-- Registering a list of candidates. -/
def registerAll (d : Dictionary) (cs : List (Str × WordForm)) : Dictionary := cs.foldl (fun d c => d.register c.1 c.2) d

theorem registerAll_append (d : Dictionary) (a b : List (Str × WordForm)) : registerAll d (a ++ b) = registerAll (registerAll d a) b := by
  simp [registerAll, List.foldl_append]

theorem mapM_range_shift {w : Word} : ∀ (is : List Nat) (fs : List WordForm), is.mapM w.nthForm = .ok fs →
    ∀ (U : PyUni) (d : Dictionary), (Dictionary.addForms U w d is).1 = registerAll d (spelled U fs) ∧
      ((Dictionary.addForms U w d is).2 = none ↔ ∀ f ∈ fs, ∃ s, f.form U = .ok s) := by
  intro is
  induction is with
  | nil => intro fs h U d; injection h with h; subst h; simp [Dictionary.addForms, spelled, registerAll]
  | cons i is ih =>
    intro fs h U d
    rw [List.mapM_cons] at h
    cases hi : w.nthForm i with
    | error e => rw [hi] at h; simp [bind, Except.bind] at h
    | ok f =>
      cases his : is.mapM w.nthForm with
      | error e => rw [hi, his] at h; simp [bind, Except.bind] at h
      | ok fs' =>
        rw [hi, his] at h
        simp only [bind, Except.bind, pure, Except.pure, Except.ok.injEq] at h
        subst h
        simp only [Dictionary.addForms, hi, spelled]
        cases hf : f.form U with
        | error e => simp [registerAll, hf]
        | ok text =>
          have := ih fs' his U (d.register text f)
          simp only [this.1]
          refine ⟨by simp [registerAll], ?_⟩
          rw [this.2]
          constructor
          · intro h g hg
            rcases List.mem_cons.mp hg with rfl | hg
            · exact ⟨text, hf⟩
            · exact h g hg
          · intro h g hg; exact h g (List.mem_cons_of_mem _ hg)

theorem addWord_eq {U : PyUni} {w : Word} (hw : Accepted w) (d : Dictionary) :
    (d.addWord U w).1 = registerAll d (offered U w) ∧ ((d.addWord U w).2 = none ↔ Spellable U w) := by
  have h2 := (accepted_iff.mp hw).2
  have hall := allForms_spec h2
  have := mapM_range_shift _ _ hall U d
  unfold Dictionary.addWord offered
  rw [hall]
  refine ⟨this.1, this.2.trans ?_⟩
  constructor
  · intro h; exact ⟨_, hall, h⟩
  · rintro ⟨fs, e, h⟩
    rw [hall] at e; injection e with e; subst e; exact h

theorem history_eq {U : PyUni} {ws : List Word} (hws : ∀ w ∈ ws, Accepted w) : history U ws = registerAll [] (candidates U ws) := by
  unfold history candidates
  have : ∀ (ws : List Word) (d : Dictionary), (∀ w ∈ ws, Accepted w) →
      ws.foldl (fun d w => (d.addWord U w).1) d = registerAll d (ws.flatMap (offered U)) := by
    intro ws
    induction ws with
    | nil => intro d _; simp [registerAll]
    | cons w ws ih =>
      intro d h
      rw [List.foldl_cons, (addWord_eq (h w (by simp)) d).1, ih _ (fun w hw => h w (List.mem_cons_of_mem _ hw)),
        List.flatMap_cons, registerAll_append]
  exact this ws [] hws

/-- First minimum of a list. -/
def FirstBest (l : List WordForm) (f : WordForm) : Prop :=
  ∃ pre post, l = pre ++ f :: post ∧ (∀ g ∈ pre, Better f g) ∧ ∀ g ∈ post, ¬ Better g f

/-- The candidates for one text. -/
def only (text : Str) (cs : List (Str × WordForm)) : List WordForm := cs.filterMap fun c => if c.1 = text then some c.2 else none

theorem register_get? (d : Dictionary) (c : Str × WordForm) (t : Str) :
    (d.register c.1 c.2).get? t = if c.1 = t then
      (match d.get? t with
        | none => some c.2
        | some r => if replaces c.2 r then some c.2 else some r)
    else d.get? t := by
  unfold Dictionary.register
  by_cases h : c.1 = t
  · subst h
    simp only [if_true]
    rcases Option.eq_none_or_eq_some (d.get? c.1) with h1 | ⟨r, h1⟩
    · simp [h1, Dict.get?_set]
    · simp only [h1]
      split
      · simp [Dict.get?_set]
      · exact h1
  · rw [if_neg h]
    rcases Option.eq_none_or_eq_some (d.get? c.1) with h1 | ⟨r, h1⟩
    · simp [h1, Dict.get?_set, h]
    · simp only [h1]
      split
      · simp [Dict.get?_set, h]
      · rfl

theorem registerAll_get? (cs : List (Str × WordForm)) (hcs : ∀ c ∈ cs, WFProps c.2.properties) (t : Str) :
    (only t cs = [] ∧ (registerAll [] cs).get? t = none) ∨
    ∃ f, (registerAll [] cs).get? t = some f ∧ FirstBest (only t cs) f := by
  induction cs using List.reverseRecOn with
  | nil => left; exact ⟨rfl, rfl⟩
  | append_singleton cs c ih =>
    have ih := ih (fun c hc => hcs c (by simp [hc]))
    have hc0 := hcs c (by simp)
    have honly : only t (cs ++ [c]) = only t cs ++ (if c.1 = t then [c.2] else []) := by
      unfold only
      rw [List.filterMap_append]
      by_cases h : c.1 = t <;> simp [h]
    have hreg : (registerAll [] (cs ++ [c])).get? t = ((registerAll [] cs).register c.1 c.2).get? t := by
      simp [registerAll]
    rw [hreg, register_get?, honly]
    by_cases h : c.1 = t
    · rw [if_pos h, if_pos h]
      right
      rcases ih with ⟨h1, h2⟩ | ⟨f, h1, pre, post, h3, h4, h5⟩
      · rw [h1, h2]
        exact ⟨c.2, rfl, [], [], rfl, by simp, by simp⟩
      · rw [h1]
        simp only
        have hf0 : WFProps f.properties := by
          have : f ∈ only t cs := by rw [h3]; simp
          simp only [only, List.mem_filterMap] at this
          obtain ⟨c', hc', he⟩ := this
          split at he
          · injection he with he; subst he; exact hcs c' (by simp [hc'])
          · simp at he
        by_cases hr : replaces c.2 f = true
        · have hb := (replaces_iff hc0 hf0).mp hr
          refine ⟨c.2, by rw [if_pos hr], pre ++ f :: post, [], by rw [h3], ?_, by simp⟩
          intro g hg
          rcases List.mem_append.mp hg with hg | hg
          · exact better_trans hb (h4 g hg)
          · rcases List.mem_cons.mp hg with rfl | hg
            · exact hb
            · exact better_cotrans hb (h5 g hg)
        · refine ⟨f, by rw [if_neg hr], pre, post ++ [c.2], by rw [h3]; simp, h4, ?_⟩
          intro g hg
          rcases List.mem_append.mp hg with hg | hg
          · exact h5 g hg
          · simp at hg; subst hg; exact fun hb => hr ((replaces_iff hc0 hf0).mpr hb)
    · rw [if_neg h, if_neg h, List.append_nil]
      exact ih

theorem registerAll_nodup (cs : List (Str × WordForm)) : ∀ d : Dictionary, (Dict.keys d).Nodup → (Dict.keys (registerAll d cs)).Nodup := by
  induction cs with
  | nil => intro d h; exact h
  | cons c cs ih =>
    intro d h
    refine ih (d.register c.1 c.2) ?_
    unfold Dictionary.register
    split
    · exact Dict.nodup_set h _ _
    · split
      · exact Dict.nodup_set h _ _
      · exact h

theorem firstBest_mem {l : List WordForm} {f : WordForm} (h : FirstBest l f) : f ∈ l := by
  obtain ⟨pre, post, rfl, _⟩ := h; simp

theorem firstBest_min {l : List WordForm} {f : WordForm} (h : FirstBest l f) : ∀ g ∈ l, ¬ Better g f := by
  obtain ⟨pre, post, rfl, h1, h2⟩ := h
  intro g hg hb
  rcases List.mem_append.mp hg with hg | hg
  · exact better_irrefl _ (better_trans hb (h1 g hg))
  · rcases List.mem_cons.mp hg with rfl | hg
    · exact better_irrefl _ hb
    · exact h2 g hg hb

theorem mem_only {t : Str} {cs : List (Str × WordForm)} {f : WordForm} : f ∈ only t cs ↔ (t, f) ∈ cs := by
  unfold only
  simp only [List.mem_filterMap]
  constructor
  · rintro ⟨c, hc, h⟩
    split at h
    · rename_i he
      injection h with h; subst h; subst he; exact hc
    · simp at h
  · intro h; exact ⟨(t, f), h, by simp⟩

theorem mem_spelled {U : PyUni} {fs : List WordForm} {t : Str} {f : WordForm} (h : (t, f) ∈ spelled U fs) :
    f ∈ fs ∧ f.form U = .ok t := by
  induction fs with
  | nil => simp [spelled] at h
  | cons g fs ih =>
    simp only [spelled] at h
    cases hg : g.form U with
    | error e => rw [hg] at h; simp at h
    | ok s =>
      rw [hg] at h
      simp only [List.mem_cons, Prod.mk.injEq] at h
      rcases h with ⟨rfl, rfl⟩ | h
      · exact ⟨by simp, hg⟩
      · exact ⟨List.mem_cons_of_mem _ (ih h).1, (ih h).2⟩

theorem mem_spelled_all {U : PyUni} {fs : List WordForm} (hall : ∀ f ∈ fs, ∃ s, f.form U = .ok s) {t : Str} {f : WordForm} :
    (t, f) ∈ spelled U fs ↔ f ∈ fs ∧ f.form U = .ok t := by
  refine ⟨mem_spelled, ?_⟩
  rintro ⟨hf, ht⟩
  induction fs with
  | nil => simp at hf
  | cons g fs ih =>
    obtain ⟨s, hs⟩ := hall g (by simp)
    simp only [spelled, hs, List.mem_cons, Prod.mk.injEq]
    rcases List.mem_cons.mp hf with rfl | hf
    · rw [ht] at hs; injection hs with hs; exact Or.inl ⟨hs, rfl⟩
    · exact Or.inr (ih (fun f hf => hall f (List.mem_cons_of_mem _ hf)) hf)

/-- Registering something not better than what is there changes nothing. -/
theorem register_of_not_better {d : Dictionary} {t : Str} {f r : WordForm} (h : d.get? t = some r) (hf : WFProps f.properties)
    (hr : WFProps r.properties) (hb : ¬ Better f r) :
    d.register t f = d := by
  unfold Dictionary.register
  rw [h]
  simp only
  rw [if_neg (fun h => hb ((replaces_iff hf hr).mp h))]

end Utg
