import Verif.Spec.LexSets
import Verif.Props.Lexicon
/-! # C133, C134: restrictions that are objects -/

set_option linter.unusedSectionVars false

namespace Utg
open Py Spec

variable {K T R : Type} [DecidableEq K] [DecidableEq R]

theorem setWorld_snoc (ops : List (SetOp K T R)) (op : SetOp K T R) :
    SetWorld.after (ops ++ [op]) = (SetWorld.after ops).step op := by
  simp [SetWorld.after, List.foldl_append]

theorem additionsOf_append (a b : List (SetOp K T R)) : additionsOf (a ++ b) = additionsOf a ++ additionsOf b := by
  simp [additionsOf, List.filterMap_append]

theorem createdOf_append (a b : List (SetOp K T R)) : createdOf (a ++ b) = createdOf a ++ createdOf b := by
  simp [createdOf, List.filterMap_append]

/-- Two collections of the same kind. -/
def SameKind : Coll R → Coll R → Prop
  | .set _, .set _ => True
  | .seq _, .seq _ => True
  | _, _ => False

theorem sameKind_refl (c : Coll R) : SameKind c c := by cases c <;> trivial

/-- Collections keep their kind. -/
theorem setWorld_objects (ops : List (SetOp K T R)) : List.Forall₂ SameKind (createdOf ops) (SetWorld.after ops).objects := by
  have mono : ∀ (l l' : List (Coll R)) (i : Nat) (c d : Coll R), List.Forall₂ SameKind l l' → l'[i]? = some c → SameKind c d →
      List.Forall₂ SameKind l (l'.set i d) := by
    intro l l' i c d h
    induction h generalizing i with
    | nil => intro h; simp at h
    | @cons a b as bs hab _ ih =>
      intro hi hcd
      cases i with
      | zero =>
        simp at hi
        subst hi
        simp only [List.set_cons_zero]
        refine .cons ?_ (by assumption)
        cases a <;> cases b <;> cases d <;> simp_all [SameKind]
      | succ i =>
        simp only [List.getElem?_cons_succ] at hi
        simp only [List.set_cons_succ]
        exact .cons hab (ih i hi hcd)
  induction ops using List.reverseRecOn with
  | nil => exact .nil
  | append_singleton ops op ih =>
    rw [setWorld_snoc, createdOf_append]
    cases op with
    | create c =>
      refine List.rel_append ih (.cons (sameKind_refl c) .nil)
    | changeSet i s =>
      have : createdOf [SetOp.changeSet (K := K) (T := T) i s] = [] := rfl
      rw [this, List.append_nil]
      simp only [SetWorld.step]
      split
      · rename_i s' h
        exact mono _ _ _ _ _ ih h trivial
      · exact ih
    | changeSeq i l =>
      have : createdOf [SetOp.changeSeq (K := K) (T := T) i l] = [] := rfl
      rw [this, List.append_nil]
      simp only [SetWorld.step]
      split
      · rename_i s' h
        exact mono _ _ _ _ _ ih h trivial
      · exact ih
    | add key t i =>
      have : createdOf [SetOp.add (R := R) key t i] = [] := rfl
      rw [this, List.append_nil]
      exact ih

theorem object_set {ops : List (SetOp K T R)} {i : Nat} {s : Finset R} (h : (createdOf ops)[i]? = some (.set s)) :
    (SetWorld.after ops).objects[i]? = some (.set (contentsNow ops i)) := by
  have hf := List.forall₂_iff_get.mp (setWorld_objects ops)
  obtain ⟨hi, e⟩ := List.getElem?_eq_some_iff.mp h
  have := hf.2 i hi (hf.1 ▸ hi)
  simp only [List.get_eq_getElem] at this
  rw [e] at this
  have hi' : i < (SetWorld.after ops).objects.length := hf.1 ▸ hi
  have hg : (SetWorld.after ops).objects[i]? = some (SetWorld.after ops).objects[i] := List.getElem?_eq_getElem hi'
  unfold contentsNow
  rw [hg]
  cases hc : (SetWorld.after ops).objects[i] with
  | set s' => rfl
  | seq l => rw [hc] at this; exact this.elim

theorem object_seq {ops : List (SetOp K T R)} {i : Nat} {l : List R} (h : (createdOf ops)[i]? = some (.seq l)) :
    ∃ l', (SetWorld.after ops).objects[i]? = some (.seq l') := by
  have hf := List.forall₂_iff_get.mp (setWorld_objects ops)
  obtain ⟨hi, e⟩ := List.getElem?_eq_some_iff.mp h
  have := hf.2 i hi (hf.1 ▸ hi)
  simp only [List.get_eq_getElem] at this
  rw [e] at this
  have hi' : i < (SetWorld.after ops).objects.length := hf.1 ▸ hi
  have hg : (SetWorld.after ops).objects[i]? = some (SetWorld.after ops).objects[i] := List.getElem?_eq_getElem hi'
  rw [hg]
  cases hc : (SetWorld.after ops).objects[i] with
  | set s' => rw [hc] at this; exact this.elim
  | seq l => exact ⟨l, rfl⟩

/-- The entries of a key are the templates added under it, in order. -/
theorem setWorld_entries (ops : List (SetOp K T R)) (key : K) :
    Dict.get? (SetWorld.after ops).lexicon key =
      if ∃ a ∈ additionsOf ops, a.1 = key
      then some (((additionsOf ops).filter fun a => decide (a.1 = key)).map Prod.snd) else none := by
  induction ops using List.reverseRecOn with
  | nil => simp [SetWorld.after, additionsOf]
  | append_singleton ops op ih =>
    rw [setWorld_snoc, additionsOf_append]
    have other : ∀ w : SetWorld K T R, w.lexicon = (SetWorld.after ops).lexicon → additionsOf [op] = [] →
        Dict.get? w.lexicon key = if ∃ a ∈ additionsOf ops ++ additionsOf [op], a.1 = key
          then some (((additionsOf ops ++ additionsOf [op]).filter fun a => decide (a.1 = key)).map Prod.snd) else none := by
      intro w h1 h2
      rw [h1, h2, List.append_nil]
      exact ih
    cases op with
    | create c => exact other _ rfl rfl
    | changeSet i s =>
      refine other _ ?_ rfl
      simp only [SetWorld.step]
      split <;> rfl
    | changeSeq i s =>
      refine other _ ?_ rfl
      simp only [SetWorld.step]
      split <;> rfl
    | add k t i =>
      have e : additionsOf [SetOp.add (R := R) k t i] = [(k, t, i)] := rfl
      rw [e]
      have hget : Dict.get? ((SetWorld.after ops).step (.add k t i)).lexicon key =
          if k = key then some ((Dict.get? (SetWorld.after ops).lexicon k).getD [] ++ [(t, i)])
          else Dict.get? (SetWorld.after ops).lexicon key := by
        simp only [SetWorld.step]
        by_cases hc : Dict.contains (SetWorld.after ops).lexicon k = true
        · simp [hc, Dict.get?_set]
        · have hn : Dict.get? (SetWorld.after ops).lexicon k = none := by
            unfold Dict.contains at hc; simpa using hc
          simp only [hc, Bool.false_eq_true, if_false, Dict.get?_set, if_true, hn]
          by_cases h : k = key <;> simp [h]
      rw [hget]
      by_cases h : k = key
      · subst h
        rw [if_pos rfl, if_pos ⟨(k, t, i), by simp, rfl⟩, ih, List.filter_append, List.map_append]
        split
        · simp
        · rename_i hn
          have h0 : (additionsOf ops).filter (fun a => decide (a.1 = k)) = [] := by
            rw [List.filter_eq_nil_iff]; intro a ha; simp; exact fun e => hn ⟨a, ha, e⟩
          simp [h0]
      · rw [if_neg h, ih, List.filter_append]
        have h0 : [(k, t, i)].filter (fun a => decide (a.1 = key)) = [] := by simp [h]
        rw [h0, List.append_nil]
        have hiff : (∃ a ∈ additionsOf ops ++ [(k, t, i)], a.1 = key) ↔ ∃ a ∈ additionsOf ops, a.1 = key := by
          constructor
          · rintro ⟨a, ha, e⟩
            rcases List.mem_append.mp ha with ha | ha
            · exact ⟨a, ha, e⟩
            · simp at ha; subst ha; exact absurd e h
          · rintro ⟨a, ha, e⟩; exact ⟨a, List.mem_append_left _ ha, e⟩
        by_cases hex : ∃ a ∈ additionsOf ops, a.1 = key
        · rw [if_pos hex, if_pos (hiff.mpr hex)]
        · rw [if_neg hex, if_neg (fun x => hex (hiff.mp x))]

theorem setWorld_getD (ops : List (SetOp K T R)) (key : K) :
    (Dict.get? (SetWorld.after ops).lexicon key).getD [] = ((additionsOf ops).filter fun a => decide (a.1 = key)).map Prod.snd := by
  rw [setWorld_entries]
  split
  · rfl
  · rename_i hn
    have h0 : (additionsOf ops).filter (fun a => decide (a.1 = key)) = [] := by
      rw [List.filter_eq_nil_iff]; intro a ha; simp; exact fun e => hn ⟨a, ha, e⟩
    simp [h0]

theorem setWorld_contains (ops : List (SetOp K T R)) (key : K) (contents : Nat → Finset R) :
    Dict.contains (SetWorld.after ops).lexicon key = Dict.contains (lexiconOf (readWith contents (additionsOf ops))) key := by
  rw [lexiconOf_contains]
  unfold Dict.contains
  rw [setWorld_entries]
  split
  · rename_i h
    obtain ⟨a, ha, e⟩ := h
    simp only [Option.isSome_some]
    exact (decide_eq_true ⟨_, List.mem_map_of_mem ha, e⟩).symm
  · rename_i h
    simp only [Option.isSome_none]
    refine (decide_eq_false ?_).symm
    rintro ⟨c, hc, e⟩
    obtain ⟨a, ha, rfl⟩ := List.mem_map.mp hc
    exact h ⟨a, ha, e⟩

theorem readWith_getD (contents : Nat → Finset R) (adds : List (K × T × Nat)) (key : K) :
    (Dict.get? (lexiconOf (readWith contents adds)) key).getD [] =
      ((adds.filter fun a => decide (a.1 = key)).map Prod.snd).map fun e => (e.1, contents e.2) := by
  rw [lexiconOf_getD]
  unfold readWith
  rw [List.filter_map, List.map_map, List.map_map]
  rfl

/-- Entries whose restrictions are sets with the given contents. -/
def EntriesAre (w : SetWorld K T R) (contents : Nat → Finset R) (es : List (T × Nat)) : Prop :=
  ∀ e ∈ es, w.objects[e.2]? = some (.set (contents e.2))

theorem entriesAre_now {ops : List (SetOp K T R)} {key : K} (h : OnlySets ops key) :
    EntriesAre (SetWorld.after ops) (contentsNow ops) ((Dict.get? (SetWorld.after ops).lexicon key).getD []) := by
  rw [setWorld_getD]
  intro e he
  obtain ⟨a, ha, rfl⟩ := List.mem_map.mp he
  obtain ⟨h1, h2⟩ := List.mem_filter.mp ha
  obtain ⟨s, hs⟩ := h a h1 (by simpa using h2)
  exact object_set hs

theorem templatesLoop_eq {w : SetWorld K T R} {contents : Nat → Finset R} {es : List (T × Nat)} (h : EntriesAre w contents es) (arg : Coll R) :
    w.templatesLoop arg es =
      .ok (((es.map fun e => (e.1, contents e.2)).filter fun tr => decide (tr.2 ⊆ arg.elements)).map Prod.fst) := by
  induction es with
  | nil => rfl
  | cons e es ih =>
    obtain ⟨t, i⟩ := e
    have h1 : w.objects[i]? = some (.set (contents i)) := h (t, i) (by simp)
    have h2 := ih fun e he => h e (by simp [he])
    simp only [SetWorld.templatesLoop, SetWorld.object, h1, Coll.issubset, h2, bind, Except.bind, List.map_cons, List.filter_cons]
    by_cases hs : contents i ⊆ arg.elements <;> simp [hs]

theorem nearestStep_set {w : SetWorld K T R} {contents : Nat → Finset R} {e : T × Nat} (h : w.objects[e.2]? = some (.set (contents e.2)))
    (rs : Finset R) (s : List (T × Nat) × Int) :
    w.nearestStep (.set rs) s e = .ok (nearestTemplatesStep rs s (e.1, contents e.2)) := by
  simp only [SetWorld.nearestStep, SetWorld.object, h, Coll.issubset, Coll.common, Coll.elements, bind, Except.bind,
    nearestTemplatesStep]
  by_cases hs : contents e.2 ⊆ rs <;> simp [hs]

theorem nearestFold_set {w : SetWorld K T R} {contents : Nat → Finset R} {es : List (T × Nat)} (h : EntriesAre w contents es)
    (rs : Finset R) (s : List (T × Nat) × Int) :
    es.foldlM (w.nearestStep (.set rs)) s = .ok ((es.map fun e => (e.1, contents e.2)).foldl (nearestTemplatesStep rs) s) := by
  induction es generalizing s with
  | nil => rfl
  | cons e es ih =>
    rw [List.foldlM_cons, nearestStep_set (h e (by simp))]
    simp only [bind, Except.bind, List.map_cons, List.foldl_cons]
    exact ih (fun e he => h e (by simp [he])) _

/-- Only a change of this very set changes it. -/
theorem step_keeps {w : SetWorld K T R} {op : SetOp K T R} {i : Nat} {s : Finset R} (hob : w.objects[i]? = some (.set s))
    (hop : ∀ s', op ≠ .changeSet i s') : (w.step op).objects[i]? = some (.set s) := by
  obtain ⟨hlt, -⟩ := List.getElem?_eq_some_iff.mp hob
  cases op with
  | create c => simp only [SetWorld.step]; rw [List.getElem?_append_left hlt, hob]
  | changeSet j s' =>
    have hj : j ≠ i := by
      rintro rfl
      exact hop s' rfl
    simp only [SetWorld.step]
    cases w.objects[j]? with
    | none => exact hob
    | some c => cases c with
      | set _ => simp only [List.getElem?_set, hj, if_false, hob]
      | seq _ => exact hob
  | changeSeq j l =>
    simp only [SetWorld.step]
    cases hw : w.objects[j]? with
    | none => exact hob
    | some c => cases c with
      | set _ => exact hob
      | seq _ =>
        have hj : j ≠ i := by
          rintro rfl
          rw [hob] at hw; simp at hw
        simp only [List.getElem?_set, hj, if_false, hob]
  | add k t j => exact hob

/-! ## C133 -/

/-- C133: whatever happened, a lexicon answers every request as if its templates had just been added with the restrictions as they
are now. -/
theorem C133_present (ops : List (SetOp K T R)) (key : K) (rs : Finset R) (draw : Nat) (h : OnlySets ops key) :
    let now := lexiconOf (readWith (contentsNow ops) (additionsOf ops))
    (SetWorld.after ops).getTemplates key (.set rs) = .ok (now.getTemplates key rs) ∧
    (SetWorld.after ops).getRandomTemplate key (.set rs) draw = now.getRandomTemplate key rs draw ∧
    (SetWorld.after ops).getRandomNearestTemplate key (.set rs) draw = now.getRandomNearestTemplate key rs draw := by
  intro now
  have he := entriesAre_now h
  have hD : (Dict.get? now key).getD [] =
      ((Dict.get? (SetWorld.after ops).lexicon key).getD []).map fun e => (e.1, contentsNow ops e.2) := by
    rw [setWorld_getD]; exact readWith_getD _ _ _
  have hc : Dict.contains (SetWorld.after ops).lexicon key = Dict.contains now key := setWorld_contains ops key _
  have h1 : (SetWorld.after ops).getTemplates key (.set rs) = .ok (now.getTemplates key rs) := by
    unfold SetWorld.getTemplates Lexicon.getTemplates
    rw [templatesLoop_eq he, hD]; rfl
  refine ⟨h1, ?_, ?_⟩
  · unfold SetWorld.getRandomTemplate Lexicon.getRandomTemplate
    rw [hc, h1]; rfl
  · unfold SetWorld.getRandomNearestTemplate Lexicon.getRandomNearestTemplate SetWorld.getNearestTemplates Lexicon.getNearestTemplates
    rw [hc, nearestFold_set he, hD]; rfl

/-- C133: the contents of a set are what it was last given. -/
theorem C133_contents (before later : List (SetOp K T R)) (i : Nat) (s s₀ : Finset R) (hi : (createdOf before)[i]? = some (.set s₀))
    (hl : ∀ s', SetOp.changeSet i s' ∉ later) : contentsNow (before ++ .changeSet i s :: later) i = s := by
  have hb := object_set hi
  induction later using List.reverseRecOn with
  | nil =>
    unfold contentsNow
    rw [setWorld_snoc]
    simp only [SetWorld.step, hb]
    obtain ⟨hlt, -⟩ := List.getElem?_eq_some_iff.mp hb
    rw [List.getElem?_set_self hlt]
    rfl
  | append_singleton later op ih =>
    have ih := ih fun s' hs' => hl s' (by simp [hs'])
    have hcr : (createdOf (before ++ .changeSet i s :: later))[i]? = some (.set s₀) := by
      rw [createdOf_append, List.getElem?_append_left (List.getElem?_eq_some_iff.mp hi).1]; exact hi
    have hob := object_set hcr
    rw [ih] at hob
    have e : before ++ .changeSet i s :: (later ++ [op]) = (before ++ .changeSet i s :: later) ++ [op] := by simp
    rw [e]
    unfold contentsNow
    rw [setWorld_snoc, step_keeps hob (fun s' e => hl s' (by simp [e]))]
    rfl

/-- C133: a set that is never changed (a `frozenset`) keeps the contents it was created with. -/
theorem C133_frozen (ops : List (SetOp K T R)) (i : Nat) (s : Finset R) (hi : (createdOf ops)[i]? = some (.set s))
    (hl : ∀ s', SetOp.changeSet i s' ∉ ops) : contentsNow ops i = s := by
  induction ops using List.reverseRecOn with
  | nil => simp [createdOf] at hi
  | append_singleton ops op ih =>
    by_cases hold : i < (createdOf ops).length
    · have hi' : (createdOf ops)[i]? = some (.set s) := by
        rwa [createdOf_append, List.getElem?_append_left hold] at hi
      have ih := ih hi' fun s' hs' => hl s' (by simp [hs'])
      have hob := object_set hi'
      rw [ih] at hob
      unfold contentsNow
      rw [setWorld_snoc, step_keeps hob (fun s' e => hl s' (by simp [e]))]
      rfl
    · rw [createdOf_append, List.getElem?_append_right (by omega)] at hi
      have hlen := (setWorld_objects ops).length_eq
      unfold contentsNow
      rw [setWorld_snoc]
      cases op with
      | create c =>
        have e : createdOf [SetOp.create (K := K) (T := T) c] = [c] := rfl
        rw [e] at hi
        obtain ⟨h1, h2⟩ := List.getElem?_eq_some_iff.mp hi
        simp at h1 h2
        subst h2
        simp only [SetWorld.step]
        rw [List.getElem?_append_right (by omega)]
        have : i - (SetWorld.after ops).objects.length = 0 := by omega
        rw [this]; rfl
      | changeSet j s' => simp [createdOf] at hi
      | changeSeq j s' => simp [createdOf] at hi
      | add k t j => simp [createdOf] at hi

/-! ## C134 -/

/-- C134: restrictions asked for as a list or tuple do the same as a set, except that `get_random_nearest_template` raises `TypeError` as
soon as some template is applicable. -/
theorem C134_sequence (ops : List (SetOp K T R)) (key : K) (l : List R) (draw : Nat) (h : OnlySets ops key) :
    (SetWorld.after ops).getTemplates key (.seq l) = (SetWorld.after ops).getTemplates key (.set l.toFinset) ∧
    (SetWorld.after ops).getRandomTemplate key (.seq l) draw = (SetWorld.after ops).getRandomTemplate key (.set l.toFinset) draw ∧
    ((∃ c ∈ readWith (contentsNow ops) (additionsOf ops), Applicable key l.toFinset c) →
      (SetWorld.after ops).getRandomNearestTemplate key (.seq l) draw = .error .TypeError) ∧
    ((∀ c ∈ readWith (contentsNow ops) (additionsOf ops), ¬ Applicable key l.toFinset c) →
      (SetWorld.after ops).getRandomNearestTemplate key (.seq l) draw =
        (SetWorld.after ops).getRandomNearestTemplate key (.set l.toFinset) draw) := by
  have he := entriesAre_now h
  have h1 : (SetWorld.after ops).getTemplates key (.seq l) = (SetWorld.after ops).getTemplates key (.set l.toFinset) := by
    unfold SetWorld.getTemplates
    rw [templatesLoop_eq he, templatesLoop_eq he]; rfl
  have happ : (∃ c ∈ readWith (contentsNow ops) (additionsOf ops), Applicable key l.toFinset c) ↔
      ∃ e ∈ (Dict.get? (SetWorld.after ops).lexicon key).getD [], contentsNow ops e.2 ⊆ l.toFinset := by
    rw [setWorld_getD]
    constructor
    · rintro ⟨c, hc, h1, h2⟩
      obtain ⟨a, ha, rfl⟩ := List.mem_map.mp hc
      exact ⟨a.2, List.mem_map_of_mem (List.mem_filter.mpr ⟨ha, by simpa using h1⟩), h2⟩
    · rintro ⟨e, he, h2⟩
      obtain ⟨a, ha, rfl⟩ := List.mem_map.mp he
      obtain ⟨h3, h4⟩ := List.mem_filter.mp ha
      exact ⟨_, List.mem_map_of_mem h3, by simpa using h4, h2⟩
  have yes : ∀ es : List (T × Nat), EntriesAre (SetWorld.after ops) (contentsNow ops) es →
      (∃ e ∈ es, contentsNow ops e.2 ⊆ l.toFinset) → ∀ s, es.foldlM ((SetWorld.after ops).nearestStep (.seq l)) s = .error .TypeError := by
    intro es
    induction es with
    | nil => rintro - ⟨e, he, -⟩; simp at he
    | cons e es ih =>
      intro hes hex s
      rw [List.foldlM_cons]
      have hob := hes e (by simp)
      by_cases hs : contentsNow ops e.2 ⊆ l.toFinset
      · simp [SetWorld.nearestStep, SetWorld.object, hob, Coll.issubset, Coll.common, Coll.elements, bind, Except.bind, hs]
      · simp only [SetWorld.nearestStep, SetWorld.object, hob, Coll.issubset, Coll.elements, bind, Except.bind, hs, decide_false,
          Bool.false_eq_true, if_false]
        refine ih (fun e he => hes e (by simp [he])) ?_ s
        obtain ⟨e', he', h'⟩ := hex
        rcases List.mem_cons.mp he' with rfl | he'
        · exact absurd h' hs
        · exact ⟨e', he', h'⟩
  have no : ∀ (arg : Coll R), arg.elements = l.toFinset → ∀ es : List (T × Nat), EntriesAre (SetWorld.after ops) (contentsNow ops) es →
      (∀ e ∈ es, ¬ contentsNow ops e.2 ⊆ l.toFinset) → ∀ s, es.foldlM ((SetWorld.after ops).nearestStep arg) s = .ok s := by
    intro arg harg es
    induction es with
    | nil => intros; rfl
    | cons e es ih =>
      intro hes hno s
      rw [List.foldlM_cons]
      have hob := hes e (by simp)
      have hs := hno e (by simp)
      simp only [SetWorld.nearestStep, SetWorld.object, hob, Coll.issubset, harg, bind, Except.bind, hs, decide_false,
        Bool.false_eq_true, if_false]
      exact ih (fun e he => hes e (by simp [he])) (fun e he => hno e (by simp [he])) s
  refine ⟨h1, ?_, ?_, ?_⟩
  · unfold SetWorld.getRandomTemplate; rw [h1]
  · intro hex
    have hkey : Dict.contains (SetWorld.after ops).lexicon key = true := by
      rw [setWorld_contains ops key (contentsNow ops), lexiconOf_contains]
      obtain ⟨c, hc, h1, -⟩ := hex
      exact decide_eq_true ⟨c, hc, h1⟩
    unfold SetWorld.getRandomNearestTemplate SetWorld.getNearestTemplates
    rw [hkey, yes _ he (happ.mp hex)]
    rfl
  · intro hno
    have hno' : ∀ e ∈ (Dict.get? (SetWorld.after ops).lexicon key).getD [], ¬ contentsNow ops e.2 ⊆ l.toFinset := by
      intro e he hs
      obtain ⟨c, hc, h⟩ := happ.mpr ⟨e, he, hs⟩
      exact hno c hc h
    unfold SetWorld.getRandomNearestTemplate SetWorld.getNearestTemplates
    rw [no (.seq l) rfl _ he hno', no (.set l.toFinset) rfl _ he hno']

/-- C134: a template added with a list or tuple as restrictions is accepted, but from then on every request for its key raises
`AttributeError` (`get_random_nearest_template` with a list may raise `TypeError` instead). -/
theorem C134_not_a_set (ops : List (SetOp K T R)) (key : K) (arg : Coll R) (draw : Nat)
    (hvalid : ∀ a ∈ additionsOf ops, a.2.2 < (createdOf ops).length)
    (h : ∃ a ∈ additionsOf ops, a.1 = key ∧ ∃ l, (createdOf ops)[a.2.2]? = some (.seq l)) :
    (SetWorld.after ops).getTemplates key arg = .error .AttributeError ∧
    (SetWorld.after ops).getRandomTemplate key arg draw = .error .AttributeError ∧
    ((SetWorld.after ops).getRandomNearestTemplate key arg draw = .error .AttributeError ∨
      (∃ l, arg = .seq l) ∧ (SetWorld.after ops).getRandomNearestTemplate key arg draw = .error .TypeError) := by
  have hkind : ∀ e ∈ (Dict.get? (SetWorld.after ops).lexicon key).getD [], ∃ c, (SetWorld.after ops).objects[e.2]? = some c := by
    rw [setWorld_getD]
    intro e he
    obtain ⟨a, ha, rfl⟩ := List.mem_map.mp he
    have hlt := hvalid a (List.mem_filter.mp ha).1
    rw [(setWorld_objects ops).length_eq] at hlt
    exact ⟨_, List.getElem?_eq_getElem hlt⟩
  have hbad : ∃ e ∈ (Dict.get? (SetWorld.after ops).lexicon key).getD [], ∃ l, (SetWorld.after ops).objects[e.2]? = some (.seq l) := by
    rw [setWorld_getD]
    obtain ⟨a, ha, hk, l, hl⟩ := h
    exact ⟨a.2, List.mem_map_of_mem (List.mem_filter.mpr ⟨ha, by simpa using hk⟩), object_seq hl⟩
  have hkey : Dict.contains (SetWorld.after ops).lexicon key = true := by
    rw [setWorld_contains ops key (contentsNow ops), lexiconOf_contains]
    obtain ⟨a, ha, hk, -⟩ := h
    exact decide_eq_true ⟨_, List.mem_map_of_mem ha, hk⟩
  have loop : ∀ es : List (T × Nat), (∀ e ∈ es, ∃ c, (SetWorld.after ops).objects[e.2]? = some c) →
      (∃ e ∈ es, ∃ l, (SetWorld.after ops).objects[e.2]? = some (.seq l)) →
      (SetWorld.after ops).templatesLoop arg es = .error .AttributeError := by
    intro es
    induction es with
    | nil => rintro - ⟨e, he, -⟩; simp at he
    | cons e es ih =>
      intro hv hb
      obtain ⟨t, i⟩ := e
      obtain ⟨c, hc⟩ := hv (t, i) (by simp)
      simp only at hc
      cases c with
      | seq l => simp [SetWorld.templatesLoop, SetWorld.object, hc, Coll.issubset, bind, Except.bind]
      | set s =>
        have : (SetWorld.after ops).templatesLoop arg es = .error .AttributeError := by
          refine ih (fun e he => hv e (by simp [he])) ?_
          obtain ⟨e', he', l, hl⟩ := hb
          rcases List.mem_cons.mp he' with rfl | he'
          · simp only at hl; rw [hc] at hl; simp at hl
          · exact ⟨e', he', l, hl⟩
        simp [SetWorld.templatesLoop, SetWorld.object, hc, Coll.issubset, bind, Except.bind, this]
  have near : ∀ es : List (T × Nat), (∀ e ∈ es, ∃ c, (SetWorld.after ops).objects[e.2]? = some c) →
      (∃ e ∈ es, ∃ l, (SetWorld.after ops).objects[e.2]? = some (.seq l)) → ∀ s,
      es.foldlM ((SetWorld.after ops).nearestStep arg) s = .error .AttributeError ∨
        (∃ l, arg = .seq l) ∧ es.foldlM ((SetWorld.after ops).nearestStep arg) s = .error .TypeError := by
    intro es
    induction es with
    | nil => rintro - ⟨e, he, -⟩; simp at he
    | cons e es ih =>
      intro hv hb s
      obtain ⟨c, hc⟩ := hv e (by simp)
      rw [List.foldlM_cons]
      cases c with
      | seq l => left; simp [SetWorld.nearestStep, SetWorld.object, hc, Coll.issubset, bind, Except.bind]
      | set s' =>
        have ih' : ∀ s, _ := ih (fun e he => hv e (by simp [he])) (by
          obtain ⟨e', he', l, hl⟩ := hb
          rcases List.mem_cons.mp he' with rfl | he'
          · rw [hc] at hl; simp at hl
          · exact ⟨e', he', l, hl⟩)
        by_cases hs : s' ⊆ arg.elements
        · cases arg with
          | seq l =>
            right
            exact ⟨⟨l, rfl⟩, by simp [SetWorld.nearestStep, SetWorld.object, hc, Coll.issubset, Coll.common, bind, Except.bind, hs]⟩
          | set rs =>
            simp only [SetWorld.nearestStep, SetWorld.object, hc, Coll.issubset, Coll.common, bind, Except.bind, hs, decide_true, if_true]
            exact ih' _
        · simp only [SetWorld.nearestStep, SetWorld.object, hc, Coll.issubset, bind, Except.bind, hs, decide_false,
            Bool.false_eq_true, if_false]
          exact ih' _
  have h1 := loop _ hkind hbad
  refine ⟨h1, ?_, ?_⟩
  · unfold SetWorld.getRandomTemplate SetWorld.getTemplates
    rw [hkey, h1]; rfl
  · unfold SetWorld.getRandomNearestTemplate SetWorld.getNearestTemplates
    rw [hkey]
    rcases near _ hkind hbad ([], -1) with h2 | ⟨h2, h3⟩
    · left; rw [h2]; rfl
    · right; refine ⟨h2, ?_⟩; rw [h3]; rfl

/-! ## Examples -/

/-- A program: a set is used for two templates and changed afterwards; a list is used under another key. -/
def exSets : List (SetOp Nat String Nat) :=
  [.create (.set {1}), .add 5 "a" 0, .create (.set ∅), .add 5 "b" 1, .changeSet 0 {2}, .create (.seq [1]), .add 6 "c" 2]

/-- C133, C134 apply: after the change the template `a` is applicable where it was not, and not where it was; the nearest template cannot
be asked for with a list; every request under key 6 raises. -/
example : OnlySets exSets 5 ∧ contentsNow exSets 0 = {2} ∧ contentsCreated exSets 0 = {1} ∧
    (SetWorld.after exSets).getTemplates 5 (.set {1}) = .ok ["b"] ∧ (SetWorld.after exSets).getTemplates 5 (.set {2}) = .ok ["a", "b"] ∧
    (SetWorld.after exSets).getTemplates 5 (.seq [2]) = .ok ["a", "b"] ∧
    (SetWorld.after exSets).getRandomNearestTemplate 5 (.seq [2]) 0 = .error .TypeError ∧
    (SetWorld.after exSets).getRandomNearestTemplate 5 (.set {2}) 0 = .ok "a" ∧
    (SetWorld.after exSets).getTemplates 6 (.set {1}) = .error .AttributeError := by
  refine ⟨?_, by decide, by decide, by decide, by decide, by decide, by decide, by decide, by decide⟩
  intro a ha hk
  simp only [exSets, additionsOf, List.filterMap_cons, List.filterMap_nil, List.mem_cons, List.not_mem_nil, or_false] at ha
  rcases ha with rfl | rfl | rfl
  · exact ⟨{1}, rfl⟩
  · exact ⟨∅, rfl⟩
  · simp at hk

end Utg
