import Verif.Spec.AddWords
import Verif.Props.DictThreads
import Verif.Props.Dictionary
import Verif.Props.Transformators
import Mathlib.Data.List.Permutation
/-!
# C116: whole calls of `Dictionary.add_word` in several threads
-/

namespace Utg
open Py Spec

/-- What the loop of `add_word` registers for these indices. -/
def todo (U : PyUni) (w : Word) : List Nat → List (Str × WordForm)
  | [] => []
  | i :: is => match w.nthForm i with
    | .error _ => []
    | .ok f => match f.form U with
      | .error _ => []
      | .ok text => (text, f) :: todo U w is

/-- How the loop of `add_word` over these indices ends. -/
def stopErr (U : PyUni) (w : Word) : List Nat → Option PyErr
  | [] => none
  | i :: is => match w.nthForm i with
    | .error e => some e
    | .ok f => match f.form U with
      | .error e => some e
      | .ok _ => stopErr U w is

theorem addForms_todo (U : PyUni) (w : Word) (is : List Nat) (d : Dictionary) :
    Dictionary.addForms U w d is = (registerAll d (todo U w is), stopErr U w is) := by
  induction is generalizing d with
  | nil => rfl
  | cons i is ih =>
    simp only [Dictionary.addForms, todo, stopErr]
    cases w.nthForm i with
    | error e => rfl
    | ok f =>
      simp only []
      cases hf : f.form U with
      | error e => rfl
      | ok text => simp only [ih]; rfl

/-- The indices of all forms. -/
abbrev slots (w : Word) : List Nat := List.range w.forms.length

theorem addWord_todo (U : PyUni) (w : Word) (d : Dictionary) :
    d.addWord U w = (registerAll d (todo U w (slots w)), stopErr U w (slots w)) := addForms_todo U w _ d

theorem offered_todo {U : PyUni} {w : Word} (hw : Accepted w) : offered U w = todo U w (slots w) := by
  have hall := allForms_spec (accepted_iff.mp hw).2
  have key : ∀ (is : List Nat) (fs : List WordForm), is.mapM w.nthForm = .ok fs → spelled U fs = todo U w is := by
    intro is
    induction is with
    | nil => intro fs h; injection h with h; subst h; rfl
    | cons i is ih =>
      intro fs h
      rw [List.mapM_cons] at h
      cases hi : w.nthForm i with
      | error e => rw [hi] at h; simp [bind, Except.bind] at h
      | ok f =>
        cases his : is.mapM w.nthForm with
        | error e => rw [hi, his] at h; simp [bind, Except.bind] at h
        | ok fs' =>
          rw [hi, his] at h
          simp only [bind, Except.bind, pure, Except.pure, Except.ok.injEq] at h
          subst h
          simp only [spelled, todo, hi]
          cases f.form U with
          | error e => rfl
          | ok text => simp only [ih fs' his]
  unfold offered
  rw [hall]
  exact key _ _ hall

/-- What a call is still to register. -/
def ahead (U : PyUni) (w : Word) : AddWordPC → List (Str × WordForm)
  | .next is => todo U w is
  | .form t f _ is => (t, f) :: todo U w is
  | .done => []
  | .failed _ => []

/-- How a call is going to end. -/
def ending (U : PyUni) (w : Word) : AddWordPC → Option PyErr
  | .next is => stopErr U w is
  | .form _ _ _ is => stopErr U w is
  | .done => none
  | .failed e => some e

/-- The dictionary if this call is finished without interruption. -/
def finish (U : PyUni) (w : Word) (d : Dictionary) : AddWordPC → Dictionary
  | .next is => registerAll d (todo U w is)
  | .form t f .put is => registerAll (Dict.set d t f) (todo U w is)
  | .form t f _ is => registerAll (d.register t f) (todo U w is)
  | .done => d
  | .failed _ => d

/-- The text is known. -/
abbrev Known (d : Dictionary) (t : Str) : Prop := ∃ g, Dict.get? d t = some g

/-- What is true of every call. -/
structure CallGood (U : PyUni) (w : Word) (d : Dictionary) (pc : AddWordPC) : Prop where
  sub : ∀ c ∈ ahead U w pc, c ∈ todo U w (slots w)
  ends : ending U w pc = stopErr U w (slots w)
  past : ∀ c ∈ todo U w (slots w), c ∈ ahead U w pc ∨ Known d c.1
  compare : ∀ t f is, pc = .form t f .compare is → Known d t
  inside : ∀ t f p is, pc = .form t f p is → p = .check ∨ p = .compare ∨ p = .put

theorem CallGood.mono {U : PyUni} {w : Word} {d d' : Dictionary} {pc : AddWordPC} (h : CallGood U w d pc) (hd : ∀ t, Known d t → Known d' t) :
    CallGood U w d' pc :=
  ⟨h.sub, h.ends, fun c hc => (h.past c hc).imp id (hd c.1), fun t f is e => hd t (h.compare t f is e), h.inside⟩

/-- What one step does to the dictionary. -/
theorem addWordStep_dict (U : PyUni) (w : Word) (d : Dictionary) (pc : AddWordPC) :
    (addWordStep U w d pc).2 = d ∨ ∃ t f is, pc = .form t f .put is ∧ (addWordStep U w d pc).2 = Dict.set d t f := by
  cases pc with
  | next is =>
    cases is with
    | nil => exact .inl rfl
    | cons i is =>
      left; simp only [addWordStep]
      cases w.nthForm i with
      | error e => rfl
      | ok f => cases h : f.form U <;> simp only [h]
  | done => exact .inl rfl
  | failed e => exact .inl rfl
  | form t f p is =>
    cases p with
    | put => right; exact ⟨t, f, is, rfl, rfl⟩
    | check => left; simp only [addWordStep, regStep]; split <;> rename_i h <;> grind
    | compare => left; simp only [addWordStep, regStep]; split <;> rename_i h <;> grind
    | done => left; rfl
    | failed e => left; rfl

theorem addWordStep_known (U : PyUni) (w : Word) (d : Dictionary) (pc : AddWordPC) (t : Str) (h : Known d t) :
    Known (addWordStep U w d pc).2 t := by
  rcases addWordStep_dict U w d pc with e | ⟨t', f, is, -, e⟩ <;> rw [e]
  · exact h
  · obtain ⟨g, hg⟩ := h
    unfold Known
    rw [Dict.get?_set]; split <;> simp [hg]

/-- A step of the call itself. -/
theorem addWordStep_call {U : PyUni} {w : Word} {d : Dictionary} {pc : AddWordPC} (h : CallGood U w d pc) :
    CallGood U w (addWordStep U w d pc).2 (addWordStep U w d pc).1 ∧
    finish U w (addWordStep U w d pc).2 (addWordStep U w d pc).1 = finish U w d pc := by
  obtain ⟨h1, h2, h3, h4, h5⟩ := h
  cases pc with
  | next is =>
    cases is with
    | nil => exact ⟨⟨h1, h2, h3, by simp [addWordStep], by simp [addWordStep]⟩, rfl⟩
    | cons i is =>
      simp only [addWordStep]
      simp only [ahead, ending, todo, stopErr] at h1 h2 h3
      cases hi : w.nthForm i with
      | error e =>
        simp only [hi] at h1 h2 h3
        exact ⟨⟨h1, h2, h3, by simp, by grind⟩, by simp [finish, todo, hi, registerAll]⟩
      | ok f =>
        simp only [hi] at h1 h2 h3
        cases hf : f.form U with
        | error e =>
          simp only [hf] at h1 h2 h3
          simp only [hf]
          exact ⟨⟨h1, h2, h3, by simp, by grind⟩, by simp [finish, todo, hi, hf, registerAll]⟩
        | ok text =>
          simp only [hf] at h1 h2 h3
          simp only [hf]
          exact ⟨⟨h1, h2, h3, by simp, by grind⟩, by simp [finish, todo, hi, hf, registerAll]⟩
  | done => exact ⟨⟨h1, h2, h3, h4, h5⟩, rfl⟩
  | failed e => exact ⟨⟨h1, h2, h3, h4, h5⟩, rfl⟩
  | form t f p is =>
    simp only [ahead, ending] at h1 h2 h3
    rcases h5 t f p is rfl with rfl | rfl | rfl
    · -- check
      simp only [addWordStep, regStep]
      by_cases hc : Dict.contains d t = true
      · simp only [hc, if_true]
        exact ⟨⟨h1, h2, h3, by rintro _ _ _ ⟨⟩; exact contains_iff_get?.mp hc, by grind⟩, rfl⟩
      · simp only [hc]
        refine ⟨⟨h1, h2, h3, by simp, by grind⟩, ?_⟩
        have hn : Dict.get? d t = none := by
          rcases Option.eq_none_or_eq_some (Dict.get? d t) with h | ⟨g, h⟩
          · exact h
          · exact absurd (contains_iff_get?.mpr ⟨g, h⟩) hc
        simp [finish, Dictionary.register, hn]
    · -- compare
      obtain ⟨g, hg⟩ := h4 t f is rfl
      simp only [addWordStep, regStep, hg]
      by_cases hr : replaces f g = true
      · simp only [hr, if_true]
        exact ⟨⟨h1, h2, h3, by simp, by grind⟩, by simp [finish, Dictionary.register, hg, hr]⟩
      · simp only [hr]
        refine ⟨⟨fun c hc => h1 c (List.mem_cons_of_mem _ hc), h2, ?_, by simp, by grind⟩, by simp [finish, Dictionary.register, hg, hr]⟩
        intro c hc
        rcases h3 c hc with h | h
        · rcases List.mem_cons.mp h with rfl | h
          · exact .inr ⟨g, hg⟩
          · exact .inl h
        · exact .inr h
    · -- put
      simp only [addWordStep, regStep]
      refine ⟨⟨fun c hc => h1 c (List.mem_cons_of_mem _ hc), h2, ?_, by simp, by grind⟩, rfl⟩
      intro c hc
      rcases h3 c hc with h | ⟨g, hg⟩
      · rcases List.mem_cons.mp h with rfl | h
        · right; exact ⟨f, by rw [Dict.get?_set, if_pos rfl]⟩
        · exact .inl h
      · right; unfold Known; rw [Dict.get?_set]; split <;> simp [hg]

/-- What is true of every state. -/
structure WordThreads.Good (U : PyUni) (d : Dictionary) (s : WordThreads) : Prop where
  kept : ∀ t, Known d t → Known s.dictionary t
  call : ∀ (i : Nat) w pc, s.threads[i]? = some (w, pc) → CallGood U w s.dictionary pc
  source : ∀ t f, Dict.get? s.dictionary t = some f → Dict.get? d t = some f ∨ ∃ c ∈ s.threads, (t, f) ∈ todo U c.1 (slots c.1)

theorem WordThreads.step_good {U : PyUni} {d : Dictionary} {s : WordThreads} (h : s.Good U d) (e : AddWordEvent) : (s.step U e).Good U d := by
  obtain ⟨h1, h2, h3⟩ := h
  cases e with
  | start w =>
    refine ⟨h1, ?_, ?_⟩
    · intro i w' pc hi
      simp only [WordThreads.step] at hi ⊢
      rw [List.getElem?_append] at hi
      split at hi
      · exact h2 i w' pc hi
      · rename_i hl
        have : i - s.threads.length = 0 := by
          rcases Nat.eq_zero_or_pos (i - s.threads.length) with h | h
          · exact h
          · rw [List.getElem?_eq_none (by simp; omega)] at hi; cases hi
        rw [this] at hi
        simp only [List.getElem?_cons_zero, Option.some.injEq, Prod.mk.injEq] at hi
        obtain ⟨rfl, rfl⟩ := hi
        exact ⟨fun c hc => hc, rfl, fun c hc => .inl hc, by simp, by simp⟩
    · intro t f hf
      rcases h3 t f hf with h | ⟨c, hc, h⟩
      · exact .inl h
      · exact .inr ⟨c, by simp [WordThreads.step, hc], h⟩
  | run i =>
    simp only [WordThreads.step]
    cases hi : s.threads[i]? with
    | none => exact ⟨h1, h2, h3⟩
    | some c =>
      obtain ⟨w, pc⟩ := c
      have hc := h2 i w pc hi
      have hk := addWordStep_known U w s.dictionary pc
      have hown := (addWordStep_call hc).1
      refine ⟨fun t ht => hk t (h1 t ht), ?_, ?_⟩
      · intro j w' pc' hj
        dsimp only at hj ⊢
        rw [List.getElem?_set] at hj
        split at hj
        · split at hj
          · simp only [Option.some.injEq, Prod.mk.injEq] at hj
            obtain ⟨rfl, rfl⟩ := hj
            exact hown
          · cases hj
        · exact (h2 j w' pc' hj).mono hk
      · intro t f hf
        dsimp only at hf ⊢
        have hnew : (w, (addWordStep U w s.dictionary pc).1) ∈ s.threads.set i (w, (addWordStep U w s.dictionary pc).1) := new_mem_set hi
        have hold : ∀ c ∈ s.threads, ∃ c' ∈ s.threads.set i (w, (addWordStep U w s.dictionary pc).1), c'.1 = c.1 := by
          intro c hcm
          rcases mem_or_old (x := (w, (addWordStep U w s.dictionary pc).1)) hi hcm with h | rfl
          · exact ⟨c, h, rfl⟩
          · exact ⟨_, hnew, rfl⟩
        have back : Dict.get? s.dictionary t = some f → Dict.get? d t = some f ∨
            ∃ c ∈ s.threads.set i (w, (addWordStep U w s.dictionary pc).1), (t, f) ∈ todo U c.1 (slots c.1) := by
          intro hf
          rcases h3 t f hf with h | ⟨c, hcm, h⟩
          · exact .inl h
          · obtain ⟨c', hc', e⟩ := hold c hcm
            exact .inr ⟨c', hc', by rw [e]; exact h⟩
        rcases addWordStep_dict U w s.dictionary pc with e | ⟨t', f', is, rfl, e⟩ <;> rw [e] at hf
        · exact back hf
        · rw [Dict.get?_set] at hf
          split at hf
          · rename_i ht
            simp only [Option.some.injEq] at hf
            subst ht; subst hf
            exact .inr ⟨_, hnew, hc.sub _ (by simp [ahead])⟩
          · exact back hf

theorem wordsAdded_snoc (U : PyUni) (d : Dictionary) (es : List AddWordEvent) (e : AddWordEvent) :
    wordsAdded U d (es ++ [e]) = (wordsAdded U d es).step U e := by simp [wordsAdded, List.foldl_append]

theorem wordsAdded_good (U : PyUni) (d : Dictionary) (events : List AddWordEvent) : (wordsAdded U d events).Good U d := by
  induction events using List.reverseRecOn with
  | nil => exact ⟨fun t h => h, by simp [wordsAdded], fun t f h => .inl h⟩
  | append_singleton es e ih => rw [wordsAdded_snoc]; exact WordThreads.step_good ih e

theorem wordsAdded_words (U : PyUni) (d : Dictionary) (events : List AddWordEvent) :
    (wordsAdded U d events).threads.map (·.1) = started events := by
  induction events using List.reverseRecOn with
  | nil => rfl
  | append_singleton es e ih =>
    rw [wordsAdded_snoc]
    cases e with
    | start w => simp [WordThreads.step, started, ih] at *
    | run i =>
      have hs : started (es ++ [AddWordEvent.run i]) = started es := by simp [started]
      rw [hs]
      simp only [WordThreads.step]
      cases hi : (wordsAdded U d es).threads[i]? with
      | none => exact ih
      | some c =>
        obtain ⟨w, pc⟩ := c
        rw [← ih]
        dsimp only
        rw [List.map_set]
        apply List.ext_getElem?
        intro j
        rw [List.getElem?_set]
        split
        · rename_i hij; subst hij
          simp [hi]
          exact (List.getElem?_eq_some_iff.mp hi).1
        · rfl

theorem started_get {U : PyUni} {d : Dictionary} {events : List AddWordEvent} {i : Nat} {w : Word} {pc : AddWordPC}
    (h : (wordsAdded U d events).threads[i]? = some (w, pc)) : (started events)[i]? = some w := by
  rw [← wordsAdded_words U d events, List.getElem?_map, h]; rfl

theorem outcome_ahead {U : PyUni} {w : Word} {pc : AddWordPC} {r : Option PyErr} (h : outcome pc = some r) :
    ahead U w pc = [] ∧ ending U w pc = r ∧ ∀ d, finish U w d pc = d := by
  cases pc <;> simp_all [outcome, ahead, ending, finish]

theorem getWord_eq_get? {d d' : Dictionary} {t : Str} : Dictionary.getWord d t = Dictionary.getWord d' t ↔ Dict.get? d t = Dict.get? d' t := by
  unfold Dictionary.getWord
  rcases Option.eq_none_or_eq_some (Dict.get? d t) with h | ⟨g, h⟩ <;>
    rcases Option.eq_none_or_eq_some (Dict.get? d' t) with h' | ⟨g', h'⟩ <;> simp [h, h']

theorem mem_started {events : List AddWordEvent} {U : PyUni} {d : Dictionary} {i : Nat} {w : Word} {pc : AddWordPC}
    (h : (wordsAdded U d events).threads[i]? = some (w, pc)) : w ∈ started events := List.mem_of_getElem? (started_get h)

/-- C116: in every schedule a call of `add_word` ends as it would alone: it returns or raises the same exception, for the same words and
whatever the dictionary. -/
theorem C116_outcome (U : PyUni) (d d' : Dictionary) (events : List AddWordEvent) (i : Nat) (w : Word) (pc : AddWordPC)
    (h : (wordsAdded U d events).threads[i]? = some (w, pc)) (r : Option PyErr) (ho : outcome pc = some r) :
    r = (d'.addWord U w).2 := by
  have hg := (wordsAdded_good U d events).call i w pc h
  rw [addWord_todo, ← hg.ends]
  exact (outcome_ahead ho).2.1.symm

/-- C116: in every schedule, once a call is finished, all texts under which it registers forms are known, and so are those known in the
beginning. -/
theorem C116_known (U : PyUni) (d : Dictionary) (events : List AddWordEvent) (t : Str)
    (h : Dictionary.hasWord d t = true ∨ ∃ (i : Nat) (w : Word) (pc : AddWordPC) (r : Option PyErr), (wordsAdded U d events).threads[i]? = some (w, pc) ∧ outcome pc = some r ∧
      Accepted w ∧ ∃ f, (t, f) ∈ offered U w) :
    Dictionary.hasWord (wordsAdded U d events).dictionary t = true := by
  have hg := wordsAdded_good U d events
  apply contains_iff_get?.mpr
  rcases h with h | ⟨i, w, pc, r, hi, ho, hw, f, hf⟩
  · exact hg.kept t (contains_iff_get?.mp h)
  · rw [offered_todo hw] at hf
    rcases (hg.call i w pc hi).past _ hf with h | h
    · rw [(outcome_ahead ho).1] at h; cases h
    · exact h

/-- C116: in every schedule the word form found for a text was there in the beginning, or belongs to a word given to `add_word` and is
spelled so. -/
theorem C116_source (U : PyUni) (d : Dictionary) (events : List AddWordEvent) (hw : ∀ w ∈ started events, Accepted w) (t : Str) (f : WordForm)
    (h : Dictionary.getWord (wordsAdded U d events).dictionary t = .ok f) :
    Dictionary.getWord d t = .ok f ∨ ∃ w ∈ started events, (t, f) ∈ offered U w := by
  have hd : Dict.get? (wordsAdded U d events).dictionary t = some f := by
    unfold Dictionary.getWord at h
    split at h
    · cases h
    · rename_i g hg; rw [hg]; exact congrArg some (Except.ok.inj h)
  rcases (wordsAdded_good U d events).source t f hd with h | ⟨c, hc, h⟩
  · left; simp only [Dictionary.getWord, h]
  · right
    have hm : c.1 ∈ started events := by rw [← wordsAdded_words U d events]; exact List.mem_map_of_mem hc
    exact ⟨c.1, hm, by rw [offered_todo (hw _ hm)]; exact h⟩

theorem registerAll_congr (t : Str) (cs : List (Str × WordForm)) : ∀ (d d' : Dictionary), Dict.get? d t = Dict.get? d' t →
    Dict.get? (registerAll d cs) t = Dict.get? (registerAll d' cs) t := by
  induction cs with
  | nil => intro d d' h; exact h
  | cons c cs ih =>
    intro d d' h
    apply ih
    rw [register_get?, register_get?, h]

theorem registerAll_other (t : Str) (cs : List (Str × WordForm)) (hc : ∀ c ∈ cs, c.1 ≠ t) (d : Dictionary) :
    Dict.get? (registerAll d cs) t = Dict.get? d t := by
  induction cs generalizing d with
  | nil => rfl
  | cons c cs ih =>
    show Dict.get? (registerAll (d.register c.1 c.2) cs) t = _
    rw [ih (fun c' h' => hc c' (by simp [h'])), register_get?, if_neg (hc c (by simp))]

theorem finish_congr {U : PyUni} {w : Word} {t : Str} {d d' : Dictionary} (pc : AddWordPC) (h : Dict.get? d t = Dict.get? d' t) :
    Dict.get? (finish U w d pc) t = Dict.get? (finish U w d' pc) t := by
  cases pc with
  | next is => exact registerAll_congr t _ _ _ h
  | done => exact h
  | failed e => exact h
  | form t' f p is =>
    have hr : Dict.get? (d.register t' f) t = Dict.get? (d'.register t' f) t := by
      have := registerAll_congr t [(t', f)] d d' h
      exact this
    cases p <;> simp only [finish] <;> refine registerAll_congr t _ _ _ ?_ <;> try exact hr
    rw [Dict.get?_set, Dict.get?_set, h]

/-- The dictionary at a text that one call at most registers. -/
theorem alone_invariant (U : PyUni) (d : Dictionary) (events : List AddWordEvent) (k : Nat) (t : Str)
    (hothers : ∀ (j : Nat) v, (started events)[j]? = some v → j ≠ k → ∀ c ∈ todo U v (slots v), c.1 ≠ t) :
    match (wordsAdded U d events).threads[k]? with
    | none => Dict.get? (wordsAdded U d events).dictionary t = Dict.get? d t
    | some (w, pc) => Dict.get? (finish U w (wordsAdded U d events).dictionary pc) t = Dict.get? (d.addWord U w).1 t := by
  induction events using List.reverseRecOn with
  | nil => rfl
  | append_singleton es e ih =>
    have ih := ih (fun j v hj => hothers j v (by
      have : started (es ++ [e]) = started es ++ started [e] := by simp [started]
      rw [this, List.getElem?_append_left (List.getElem?_eq_some_iff.mp hj).1]; exact hj))
    rw [wordsAdded_snoc]
    have hgood := wordsAdded_good U d es
    cases e with
    | start w =>
      simp only [WordThreads.step]
      rw [List.getElem?_append]
      by_cases hl : k < (wordsAdded U d es).threads.length
      · rw [if_pos hl]; exact ih
      · rw [if_neg hl]
        rw [List.getElem?_eq_none (by omega)] at ih
        by_cases hk : k - (wordsAdded U d es).threads.length = 0
        · rw [hk]
          show Dict.get? (finish U w _ (.next _)) t = _
          rw [addWord_todo]
          exact registerAll_congr t _ _ _ ih
        · rw [List.getElem?_eq_none (by simp; omega)]; exact ih
    | run i =>
      simp only [WordThreads.step]
      cases hi : (wordsAdded U d es).threads[i]? with
      | none => exact ih
      | some c =>
        obtain ⟨w, pc⟩ := c
        dsimp only
        by_cases hik : i = k
        · subst hik
          rw [hi] at ih
          rw [List.getElem?_set_self (List.getElem?_eq_some_iff.mp hi).1]
          dsimp only at ih ⊢
          rw [(addWordStep_call (hgood.call i w pc hi)).2]
          exact ih
        · have hsame : Dict.get? (addWordStep U w (wordsAdded U d es).dictionary pc).2 t = Dict.get? (wordsAdded U d es).dictionary t := by
            rcases addWordStep_dict U w (wordsAdded U d es).dictionary pc with e | ⟨t', f', is, rfl, e⟩ <;> rw [e]
            rw [Dict.get?_set, if_neg]
            have hst : (started (es ++ [AddWordEvent.run i]))[i]? = some w := by
              have : started (es ++ [AddWordEvent.run i]) = started es := by simp [started]
              rw [this]; exact started_get hi
            exact hothers i w hst hik _ ((hgood.call i w _ hi).sub (t', f') (by simp [ahead]))
          rw [List.getElem?_set_ne hik]
          cases hk : (wordsAdded U d es).threads[k]? with
          | none => rw [hk] at ih; dsimp only at ih ⊢; rw [hsame]; exact ih
          | some c =>
            obtain ⟨w', pc'⟩ := c
            rw [hk] at ih
            dsimp only at ih ⊢
            rw [finish_congr pc' hsame]; exact ih

/-- C116: if a text is registered by one call only, then as soon as this call is finished the text has the word form it would have after
this call alone, whatever the other threads do. -/
theorem C116_alone (U : PyUni) (d : Dictionary) (events : List AddWordEvent) (hw : ∀ w ∈ started events, Accepted w) (k : Nat) (w : Word)
    (pc : AddWordPC) (h : (wordsAdded U d events).threads[k]? = some (w, pc)) (r : Option PyErr) (ho : outcome pc = some r) (t : Str)
    (hothers : ∀ (j : Nat) v, (started events)[j]? = some v → j ≠ k → ∀ c ∈ offered U v, c.1 ≠ t) :
    Dictionary.getWord (wordsAdded U d events).dictionary t = Dictionary.getWord (d.addWord U w).1 t := by
  have := alone_invariant U d events k t (fun j v hj hjk => by
    have := hothers j v hj hjk
    rwa [offered_todo (hw v (List.mem_of_getElem? hj))] at this)
  rw [h] at this
  dsimp only at this
  rw [(outcome_ahead ho).2.2] at this
  exact getWord_eq_get?.mpr this

/-- C116: a text that none of the words has is not affected. -/
theorem C116_untouched (U : PyUni) (d : Dictionary) (events : List AddWordEvent) (hw : ∀ w ∈ started events, Accepted w) (t : Str)
    (hothers : ∀ w ∈ started events, ∀ c ∈ offered U w, c.1 ≠ t) :
    Dictionary.getWord (wordsAdded U d events).dictionary t = Dictionary.getWord d t := by
  have := alone_invariant U d events (wordsAdded U d events).threads.length t (fun j v hj _ => by
    have hv := List.mem_of_getElem? hj
    have := hothers v hv
    rwa [offered_todo (hw v hv)] at this)
  rw [List.getElem?_eq_none (Nat.le_refl _)] at this
  exact getWord_eq_get?.mpr this

theorem addedInOrder_get? (U : PyUni) (d : Dictionary) (ws : List Word) :
    addedInOrder U d ws = registerAll d (ws.flatMap fun w => todo U w (slots w)) := by
  unfold addedInOrder
  induction ws generalizing d with
  | nil => rfl
  | cons w ws ih => rw [List.foldl_cons, ih, addWord_todo, List.flatMap_cons, registerAll_append]

/-- C116: if words without common spellings are added in several threads and all calls are finished, every text is found as if the words
had been added one after the other, in any order. -/
theorem C116_any_order (U : PyUni) (d : Dictionary) (events : List AddWordEvent) (hw : ∀ w ∈ started events, Accepted w)
    (hdone : ∀ c ∈ (wordsAdded U d events).threads, ∃ r, outcome c.2 = some r)
    (hdisjoint : (started events).Pairwise (NoSharedText U)) (order : List Word) (horder : order.Perm (started events)) (t : Str) :
    Dictionary.getWord (wordsAdded U d events).dictionary t = Dictionary.getWord (addedInOrder U d order) t := by
  by_cases hex : ∃ (k : Nat) (w : Word), (started events)[k]? = some w ∧ ∃ f, (t, f) ∈ offered U w
  · obtain ⟨k, w, hk, f, hf⟩ := hex
    have hothers : ∀ (j : Nat) v, (started events)[j]? = some v → j ≠ k → ∀ c ∈ offered U v, c.1 ≠ t := by
      intro j v hj hjk c hc
      obtain ⟨hjl, rfl⟩ := List.getElem?_eq_some_iff.mp hj
      obtain ⟨hkl, rfl⟩ := List.getElem?_eq_some_iff.mp hk
      rcases Nat.lt_or_gt_of_ne hjk with h | h
      · exact List.pairwise_iff_getElem.mp hdisjoint j k hjl hkl h c hc _ hf
      · exact fun e => List.pairwise_iff_getElem.mp hdisjoint k j hkl hjl h _ hf c hc e.symm
    have hth : ∃ pc, (wordsAdded U d events).threads[k]? = some (w, pc) := by
      rw [← wordsAdded_words U d events, List.getElem?_map] at hk
      cases hth : (wordsAdded U d events).threads[k]? with
      | none => rw [hth] at hk; cases hk
      | some c => rw [hth] at hk; simp only [Option.map_some, Option.some.injEq] at hk; exact ⟨c.2, by rw [← hk]⟩
    obtain ⟨pc, hth⟩ := hth
    obtain ⟨r, ho⟩ := hdone _ (List.mem_of_getElem? hth)
    rw [C116_alone U d events hw k w pc hth r ho t hothers]
    -- the position of the word in the order
    obtain ⟨hkl, rfl⟩ := List.getElem?_eq_some_iff.mp hk
    have hperm : order.Perm ((started events)[k] :: (started events).eraseIdx k) := horder.trans (List.getElem_cons_eraseIdx_perm hkl).symm
    obtain ⟨a, b, hab⟩ := List.append_of_mem (hperm.mem_iff.mpr (List.mem_cons_self))
    have hrest : ∀ v ∈ a ++ b, ∀ c ∈ todo U v (slots v), c.1 ≠ t := by
      intro v hv c hc
      have hp : (a ++ b).Perm ((started events).eraseIdx k) := by
        rw [hab] at hperm
        exact (List.perm_middle.symm.trans hperm).cons_inv
      have hv' := hp.mem_iff.mp hv
      obtain ⟨j, hjl, hj⟩ := List.mem_iff_getElem.mp hv'
      rw [List.getElem_eraseIdx] at hj
      have hva : Accepted v := hw v (List.mem_of_mem_eraseIdx hv')
      rw [← offered_todo hva] at hc
      split at hj
      · rename_i hlt
        exact hothers j v (List.getElem?_eq_some_iff.mpr ⟨by omega, hj⟩) (by omega) c hc
      · rename_i hge
        have hle : (List.eraseIdx (started events) k).length + 1 = (started events).length := by
          rw [List.length_eraseIdx]; split <;> omega
        exact hothers (j + 1) v (List.getElem?_eq_some_iff.mpr ⟨by omega, hj⟩) (by omega) c hc
    apply getWord_eq_get?.mpr
    rw [addedInOrder_get?, hab, List.flatMap_append, List.flatMap_cons, registerAll_append, registerAll_append, addWord_todo]
    have hb := registerAll_other t (b.flatMap fun w => todo U w (slots w)) (by
      intro c hc
      obtain ⟨v, hv, hc⟩ := List.mem_flatMap.mp hc
      exact hrest v (by simp [hv]) c hc)
    rw [hb]
    apply registerAll_congr
    exact (registerAll_other t _ (by
      intro c hc
      obtain ⟨v, hv, hc⟩ := List.mem_flatMap.mp hc
      exact hrest v (by simp [hv]) c hc) d).symm
  · have hno : ∀ w ∈ started events, ∀ c ∈ offered U w, c.1 ≠ t := by
      intro w hm c hc e
      obtain ⟨k, hk⟩ := List.mem_iff_getElem?.mp hm
      exact hex ⟨k, w, hk, c.2, by rw [← e]; exact hc⟩
    rw [C116_untouched U d events hw t hno]
    apply getWord_eq_get?.mpr
    rw [addedInOrder_get?, registerAll_other]
    intro c hc
    obtain ⟨v, hv, hc⟩ := List.mem_flatMap.mp hc
    have hv' := horder.mem_iff.mp hv
    rw [← offered_todo (hw v hv')] at hc
    exact hno v hv' c hc

/-- How many steps a call needs at most. -/
def turnsLeft : AddWordPC → Nat
  | .next is => 4 * is.length + 1
  | .form _ _ .check is => 4 * is.length + 4
  | .form _ _ .compare is => 4 * is.length + 3
  | .form _ _ .put is => 4 * is.length + 2
  | .form _ _ _ is => 4 * is.length + 2
  | .done => 0
  | .failed _ => 0

theorem turnsLeft_step (U : PyUni) (w : Word) (d : Dictionary) (pc : AddWordPC) : turnsLeft (addWordStep U w d pc).1 ≤ turnsLeft pc - 1 := by
  cases pc with
  | next is =>
    cases is with
    | nil => simp [addWordStep, turnsLeft]
    | cons i is =>
      simp only [addWordStep]
      cases w.nthForm i with
      | error e => simp [turnsLeft]
      | ok f => cases hf : f.form U <;> simp [hf, turnsLeft]; omega
  | done => simp [addWordStep, turnsLeft]
  | failed e => simp [addWordStep, turnsLeft]
  | form t f p is =>
    cases p with
    | check => simp only [addWordStep, regStep]; cases Dict.contains d t <;> simp [turnsLeft]
    | compare =>
      simp only [addWordStep, regStep]
      rcases Option.eq_none_or_eq_some (Dict.get? d t) with h | ⟨g, h⟩ <;> simp only [h]
      · simp [turnsLeft]
      · cases replaces f g <;> simp [turnsLeft]
    | put => simp [addWordStep, regStep, turnsLeft]
    | done => simp [addWordStep, regStep, turnsLeft]
    | failed e => simp [addWordStep, regStep, turnsLeft]

/-- C116: a call is finished after four steps for each form and one more, in every schedule. -/
theorem C116_finishes (U : PyUni) (d : Dictionary) (before later : List AddWordEvent) (w : Word)
    (hsteps : 4 * w.forms.length + 1 ≤ stepsBy (started before).length later) :
    ∃ pc r, (wordsAdded U d (before ++ .start w :: later)).threads[(started before).length]? = some (w, pc) ∧ outcome pc = some r := by
  have key : ∀ later : List AddWordEvent, ∃ pc, (wordsAdded U d (before ++ .start w :: later)).threads[(started before).length]? = some (w, pc) ∧
      turnsLeft pc ≤ 4 * w.forms.length + 1 - stepsBy (started before).length later := by
    intro later
    induction later using List.reverseRecOn with
    | nil =>
      refine ⟨.next (List.range w.forms.length), ?_, by simp [turnsLeft, stepsBy]⟩
      rw [wordsAdded_snoc]
      have hl : (started before).length = (wordsAdded U d before).threads.length := by rw [← wordsAdded_words U d before, List.length_map]
      simp [WordThreads.step, hl]
    | append_singleton es e ih =>
      obtain ⟨pc, hpc, ht⟩ := ih
      have he : before ++ AddWordEvent.start w :: (es ++ [e]) = (before ++ .start w :: es) ++ [e] := by simp
      rw [he, wordsAdded_snoc]
      generalize wordsAdded U d (before ++ .start w :: es) = s at *
      cases e with
      | start w' =>
        refine ⟨pc, ?_, by simpa [stepsBy] using ht⟩
        simp only [WordThreads.step]
        rw [List.getElem?_append_left (List.getElem?_eq_some_iff.mp hpc).1]; exact hpc
      | run i =>
        by_cases hi : i = (started before).length
        · subst hi
          refine ⟨(addWordStep U w s.dictionary pc).1, ?_, ?_⟩
          · simp only [WordThreads.step, hpc]
            rw [List.getElem?_set_self (List.getElem?_eq_some_iff.mp hpc).1]
          · have := turnsLeft_step U w s.dictionary pc
            have hs : stepsBy (started before).length (es ++ [AddWordEvent.run (started before).length]) = stepsBy (started before).length es + 1 := by
              simp [stepsBy]
            omega
        · refine ⟨pc, ?_, ?_⟩
          · simp only [WordThreads.step]
            cases hs : s.threads[i]? with
            | none => exact hpc
            | some c => dsimp only; rw [List.getElem?_set_ne hi]; exact hpc
          · have hs : stepsBy (started before).length (es ++ [AddWordEvent.run i]) = stepsBy (started before).length es := by
              simp [stepsBy, hi]
            omega
  obtain ⟨pc, hpc, ht⟩ := key later
  have h0 : turnsLeft pc = 0 := by omega
  have : ∃ r, outcome pc = some r := by
    cases pc with
    | next is => simp [turnsLeft] at h0
    | form t f p is => cases p <;> simp [turnsLeft] at h0
    | done => exact ⟨none, rfl⟩
    | failed e => exact ⟨some e, rfl⟩
  obtain ⟨r, hr⟩ := this
  exact ⟨pc, r, hpc, hr⟩

/-- Two words spelled "в". -/
def exShares : List Word := [exPrep, exText (str! "в")]

/-- Both calls look for "в" before one of them registers it; the last to do so wins. -/
def exRace (first second : Nat) : List AddWordEvent :=
  exShares.map .start ++ ([0, 1, 0, 1].map .run ++ ((List.replicate 13 first ++ List.replicate 13 second).map .run))

/-- C116: if words have a spelling in common, the result can differ from adding them in either order. -/
theorem C116_violated : ∃ (U : PyUni) (d : Dictionary) (events : List AddWordEvent) (t : Str),
    (∀ w ∈ started events, Accepted w) ∧ (∀ c ∈ (wordsAdded U d events).threads, ∃ r, outcome c.2 = some r) ∧
    ∀ order : List Word, order.Perm (started events) →
      Dictionary.getWord (wordsAdded U d events).dictionary t ≠ Dictionary.getWord (addedInOrder U d order) t := by
  refine ⟨exUni, [], exRace 1 0, str! "в", ?_, ?_, ?_⟩
  · have : started (exRace 1 0) = exShares := by decide +kernel
    rw [this]; intro w hw
    simp only [exShares, List.mem_cons, List.not_mem_nil, or_false] at hw
    rcases hw with rfl | rfl
    · exact exPrep_accepted
    · exact exText_accepted _ _ wf_empty
  · have : (wordsAdded exUni [] (exRace 1 0)).threads = exShares.map fun w => (w, .done) := by decide +kernel
    rw [this]; intro c hc
    obtain ⟨w, -, rfl⟩ := List.mem_map.mp hc
    exact ⟨none, rfl⟩
  · have : started (exRace 1 0) = exShares := by decide +kernel
    rw [this]
    intro order ho
    have : order ∈ exShares.permutations' := List.mem_permutations'.mpr ho
    have hall : ∀ order ∈ exShares.permutations', (Dictionary.getWord (wordsAdded exUni [] (exRace 1 0)).dictionary (str! "в")).toOption ≠
        (Dictionary.getWord (addedInOrder exUni [] order) (str! "в")).toOption := by decide +kernel
    exact fun e => hall order this (congrArg _ e)

/-- Two words without a common spelling, added in two threads that take turns: both calls finish, so `C116_any_order` applies. -/
example : let events := [exPrep, exText (str! "дом")].map AddWordEvent.start ++ ((List.range 13).flatMap fun _ => [.run 0, .run 1])
    started events = [exPrep, exText (str! "дом")] ∧ (started events).Pairwise (NoSharedText exUni) ∧
    (wordsAdded exUni [] events).threads.map (·.2) = [.done, .done] ∧
    Dictionary.hasWord (wordsAdded exUni [] events).dictionary (str! "дом") = true ∧
    stepsBy 0 (events.drop 1) = 4 * exPrep.forms.length + 1 := by
  refine ⟨by decide +kernel, ?_, by decide +kernel, by decide +kernel, by decide +kernel⟩
  show List.Pairwise (NoSharedText exUni) [exPrep, exText (str! "дом")]
  have hd : ∀ c ∈ offered exUni exPrep, ∀ c' ∈ offered exUni (exText (str! "дом")), c.1 ≠ c'.1 := by decide +kernel
  simp only [List.pairwise_cons, List.mem_cons, List.not_mem_nil, or_false, forall_eq, IsEmpty.forall_iff, implies_true, List.Pairwise.nil, and_true]
  exact hd

/-- An `add_word` that raises: the last form is empty and asked for in upper case, so the first two are registered. -/
example : let w : Word := ⟨.PREPOSITION, [str! "в", str! "во", []], .new [.record .WORD_CASE_UPPER]⟩
    (wordsAdded exUni [] (.start w :: List.replicate 13 (.run 0))).threads.map (fun c => outcome c.2) = [some (some .IndexError)] := by
  decide +kernel

end Utg
