import Verif.Spec.Threads
import Verif.Proofs.Dictionary
import Verif.Props.Threads
/-!
# C99: `Dictionary.add_word` under threads
-/

namespace Utg
open Py Spec

/-- What is true of every state. -/
structure DictThreads.Good (d : Dictionary) (s : DictThreads) : Prop where
  kept : ∀ t f, Dict.get? d t = some f → ∃ g, Dict.get? s.dictionary t = some g
  known : ∀ t f pc, ((t, f), pc) ∈ s.threads → pc = .compare ∨ pc = .done → ∃ g, Dict.get? s.dictionary t = some g
  ok : ∀ c e, (c, RegPC.failed e) ∉ s.threads
  source : ∀ t f, Dict.get? s.dictionary t = some f → Dict.get? d t = some f ∨ ∃ pc, ((t, f), pc) ∈ s.threads

theorem mem_set_iff_or {α : Type} {l : List α} {i : Nat} {x y : α} (h : y ∈ l.set i x) : y ∈ l ∨ y = x := List.mem_or_eq_of_mem_set h

theorem mem_or_old {α : Type} {l : List α} {i : Nat} {x y z : α} (hi : l[i]? = some z) (h : y ∈ l) : y ∈ l.set i x ∨ y = z := by
  obtain ⟨j, hj⟩ := List.mem_iff_getElem?.mp h
  by_cases hij : i = j
  · subst hij; rw [hi] at hj; right; exact (Option.some.inj hj).symm
  · left; exact List.mem_iff_getElem?.mpr ⟨j, by rw [List.getElem?_set_ne hij, hj]⟩

theorem new_mem_set {α : Type} {l : List α} {i : Nat} {x z : α} (hi : l[i]? = some z) : x ∈ l.set i x := by
  obtain ⟨hl, -⟩ := List.getElem?_eq_some_iff.mp hi
  exact List.mem_set hl x

theorem DictThreads.step_good {d : Dictionary} {s : DictThreads} (h : s.Good d) (e : DictEvent) : (s.step e).Good d := by
  obtain ⟨h1, h2, h3, h4⟩ := h
  cases e with
  | register t f =>
    simp only [DictThreads.step]
    refine ⟨h1, ?_, ?_, ?_⟩
    · intro t' f' pc hm hp
      simp only [List.mem_append, List.mem_singleton, Prod.mk.injEq] at hm
      rcases hm with hm | ⟨-, rfl⟩
      · exact h2 t' f' pc hm hp
      · simp at hp
    · intro c e' hm
      simp only [List.mem_append, List.mem_singleton, Prod.mk.injEq] at hm
      rcases hm with hm | ⟨-, hm⟩
      · exact h3 c e' hm
      · cases hm
    · intro t' f' hg
      rcases h4 t' f' hg with h | ⟨pc, hm⟩
      · exact .inl h
      · exact .inr ⟨pc, List.mem_append_left _ hm⟩
  | run i =>
    simp only [DictThreads.step]
    cases hi : s.threads[i]? with
    | none => exact ⟨h1, h2, h3, h4⟩
    | some c =>
      obtain ⟨⟨t, f⟩, pc⟩ := c
      have hm := List.mem_of_getElem? hi
      have hset := fun t' => Dict.get?_set s.dictionary t t' f
      have hold := fun y => mem_or_old (x := ((t, f), (regStep s.dictionary t f pc).1)) (y := y) hi
      have hnew := new_mem_set (x := ((t, f), (regStep s.dictionary t f pc).1)) hi
      dsimp only
      have hsrc : ∀ t' g pc', ((t', g), pc') ∈ s.threads → ∃ pc'', ((t', g), pc'') ∈ s.threads.set i ((t, f), (regStep s.dictionary t f pc).1) := by
        intro t' g pc' hg
        rcases hold _ hg with h | h
        · exact ⟨_, h⟩
        · simp only [Prod.mk.injEq] at h
          obtain ⟨⟨rfl, rfl⟩, -⟩ := h
          exact ⟨_, hnew⟩
      have hcont := @contains_iff_get? Str WordForm _ s.dictionary t
      have hd : (regStep s.dictionary t f pc).2 = s.dictionary ∨ (pc = .put ∧ (regStep s.dictionary t f pc).2 = Dict.set s.dictionary t f) := by
        cases pc <;> simp only [regStep] <;> grind
      have hgrow : ∀ t' g, Dict.get? s.dictionary t' = some g → ∃ g', Dict.get? (regStep s.dictionary t f pc).2 t' = some g' := by
        intro t' g hg
        rcases hd with hd | ⟨-, hd⟩ <;> rw [hd]
        · exact ⟨g, hg⟩
        · rw [hset]; split <;> simp [hg]
      refine ⟨?_, ?_, ?_, ?_⟩
      · intro t' f' hf'
        obtain ⟨g, hg⟩ := h1 t' f' hf'
        exact hgrow t' g hg
      · intro t' f' pc' hm' hp
        rcases mem_set_iff_or hm' with hm' | hm'
        · obtain ⟨g, hg⟩ := h2 t' f' pc' hm' hp
          exact hgrow t' g hg
        · simp only [Prod.mk.injEq] at hm'
          obtain ⟨⟨rfl, rfl⟩, rfl⟩ := hm'
          cases pc with
          | check =>
            simp only [regStep] at hp ⊢
            split at hp
            · rename_i hc; rw [if_pos hc]; exact hcont.mp hc
            · simp at hp
          | put => exact ⟨f', by simp only [regStep]; rw [hset, if_pos rfl]⟩
          | compare => obtain ⟨g, hg⟩ := h2 _ _ _ hm (.inl rfl); exact hgrow _ g hg
          | done => obtain ⟨g, hg⟩ := h2 _ _ _ hm (.inr rfl); exact hgrow _ g hg
          | failed e => simp [regStep] at hp
      · intro c e' hm'
        rcases mem_set_iff_or hm' with hm' | hm'
        · exact h3 c e' hm'
        · simp only [Prod.mk.injEq] at hm'
          obtain ⟨-, hm'⟩ := hm'
          cases pc with
          | check => simp only [regStep] at hm'; split at hm' <;> cases hm'
          | put => cases hm'
          | compare =>
            obtain ⟨g, hg⟩ := h2 _ _ _ hm (.inl rfl)
            simp only [regStep, hg] at hm'; split at hm' <;> cases hm'
          | done => cases hm'
          | failed e => exact h3 _ _ hm
      · intro t' g hg
        rcases hd with hd | ⟨rfl, hd⟩ <;> rw [hd] at hg
        · rcases h4 t' g hg with h | ⟨pc', hm'⟩
          · exact .inl h
          · exact .inr (hsrc _ _ _ hm')
        · rw [hset] at hg
          split at hg
          · rename_i ht
            have := Option.some.inj hg; subst this; subst ht
            exact .inr ⟨_, hnew⟩
          · rcases h4 t' g hg with h | ⟨pc', hm'⟩
            · exact .inl h
            · exact .inr (hsrc _ _ _ hm')

theorem dictionaryAfter_good (d : Dictionary) (events : List DictEvent) : (dictionaryAfter d events).Good d := by
  have h0 : (⟨d, []⟩ : DictThreads).Good d := ⟨fun t f h => ⟨f, h⟩, by simp, by simp, fun t f h => .inl h⟩
  have : ∀ (es : List DictEvent) (s : DictThreads), s.Good d → (es.foldl DictThreads.step s).Good d := by
    intro es
    induction es with
    | nil => intro s h; exact h
    | cons e es ih => intro s h; exact ih _ (DictThreads.step_good h e)
  exact this events _ h0

/-- C99: in no schedule does registering a word form fail because of other threads. -/
theorem C99_no_errors (d : Dictionary) (events : List DictEvent) (c : Str × WordForm) (e : PyErr) :
    (c, RegPC.failed e) ∉ (dictionaryAfter d events).threads := (dictionaryAfter_good d events).ok c e

/-- C99: in every schedule a text is known once it was known before or a registration under it is finished. -/
theorem C99_known (d : Dictionary) (events : List DictEvent) (t : Str)
    (h : Dictionary.hasWord d t = true ∨ finished (dictionaryAfter d events) t ≠ []) :
    Dictionary.hasWord (dictionaryAfter d events).dictionary t = true := by
  have hg := dictionaryAfter_good d events
  have key : ∃ g, Dict.get? (dictionaryAfter d events).dictionary t = some g := by
    rcases h with h | h
    · obtain ⟨f, hf⟩ := contains_iff_get?.mp h
      exact hg.kept t f hf
    · obtain ⟨f, hf⟩ := List.exists_mem_of_ne_nil _ h
      simp only [finished, List.mem_filterMap] at hf
      obtain ⟨⟨⟨t', f'⟩, pc⟩, hm, hf⟩ := hf
      split at hf
      · rename_i hc
        obtain ⟨rfl, rfl⟩ := hc
        exact hg.known _ _ _ hm (.inr rfl)
      · cases hf
  exact contains_iff_get?.mpr key

theorem step_origin {events : List DictEvent} {s : DictThreads} (h : ∀ t f pc, ((t, f), pc) ∈ s.threads → DictEvent.register t f ∈ events)
    (e : DictEvent) (he : e ∈ events) (t : Str) (f : WordForm) (pc : RegPC) (hm : ((t, f), pc) ∈ (s.step e).threads) :
    DictEvent.register t f ∈ events := by
  cases e with
  | register t' f' =>
    simp only [DictThreads.step, List.mem_append, List.mem_singleton, Prod.mk.injEq] at hm
    rcases hm with hm | ⟨⟨rfl, rfl⟩, -⟩
    · exact h t f pc hm
    · exact he
  | run i =>
    simp only [DictThreads.step] at hm
    cases hi : s.threads[i]? with
    | none => rw [hi] at hm; exact h t f pc hm
    | some c =>
      rw [hi] at hm
      rcases mem_set_iff_or hm with hm | hm
      · exact h t f pc hm
      · have hc := List.mem_of_getElem? hi
        obtain ⟨⟨t', f'⟩, pc'⟩ := c
        simp only [Prod.mk.injEq] at hm
        obtain ⟨⟨rfl, rfl⟩, -⟩ := hm
        exact h _ _ _ hc

theorem after_origin (d : Dictionary) (events : List DictEvent) (t : Str) (f : WordForm) (pc : RegPC)
    (hm : ((t, f), pc) ∈ (dictionaryAfter d events).threads) : DictEvent.register t f ∈ events := by
  have : ∀ (es : List DictEvent) (s : DictThreads), (∀ e ∈ es, e ∈ events) →
      (∀ t f pc, ((t, f), pc) ∈ s.threads → DictEvent.register t f ∈ events) →
      ∀ t f pc, ((t, f), pc) ∈ (es.foldl DictThreads.step s).threads → DictEvent.register t f ∈ events := by
    intro es
    induction es with
    | nil => intro s _ h; exact h
    | cons e es ih =>
      intro s he h
      exact ih _ (fun e' h' => he e' (by simp [h'])) (step_origin h e (he e (by simp)))
  exact this events ⟨d, []⟩ (fun _ h => h) (by simp) t f pc hm

/-- C99: in every schedule the word form found for a text is the one that was there before or one that is being registered under this
text. -/
theorem C99_source (d : Dictionary) (events : List DictEvent) (t : Str) (f : WordForm)
    (h : Dictionary.getWord (dictionaryAfter d events).dictionary t = .ok f) :
    Dictionary.getWord d t = .ok f ∨ DictEvent.register t f ∈ events := by
  have hd : Dict.get? (dictionaryAfter d events).dictionary t = some f := by
    unfold Dictionary.getWord at h
    split at h
    · cases h
    · rename_i g hg; rw [hg]; exact congrArg some (Except.ok.inj h)
  rcases (dictionaryAfter_good d events).source t f hd with h | ⟨pc, hm⟩
  · left; simp only [Dictionary.getWord, h]
  · exact .inr (after_origin d events t f pc hm)

/-- The registrations under one text, if they do not overlap. -/
structure DictThreads.Best (d : Dictionary) (t : Str) (s : DictThreads) : Prop where
  good : s.Good d
  wfd : ∀ f, Dict.get? s.dictionary t = some f → WFProps f.properties
  wft : ∀ f pc, ((t, f), pc) ∈ s.threads → WFProps f.properties
  best : ∀ f, Dict.get? s.dictionary t = some f → (∀ g, ((t, g), RegPC.done) ∈ s.threads → ¬ Better g f) ∧
    ∀ f0, Dict.get? d t = some f0 → ¬ Better f0 f
  put : ∀ g, ((t, g), RegPC.put) ∈ s.threads → ∀ f, Dict.get? s.dictionary t = some f → Better g f

theorem DictThreads.step_best {d : Dictionary} {t : Str} {s : DictThreads} (h : s.Best d t) (e : DictEvent)
    (he : ∀ f, e = .register t f → WFProps f.properties)
    (hone : ∀ (i j : Nat) (f g : WordForm), s.threads[i]? = some ((t, f), .put) → s.threads[j]? = some ((t, g), .put) → i = j) :
    (s.step e).Best d t := by
  have hg' := DictThreads.step_good h.good e
  obtain ⟨h0, h1, h2, h3, h4⟩ := h
  cases e with
  | register t' f' =>
    refine ⟨hg', h1, ?_, ?_, ?_⟩
    · intro f pc hm
      simp only [DictThreads.step, List.mem_append, List.mem_singleton, Prod.mk.injEq] at hm
      rcases hm with hm | ⟨⟨rfl, rfl⟩, -⟩
      · exact h2 f pc hm
      · exact he f rfl
    · intro f hf
      refine ⟨fun g hm => ?_, (h3 f hf).2⟩
      simp only [DictThreads.step, List.mem_append, List.mem_singleton, Prod.mk.injEq] at hm
      rcases hm with hm | ⟨-, hm⟩
      · exact (h3 f hf).1 g hm
      · cases hm
    · intro g hm
      simp only [DictThreads.step, List.mem_append, List.mem_singleton, Prod.mk.injEq] at hm
      rcases hm with hm | ⟨-, hm⟩
      · exact h4 g hm
      · cases hm
  | run i =>
    simp only [DictThreads.step] at hg' ⊢
    cases hi : s.threads[i]? with
    | none => exact ⟨h0, h1, h2, h3, h4⟩
    | some c =>
      obtain ⟨⟨t', f⟩, pc⟩ := c
      have hm := List.mem_of_getElem? hi
      rw [hi] at hg'
      dsimp only at hg' ⊢
      have hset := fun t'' => Dict.get?_set s.dictionary t' t'' f
      have hcont := @contains_iff_get? Str WordForm _ s.dictionary t'
      have hwt : ∀ g pc', ((t, g), pc') ∈ s.threads.set i ((t', f), (regStep s.dictionary t' f pc).1) → WFProps g.properties := by
        intro g pc' hg
        rcases mem_set_iff_or hg with hg | hg
        · exact h2 g pc' hg
        · simp only [Prod.mk.injEq] at hg
          obtain ⟨⟨rfl, rfl⟩, -⟩ := hg
          exact h2 _ _ hm
      by_cases ht : t' = t
      · subst ht
        have hwf := h2 f pc hm
        cases pc with
        | put =>
          simp only [regStep] at hg' hwt ⊢
          refine ⟨hg', ?_, hwt, ?_, ?_⟩
          · intro g hg; rw [hset, if_pos rfl] at hg; cases hg; exact hwf
          · intro g hg
            rw [hset, if_pos rfl] at hg; cases hg
            refine ⟨fun g hg => ?_, fun f0 hf0 => ?_⟩
            · rcases mem_set_iff_or hg with hg | hg
              · obtain ⟨old, hold⟩ := h0.known _ _ _ hg (.inr rfl)
                exact fun hb => (h3 old hold).1 g hg (better_trans hb (h4 f hm old hold))
              · simp only [Prod.mk.injEq] at hg
                obtain ⟨⟨-, rfl⟩, -⟩ := hg
                exact better_irrefl _
            · obtain ⟨old, hold⟩ := h0.kept _ _ hf0
              exact fun hb => (h3 old hold).2 f0 hf0 (better_trans hb (h4 f hm old hold))
          · intro g hg
            obtain ⟨j, hj⟩ := List.mem_iff_getElem?.mp hg
            by_cases hij : i = j
            · subst hij
              have := (List.getElem?_eq_some_iff.mp hi).1
              rw [List.getElem?_set_self this] at hj
              simp at hj
            · rw [List.getElem?_set_ne hij] at hj
              exact absurd (hone i j _ _ hi hj) hij
        | check =>
          have hdict : (regStep s.dictionary t' f .check).2 = s.dictionary := by simp only [regStep]; split <;> rfl
          rw [hdict] at hg' ⊢
          refine ⟨hg', h1, hwt, ?_, ?_⟩
          · intro g hg
            refine ⟨fun g' hg' => ?_, (h3 g hg).2⟩
            rcases mem_set_iff_or hg' with hg' | hg'
            · exact (h3 g hg).1 g' hg'
            · simp only [regStep, Prod.mk.injEq] at hg'
              obtain ⟨-, hg'⟩ := hg'
              split at hg' <;> cases hg'
          · intro g hg
            rcases mem_set_iff_or hg with hg | hg
            · exact h4 g hg
            · intro f' hf'
              simp only [regStep, Prod.mk.injEq, if_pos (hcont.mpr ⟨f', hf'⟩)] at hg
              cases hg.2
        | compare =>
          obtain ⟨r, hr⟩ := h0.known _ _ _ hm (.inl rfl)
          have hiff := replaces_iff hwf (h1 r hr)
          have hdict : (regStep s.dictionary t' f .compare).2 = s.dictionary := by simp only [regStep, hr]; split <;> rfl
          rw [hdict] at hg' ⊢
          refine ⟨hg', h1, hwt, ?_, ?_⟩
          · intro g hg
            rw [hr] at hg; cases hg
            refine ⟨fun g' hg' => ?_, (h3 r hr).2⟩
            rcases mem_set_iff_or hg' with hg' | hg'
            · exact (h3 r hr).1 g' hg'
            · simp only [regStep, hr, Prod.mk.injEq] at hg'
              obtain ⟨⟨-, rfl⟩, hg'⟩ := hg'
              split at hg'
              · cases hg'
              · rename_i hn; exact fun hb => hn (hiff.mpr hb)
          · intro g hg
            rcases mem_set_iff_or hg with hg | hg
            · exact h4 g hg
            · intro f' hf'
              rw [hr] at hf'; cases hf'
              simp only [regStep, hr, Prod.mk.injEq] at hg
              obtain ⟨⟨-, rfl⟩, hg⟩ := hg
              split at hg
              · rename_i hn; exact hiff.mp hn
              · cases hg
        | done =>
          have hself : s.threads.set i ((t', f), .done) = s.threads := by
            obtain ⟨hl, he⟩ := List.getElem?_eq_some_iff.mp hi
            rw [← he, List.set_getElem_self]
          simp only [regStep, hself] at hg' ⊢
          exact ⟨hg', h1, h2, h3, h4⟩
        | failed e => exact absurd hm (h0.ok _ e)
      · have hsame : Dict.get? (regStep s.dictionary t' f pc).2 t = Dict.get? s.dictionary t := by
          cases pc with
          | put => simp only [regStep]; rw [hset, if_neg ht]
          | check => simp only [regStep]; split <;> rfl
          | compare => simp only [regStep]; split <;> try split
                       all_goals rfl
          | done => rfl
          | failed e => rfl
        have hthr : ∀ g pc', ((t, g), pc') ∈ s.threads.set i ((t', f), (regStep s.dictionary t' f pc).1) → ((t, g), pc') ∈ s.threads := by
          intro g pc' hg
          rcases mem_set_iff_or hg with hg | hg
          · exact hg
          · simp only [Prod.mk.injEq] at hg; exact absurd hg.1.1.symm ht
        refine ⟨hg', ?_, hwt, ?_, ?_⟩
        · simp only [hsame]; exact h1
        · simp only [hsame]; exact fun g hg => ⟨fun g' h' => (h3 g hg).1 g' (hthr _ _ h'), (h3 g hg).2⟩
        · simp only [hsame]; exact fun g hg => h4 g (hthr _ _ hg)

/-- C99 (partial): if registrations under a text do not overlap, then in every schedule the word form found for it is the best of the
one that was there before and those whose registration is finished. Missing: registrations under one text that overlap, for which the
claim is false (`C99_violated`). -/
theorem C99_best_partial (d : Dictionary) (events : List DictEvent) (t : Str) (f : WordForm) (hone : OneAtATime d t events)
    (hd : ∀ f, Dictionary.getWord d t = .ok f → WFProps f.properties)
    (he : ∀ f, DictEvent.register t f ∈ events → WFProps f.properties)
    (h : Dictionary.getWord (dictionaryAfter d events).dictionary t = .ok f) :
    (∀ g, Dictionary.getWord d t = .ok g → ¬ Better g f) ∧ ∀ g ∈ finished (dictionaryAfter d events) t, ¬ Better g f := by
  have hget : ∀ (d' : Dictionary) (g : WordForm), Dictionary.getWord d' t = .ok g ↔ Dict.get? d' t = some g := by
    intro d' g
    unfold Dictionary.getWord
    cases Dict.get? d' t <;> simp
  simp only [hget] at hd h ⊢
  have key : ∀ (later before : List DictEvent), events = before ++ later → (dictionaryAfter d before).Best d t →
      (later.foldl DictThreads.step (dictionaryAfter d before)).Best d t := by
    intro later
    induction later with
    | nil => intro before _ hb; exact hb
    | cons e later ih =>
      intro before hsplit hb
      have hs := DictThreads.step_best hb e (fun f hf => he f (by rw [hsplit, ← hf]; simp))
        (fun i j f g hi hj => hone before _ hsplit i j f g _ _ hi hj (by simp) (by simp))
      have hnext : dictionaryAfter d (before ++ [e]) = (dictionaryAfter d before).step e := by
        simp [dictionaryAfter, List.foldl_append]
      have := ih (before ++ [e]) (by simp [hsplit]) (by rw [hnext]; exact hs)
      rw [hnext] at this
      exact this
  have hb := key events [] rfl ⟨dictionaryAfter_good d [], hd, by simp [dictionaryAfter], fun f hf => ⟨by simp [dictionaryAfter], fun f0 hf0 => by
      have : Dict.get? d t = some f := hf
      rw [this] at hf0; cases hf0; exact better_irrefl _⟩, by simp [dictionaryAfter]⟩
  have hb' : (dictionaryAfter d events).Best d t := hb
  refine ⟨(hb'.best f h).2, fun g hg => ?_⟩
  simp only [finished, List.mem_filterMap] at hg
  obtain ⟨⟨⟨t', g'⟩, pc⟩, hm, hg⟩ := hg
  split at hg
  · rename_i hc
    obtain ⟨rfl, rfl⟩ := hc
    cases hg
    exact (hb'.best f h).1 _ hm
  · cases hg

/-- C99 is false of the code for overlapping registrations: of two word forms registered under the same new text at the same time, the
worse one can stay, whichever it is. -/
theorem C99_violated (t : Str) (f g : WordForm) : ∃ events : List DictEvent,
    finished (dictionaryAfter [] events) t = [f, g] ∧ Dictionary.getWord (dictionaryAfter [] events).dictionary t = .ok g :=
  ⟨[.register t f, .register t g, .run 0, .run 1, .run 0, .run 1], by
    simp [finished, dictionaryAfter, DictThreads.step, regStep, Dict.contains, Dict.get?, Dict.set, Dictionary.getWord]⟩

/-- A schedule without overlaps meets the hypotheses of `C99_best_partial`: a verb is registered, then a noun with the same text,
which replaces it. -/
example : let f := WordForm.new exVerb; let g := WordForm.new exNoun; let t := str! "x"
    let events : List DictEvent := [.register t f, .register t g, .run 0, .run 0, .run 1, .run 1, .run 1]
    Better g f ∧ OneAtATime [] t events ∧ finished (dictionaryAfter [] events) t = [f, g] ∧
    Dictionary.getWord (dictionaryAfter [] events).dictionary t = .ok g := by
  intro f g t events
  have hr : replaces g f = true := by decide +kernel
  have hb : Better g f := by left; decide +kernel
  clear_value f g t
  refine ⟨hb, ?_, ?_, ?_⟩
  · intro before later hsplit i j f' g' p q hi hj hp hq
    have hbefore : before = events.take before.length := by simp [hsplit]
    have hlen : before.length ≤ 7 := by
      have := congrArg List.length hsplit
      simp [events] at this; omega
    generalize before.length = n at hbefore hlen
    subst hbefore
    have hp' : p ≠ .check ∧ p ≠ .done := by constructor <;> rintro rfl <;> simp at hp
    have hq' : q ≠ .check ∧ q ≠ .done := by constructor <;> rintro rfl <;> simp at hq
    clear hsplit
    obtain rfl | rfl | rfl | rfl | rfl | rfl | rfl | rfl : n = 0 ∨ n = 1 ∨ n = 2 ∨ n = 3 ∨ n = 4 ∨ n = 5 ∨ n = 6 ∨ n = 7 := by omega
    all_goals
      simp [events, dictionaryAfter, DictThreads.step, regStep, Dict.contains, Dict.get?, Dict.set, hr] at hi hj
    all_goals rcases i with - | - | i <;> rcases j with - | - | j <;> simp at hi hj ⊢ <;> grind
  · simp [events, finished, dictionaryAfter, DictThreads.step, regStep, Dict.contains, Dict.get?, Dict.set, hr]
  · simp [events, dictionaryAfter, DictThreads.step, regStep, Dict.contains, Dict.get?, Dict.set, Dictionary.getWord, hr]

/-! ## C107: what overlapping registrations cannot do -/

/-- The word form found for a text is at least as good as `e`, and so is everything on its way. -/
structure DictThreads.AtLeast (d : Dictionary) (t : Str) (e : WordForm) (s : DictThreads) : Prop where
  good : s.Good d
  wft : ∀ f pc, ((t, f), pc) ∈ s.threads → WFProps f.properties
  entry : ∃ f, Dict.get? s.dictionary t = some f ∧ WFProps f.properties ∧ (f = e ∨ Better f e)
  put : ∀ g, ((t, g), RegPC.put) ∈ s.threads → Better g e

theorem DictThreads.step_atLeast {d : Dictionary} {t : Str} {e : WordForm} {s : DictThreads} (h : s.AtLeast d t e) (ev : DictEvent)
    (he : ∀ f, ev = .register t f → WFProps f.properties) : (s.step ev).AtLeast d t e := by
  have hg' := DictThreads.step_good h.good ev
  obtain ⟨h0, h1, ⟨f0, h2, h2w, h2b⟩, h3⟩ := h
  cases ev with
  | register t' f' =>
    refine ⟨hg', ?_, ⟨f0, h2, h2w, h2b⟩, ?_⟩
    · intro f pc hm
      simp only [DictThreads.step, List.mem_append, List.mem_singleton, Prod.mk.injEq] at hm
      rcases hm with hm | ⟨⟨rfl, rfl⟩, -⟩
      · exact h1 f pc hm
      · exact he f rfl
    · intro g hm
      simp only [DictThreads.step, List.mem_append, List.mem_singleton, Prod.mk.injEq] at hm
      rcases hm with hm | ⟨-, hm⟩
      · exact h3 g hm
      · cases hm
  | run i =>
    simp only [DictThreads.step] at hg' ⊢
    cases hi : s.threads[i]? with
    | none => exact ⟨h0, h1, ⟨f0, h2, h2w, h2b⟩, h3⟩
    | some c =>
      obtain ⟨⟨t', f⟩, pc⟩ := c
      have hm := List.mem_of_getElem? hi
      rw [hi] at hg'
      dsimp only at hg' ⊢
      have hwt : ∀ g pc', ((t, g), pc') ∈ s.threads.set i ((t', f), (regStep s.dictionary t' f pc).1) → WFProps g.properties := by
        intro g pc' hg
        rcases mem_set_iff_or hg with hg | hg
        · exact h1 g pc' hg
        · simp only [Prod.mk.injEq] at hg
          obtain ⟨⟨rfl, rfl⟩, -⟩ := hg
          exact h1 _ _ hm
      refine ⟨hg', hwt, ?_, ?_⟩
      · -- the entry
        by_cases ht : t' = t ∧ pc = .put
        · obtain ⟨rfl, rfl⟩ := ht
          exact ⟨f, by simp [regStep, Dict.get?_set], h1 _ _ hm, .inr (h3 f hm)⟩
        · refine ⟨f0, ?_, h2w, h2b⟩
          cases pc with
          | put => simp only [regStep]; rw [Dict.get?_set, if_neg (fun e => ht ⟨e, rfl⟩)]; exact h2
          | check => simp only [regStep]; split <;> exact h2
          | compare => simp only [regStep]; split <;> try split
                       all_goals exact h2
          | done => exact h2
          | failed e => exact h2
      · -- what is on its way
        intro g hg
        rcases mem_set_iff_or hg with hg | hg
        · exact h3 g hg
        · simp only [Prod.mk.injEq] at hg
          obtain ⟨⟨rfl, rfl⟩, hg⟩ := hg
          cases pc with
          | put => exact h3 _ hm
          | check =>
            simp only [regStep, if_pos (contains_iff_get?.mpr ⟨f0, h2⟩)] at hg
            cases hg
          | compare =>
            simp only [regStep, h2] at hg
            split at hg
            · rename_i hr
              have := (replaces_iff (h1 _ _ hm) h2w).mp hr
              rcases h2b with rfl | h2b
              · exact this
              · exact better_trans this h2b
            · cases hg
          | done => cases hg
          | failed e => cases hg

/-- C107: once a text is known and no registration under it is running, the word form found for it is never replaced by a worse or an
equally good one, however many registrations overlap in whatever schedule. -/
theorem C107_never_worse (d : Dictionary) (before later : List DictEvent) (t : Str) (e f : WordForm)
    (hq : ∀ c ∈ (dictionaryAfter d before).threads, c.1.1 = t → c.2 = .done)
    (hd : WFProps e.properties) (he : ∀ f, DictEvent.register t f ∈ before ++ later → WFProps f.properties)
    (hfirst : Dictionary.getWord (dictionaryAfter d before).dictionary t = .ok e)
    (h : Dictionary.getWord (dictionaryAfter d (before ++ later)).dictionary t = .ok f) : f = e ∨ Better f e := by
  have hget : ∀ (d' : Dictionary) (g : WordForm), Dictionary.getWord d' t = .ok g ↔ Dict.get? d' t = some g := by
    intro d' g
    unfold Dictionary.getWord
    cases Dict.get? d' t <;> simp
  rw [hget] at hfirst h
  have key : ∀ (es : List DictEvent) (s : DictThreads), s.AtLeast d t e → (∀ f, DictEvent.register t f ∈ es → WFProps f.properties) →
      (es.foldl DictThreads.step s).AtLeast d t e := by
    intro es
    induction es with
    | nil => intro s h _; exact h
    | cons ev es ih =>
      intro s h hw
      exact ih _ (DictThreads.step_atLeast h ev fun f hf => hw f (by simp [hf])) fun f hf => hw f (by simp [hf])
  have hs : (dictionaryAfter d before).AtLeast d t e := by
    refine ⟨dictionaryAfter_good d before, ?_, ⟨e, hfirst, hd, .inl rfl⟩, ?_⟩
    · intro g pc hm
      exact he g (List.mem_append_left _ (after_origin d before t g pc hm))
    · intro g hm
      have := hq _ hm rfl
      cases this
  have := key later _ hs (fun f hf => he f (List.mem_append_right _ hf))
  rw [show later.foldl DictThreads.step (dictionaryAfter d before) = dictionaryAfter d (before ++ later) by
    simp [dictionaryAfter, List.foldl_append]] at this
  obtain ⟨f', h1, -, h2⟩ := this.entry
  rw [h] at h1
  cases h1
  exact h2

/-- C107 applies: a verb is known; two nouns with the same text are registered at the same time. -/
example : let f := WordForm.new exVerb; let g := WordForm.new exNoun; let t := str! "x"
    let later : List DictEvent := [.register t g, .register t g, .run 0, .run 1, .run 0, .run 1, .run 0, .run 1]
    (∀ c ∈ (dictionaryAfter [(t, f)] []).threads, c.1.1 = t → c.2 = RegPC.done) ∧
    Dictionary.getWord (dictionaryAfter [(t, f)] []).dictionary t = .ok f ∧
    Dictionary.getWord (dictionaryAfter [(t, f)] ([] ++ later)).dictionary t = .ok g ∧ Better g f := by
  intro f g t later
  have hr : replaces g f = true := by decide +kernel
  have hb : Better g f := by left; decide +kernel
  clear_value f g t
  refine ⟨by simp [dictionaryAfter], by simp [dictionaryAfter, Dictionary.getWord, Dict.get?], ?_, hb⟩
  simp [later, dictionaryAfter, DictThreads.step, regStep, Dict.contains, Dict.get?, Dict.set, Dictionary.getWord, hr]

end Utg
