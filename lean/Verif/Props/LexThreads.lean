import Verif.Props.Threads
/-!
# What exactly can be lost when templates are added from several threads (C106)
-/

namespace Utg
open Py Spec

section
variable {K T R : Type} [DecidableEq K]

/-- The contents of the lists that were made for a key. -/
def listsOf (owner : List K) (lists : List (List (T × Finset R))) (key : K) : List (T × Finset R) :=
  ((owner.zip lists).filter fun p => decide (p.1 = key)).flatMap Prod.snd

/-- Who made which list, and where everything went. -/
structure LexThreads.Owned (owner : List K) (s : LexThreads K T R) : Prop where
  good : s.Good
  length : owner.length = s.lexicon.lists.length
  data : ∀ k i, Dict.get? s.lexicon.data k = some i → owner[i]? = some k
  append : ∀ c i, (c, AddPC.append i) ∈ s.threads → owner[i]? = some c.key
  all : ∀ key, (listsOf owner s.lexicon.lists key).Perm (finishedFor key s.threads)

theorem listsOf_append (owner : List K) (lists : List (List (T × Finset R))) (k key : K) (h : owner.length = lists.length) :
    listsOf (owner ++ [k]) (lists ++ [[]]) key = listsOf owner lists key := by
  unfold listsOf
  rw [List.zip_append h, List.filter_append, List.flatMap_append]
  by_cases hk : k = key <;> simp [hk]

theorem listsOf_modify_other (owner : List K) (lists : List (List (T × Finset R))) (i : Nat) (k key : K) (hi : owner[i]? = some k)
    (hk : k ≠ key) (f : List (T × Finset R) → List (T × Finset R)) : listsOf owner (lists.modify i f) key = listsOf owner lists key := by
  induction owner generalizing lists i with
  | nil => simp at hi
  | cons a owner ih =>
    cases lists with
    | nil => simp [List.modify_nil]
    | cons l lists =>
      cases i with
      | zero =>
        simp at hi; subst hi
        simp [listsOf, hk]
      | succ i =>
        simp at hi
        have := ih lists i hi
        unfold listsOf at this ⊢
        simp only [List.modify_succ_cons, List.zip_cons_cons, List.filter_cons]
        split <;> simp [this]

theorem listsOf_modify_self (owner : List K) (lists : List (List (T × Finset R))) (i : Nat) (key : K) (hi : owner[i]? = some key)
    (hl : i < lists.length) (x : T × Finset R) :
    (listsOf owner (lists.modify i fun l => l ++ [x]) key).Perm (listsOf owner lists key ++ [x]) := by
  induction owner generalizing lists i with
  | nil => simp at hi
  | cons a owner ih =>
    cases lists with
    | nil => simp at hl
    | cons l lists =>
      cases i with
      | zero =>
        simp at hi; subst hi
        simp only [listsOf, List.modify_zero_cons, List.zip_cons_cons, List.filter_cons, decide_true, if_true, List.flatMap_cons,
          List.append_assoc]
        exact List.Perm.append_left _ List.perm_append_comm
      | succ i =>
        simp at hi hl
        have := ih lists i hi hl
        unfold listsOf at this ⊢
        simp only [List.modify_succ_cons, List.zip_cons_cons, List.filter_cons]
        split
        · simp only [List.flatMap_cons, List.append_assoc]
          exact this.append_left _
        · exact this

theorem LexThreads.step_owned_prefix {owner : List K} {s : LexThreads K T R} (h : s.Owned owner) (e : LexEvent K T R) :
    ∃ owner', (s.step e).Owned owner' ∧ owner <+: owner' := by
  have hg := LexThreads.step_good h.good e
  obtain ⟨⟨g1, g2, g3, g4, g5⟩, h1, h2, h3, h4⟩ := h
  cases e with
  | call c =>
    refine ⟨owner, ⟨hg, h1, h2, ?_, ?_⟩, List.prefix_rfl⟩
    · simp only [LexThreads.step, List.mem_append, List.mem_singleton]; grind
    · intro key; simpa [LexThreads.step, finishedFor] using h4 key
  | run i =>
    simp only [LexThreads.step] at hg ⊢
    cases hi : s.threads[i]? with
    | none => exact ⟨owner, ⟨⟨g1, g2, g3, g4, g5⟩, h1, h2, h3, h4⟩, List.prefix_rfl⟩
    | some x =>
      obtain ⟨c, pc⟩ := x
      rw [hi] at hg
      simp only at hg ⊢
      have hm := List.mem_of_getElem? hi
      have hset : ∀ {y a}, a ∈ s.threads.set i y → a ∈ s.threads ∨ a = y := fun h => List.mem_or_eq_of_mem_set h
      have hsame : ∀ pc', pc ≠ .done → pc' ≠ .done → ∀ key, finishedFor key (s.threads.set i (c, pc')) = finishedFor key s.threads := by
        intro pc' n1 n2 key
        unfold finishedFor
        rw [filterMap_set_none hi (by simp [n1, n2])]
      cases pc with
      | check =>
        by_cases hc : Dict.contains s.lexicon.data c.key
        · simp only [AddCall.step, hc, if_true] at hg ⊢
          exact ⟨owner, ⟨hg, h1, h2, by grind, fun key => by rw [hsame _ (by simp) (by simp)]; exact h4 key⟩, List.prefix_rfl⟩
        · simp only [AddCall.step, hc, if_false, Bool.false_eq_true] at hg ⊢
          exact ⟨owner, ⟨hg, h1, h2, by grind, fun key => by rw [hsame _ (by simp) (by simp)]; exact h4 key⟩, List.prefix_rfl⟩
      | create =>
        simp only [AddCall.step] at hg ⊢
        refine ⟨owner ++ [c.key], ⟨hg, by simp [h1], ?_, ?_, ?_⟩, List.prefix_append _ _⟩
        · intro k j hj
          simp only [Dict.get?_set] at hj
          split at hj
          · rename_i hk; injection hj with hj; subst hj; rw [← h1]; simp [hk]
          · have := h2 k j hj
            rw [List.getElem?_append_left (List.getElem?_eq_some_iff.mp this).1]; exact this
        · intro c' j hc'
          rcases hset hc' with hc' | hc'
          · have := h3 c' j hc'
            rw [List.getElem?_append_left (List.getElem?_eq_some_iff.mp this).1]; exact this
          · injection hc' with _ hc'; cases hc'
        · intro key
          simp only
          rw [hsame _ (by simp) (by simp), listsOf_append _ _ _ _ h1]; exact h4 key
      | load =>
        obtain ⟨j, hj⟩ := g3 c hm
        simp only [AddCall.step, hj] at hg ⊢
        refine ⟨owner, ⟨hg, h1, h2, ?_, fun key => by rw [hsame _ (by simp) (by simp)]; exact h4 key⟩, List.prefix_rfl⟩
        intro c' j' hc'
        rcases hset hc' with hc' | hc'
        · exact h3 c' j' hc'
        · injection hc' with e1 e2; injection e2 with e2; subst e1 e2; exact h2 _ _ hj
      | append j =>
        simp only [AddCall.step] at hg ⊢
        refine ⟨owner, ⟨hg, by simp [h1], h2, by grind, ?_⟩, List.prefix_rfl⟩
        intro key
        have hj := h3 c j hm
        simp only
        by_cases hk : c.key = key
        · refine (listsOf_modify_self owner _ j key (hk ▸ hj) (g4 c j hm).1 _).trans ?_
          refine ((h4 key).append_right _).trans ?_
          unfold finishedFor
          exact (filterMap_set_some hi (by simp) (by simp [hk])).symm
        · rw [listsOf_modify_other owner _ j _ key hj hk]
          unfold finishedFor
          rw [filterMap_set_none hi (by simp [hk])]
          exact h4 key
      | done =>
        have hself : s.threads.set i (c, .done) = s.threads := by
          obtain ⟨hl, he⟩ := List.getElem?_eq_some_iff.mp hi
          rw [← he, List.set_getElem_self]
        simp only [AddCall.step, hself]
        exact ⟨owner, ⟨⟨g1, g2, g3, g4, g5⟩, h1, h2, h3, h4⟩, List.prefix_rfl⟩
      | failed e => exact absurd hm (g5 c e)

theorem LexThreads.after_owned (events : List (LexEvent K T R)) : ∃ owner, (LexThreads.after events).Owned owner := by
  have key : ∀ (es : List (LexEvent K T R)) (s : LexThreads K T R), (∃ owner, s.Owned owner) → ∃ owner, (es.foldl LexThreads.step s).Owned owner := by
    intro es
    induction es with
    | nil => intro s h; exact h
    | cons e es ih =>
      intro s ⟨o, h⟩
      obtain ⟨o', h', -⟩ := LexThreads.step_owned_prefix h e
      exact ih _ ⟨o', h'⟩
  refine key events _ ⟨[], LexThreads.after_good [], rfl, by simp [Dict.get?], by simp, ?_⟩
  intro key; simp [listsOf, finishedFor]

theorem sublist_listsOf {owner : List K} {lists : List (List (T × Finset R))} {i : Nat} {key : K} {l : List (T × Finset R)}
    (hi : owner[i]? = some key) (hl : lists[i]? = some l) : l.Sublist (listsOf owner lists key) := by
  have hz : (owner.zip lists)[i]? = some (key, l) := by rw [List.getElem?_zip_eq_some]; exact ⟨hi, hl⟩
  unfold listsOf
  rw [List.flatMap_def]
  exact List.sublist_flatten_of_mem (List.mem_map.mpr ⟨_, List.mem_filter.mpr ⟨List.mem_of_getElem? hz, by simp⟩, rfl⟩)

/-- C106: in every schedule the templates of a key are templates of finished calls for this key, each at most once per call. -/
theorem C106_nothing_invented (events : List (LexEvent K T R)) (key : K) :
    List.Subperm ((LexThreads.after events).lexicon.entries key) (finishedFor key (LexThreads.after events).threads) := by
  obtain ⟨owner, h⟩ := LexThreads.after_owned events
  unfold SharedLexicon.entries
  cases hd : Dict.get? (LexThreads.after events).lexicon.data key with
  | none => exact List.nil_subperm
  | some i =>
    have hi := h.good.range _ _ hd
    simp only [List.getElem?_eq_getElem hi, Option.getD_some]
    exact (sublist_listsOf (h.data _ _ hd) (List.getElem?_eq_getElem hi)).subperm.trans (h.all key).subperm

/-- A known key has a template, or a call for it is on the way to add one to its list. -/
structure LexThreads.Promised (s : LexThreads K T R) : Prop where
  good : s.Good
  known : ∀ c pc, (c, pc) ∈ s.threads → (pc = .done ∨ ∃ i, pc = .append i) → ∃ i, Dict.get? s.lexicon.data c.key = some i
  promised : ∀ key i, Dict.get? s.lexicon.data key = some i → s.lexicon.lists[i]? ≠ some [] ∨
    ∃ (w : Nat) (c : AddCall K T R), c.key = key ∧ (s.threads[w]? = some (c, .load) ∨ s.threads[w]? = some (c, .append i))

theorem LexThreads.step_promised {s : LexThreads K T R} (h : s.Promised) (e : LexEvent K T R) : (s.step e).Promised := by
  have hg := LexThreads.step_good h.good e
  obtain ⟨⟨g1, g2, g3, g4, g5⟩, h1, h2⟩ := h
  cases e with
  | call c =>
    refine ⟨hg, ?_, ?_⟩
    · simp only [LexThreads.step, List.mem_append, List.mem_singleton]; grind
    · intro key i hd
      rcases h2 key i hd with h | ⟨w, c', hk, h⟩
      · exact .inl h
      · refine .inr ⟨w, c', hk, ?_⟩
        simp only [LexThreads.step]
        rcases h with h | h
        · left; rw [List.getElem?_append_left (List.getElem?_eq_some_iff.mp h).1]; exact h
        · right; rw [List.getElem?_append_left (List.getElem?_eq_some_iff.mp h).1]; exact h
  | run n =>
    simp only [LexThreads.step] at hg ⊢
    cases hi : s.threads[n]? with
    | none => exact ⟨⟨g1, g2, g3, g4, g5⟩, h1, h2⟩
    | some x =>
      obtain ⟨c, pc⟩ := x
      rw [hi] at hg
      simp only at hg ⊢
      have hm := List.mem_of_getElem? hi
      have hn := (List.getElem?_eq_some_iff.mp hi).1
      have hset : ∀ {y a}, a ∈ s.threads.set n y → a ∈ s.threads ∨ a = y := fun h => List.mem_or_eq_of_mem_set h
      have hother : ∀ {w y}, w ≠ n → (s.threads.set n y)[w]? = s.threads[w]? := fun h => List.getElem?_set_ne (Ne.symm h)
      have hself : ∀ {y}, (s.threads.set n y)[n]? = some y := by intro y; simp [hn]
      cases pc with
      | check =>
        by_cases hc : Dict.contains s.lexicon.data c.key
        · simp only [AddCall.step, hc, if_true] at hg ⊢
          refine ⟨hg, by grind, ?_⟩
          intro key i hd
          rcases h2 key i hd with h | ⟨w, c', hk, h⟩
          · exact .inl h
          · refine .inr ⟨w, c', hk, ?_⟩
            by_cases hw : w = n
            · subst hw; rw [hi] at h; simp at h
            · simpa only [hother hw] using h
        · simp only [AddCall.step, hc, if_false, Bool.false_eq_true] at hg ⊢
          refine ⟨hg, by grind, ?_⟩
          intro key i hd
          rcases h2 key i hd with h | ⟨w, c', hk, h⟩
          · exact .inl h
          · refine .inr ⟨w, c', hk, ?_⟩
            by_cases hw : w = n
            · subst hw; rw [hi] at h; simp at h
            · simpa only [hother hw] using h
      | create =>
        simp only [AddCall.step] at hg ⊢
        refine ⟨hg, ?_, ?_⟩
        · intro c' pc' hc' hpc
          rcases hset hc' with hc' | hc'
          · obtain ⟨i, hd⟩ := h1 c' pc' hc' hpc
            simp only [Dict.get?_set]
            split
            · exact ⟨_, rfl⟩
            · exact ⟨i, hd⟩
          · injection hc' with _ hc'; subst hc'; simp at hpc
        · intro key i hd
          simp only [Dict.get?_set] at hd
          split at hd
          · rename_i hk
            exact .inr ⟨n, c, hk, .inl hself⟩
          · rcases h2 key i hd with h | ⟨w, c', hk, h⟩
            · left; rw [List.getElem?_append_left (g1 _ _ hd)]; exact h
            · refine .inr ⟨w, c', hk, ?_⟩
              by_cases hw : w = n
              · subst hw; rw [hi] at h; simp at h
              · simpa only [hother hw] using h
      | load =>
        obtain ⟨j, hj⟩ := g3 c hm
        simp only [AddCall.step, hj] at hg ⊢
        refine ⟨hg, by grind, ?_⟩
        intro key i hd
        rcases h2 key i hd with h | ⟨w, c', hk, h⟩
        · exact .inl h
        · by_cases hw : w = n
          · subst hw
            rw [hi] at h
            simp at h
            subst h
            refine .inr ⟨w, c, hk, .inr ?_⟩
            rw [hself]
            rw [← hk, hj] at hd
            injection hd with hd
            rw [hd]
          · exact .inr ⟨w, c', hk, by simpa only [hother hw] using h⟩
      | append j =>
        simp only [AddCall.step] at hg ⊢
        refine ⟨hg, ?_, ?_⟩
        · intro c' pc' hc' hpc
          rcases hset hc' with hc' | hc'
          · exact h1 c' pc' hc' hpc
          · injection hc' with hc' _
            subst hc'
            exact h1 _ _ hm (.inr ⟨j, rfl⟩)
        · intro key i hd
          by_cases hij : j = i
          · subst hij
            left
            rw [List.getElem?_modify_eq]
            cases s.lexicon.lists[j]? <;> simp
          · rcases h2 key i hd with h | ⟨w, c', hk, h⟩
            · left; simp only [List.getElem?_modify, hij, if_false]; simpa using h
            · refine .inr ⟨w, c', hk, ?_⟩
              by_cases hw : w = n
              · subst hw; rw [hi] at h; simp at h; exact absurd h.2 hij
              · simpa only [hother hw] using h
      | done =>
        have hself : s.threads.set n (c, .done) = s.threads := by
          obtain ⟨hl, he⟩ := List.getElem?_eq_some_iff.mp hi
          rw [← he, List.set_getElem_self]
        simp only [AddCall.step, hself]
        exact ⟨⟨g1, g2, g3, g4, g5⟩, h1, h2⟩
      | failed e => exact absurd hm (g5 c e)

theorem LexThreads.after_promised (events : List (LexEvent K T R)) : (LexThreads.after events).Promised := by
  have key : ∀ (es : List (LexEvent K T R)) (s : LexThreads K T R), s.Promised → (es.foldl LexThreads.step s).Promised := by
    intro es
    induction es with
    | nil => intro s h; exact h
    | cons e es ih => intro s h; exact ih _ (LexThreads.step_promised h e)
  exact key events _ ⟨LexThreads.after_good [], by simp, by simp [Dict.get?]⟩

/-- C106: in every schedule, when a call for a key has finished and no call for it is running, the key has a template. -/
theorem C106_not_empty (events : List (LexEvent K T R)) (key : K) (h : finishedFor key (LexThreads.after events).threads ≠ [])
    (hq : ∀ c ∈ (LexThreads.after events).threads, c.1.key = key → c.2 = .done) :
    (LexThreads.after events).lexicon.entries key ≠ [] := by
  obtain ⟨hg, h1, h2⟩ := LexThreads.after_promised events
  obtain ⟨x, hx⟩ := List.exists_mem_of_ne_nil _ h
  simp only [finishedFor, List.mem_filterMap] at hx
  obtain ⟨⟨c, pc⟩, hm, hx⟩ := hx
  split at hx
  · rename_i hc
    obtain ⟨hk, rfl⟩ : c.key = key ∧ pc = .done := hc
    obtain ⟨i, hi⟩ := h1 c _ hm (.inl rfl)
    rw [hk] at hi
    have hlt := hg.range _ _ hi
    unfold SharedLexicon.entries
    rw [hi]
    simp only [List.getElem?_eq_getElem hlt, Option.getD_some]
    rcases h2 key i hi with h | ⟨w, c', hk', h⟩
    · intro e; rw [List.getElem?_eq_getElem hlt, e] at h; exact h rfl
    · rcases h with h | h
      · have := hq _ (List.mem_of_getElem? h) hk'; cases this
      · have := hq _ (List.mem_of_getElem? h) hk'; cases this
  · cases hx

/-- What is true of a key that is known and settled, while calls run. -/
structure LexThreads.Settled (key : K) (list : Nat) (base fin : List (T × Finset R)) (s : LexThreads K T R) : Prop where
  good : s.Good
  known : Dict.get? s.lexicon.data key = some list
  create : ∀ c, (c, AddPC.create) ∈ s.threads → c.key ≠ key
  append : ∀ c i, (c, AddPC.append i) ∈ s.threads → c.key = key → i = list
  entries : ∃ new, s.lexicon.lists[list]? = some (base ++ new) ∧ (finishedFor key s.threads).Perm (fin ++ new)

theorem LexThreads.step_settled {key : K} {list : Nat} {base fin : List (T × Finset R)} {s : LexThreads K T R}
    (h : s.Settled key list base fin) (e : LexEvent K T R) : (s.step e).Settled key list base fin := by
  have hg := LexThreads.step_good h.good e
  obtain ⟨⟨g1, g2, g3, g4, g5⟩, h1, h2, h3, ⟨new, h4, h6⟩⟩ := h
  cases e with
  | call c =>
    refine ⟨hg, h1, ?_, ?_, ⟨new, h4, ?_⟩⟩
    · simp only [LexThreads.step, List.mem_append, List.mem_singleton]; grind
    · simp only [LexThreads.step, List.mem_append, List.mem_singleton]; grind
    · simpa [LexThreads.step, finishedFor] using h6
  | run i =>
    simp only [LexThreads.step] at hg ⊢
    cases hi : s.threads[i]? with
    | none => exact ⟨⟨g1, g2, g3, g4, g5⟩, h1, h2, h3, ⟨new, h4, h6⟩⟩
    | some x =>
      obtain ⟨c, pc⟩ := x
      rw [hi] at hg
      simp only at hg ⊢
      have hm := List.mem_of_getElem? hi
      have hset : ∀ {y a}, a ∈ s.threads.set i y → a ∈ s.threads ∨ a = y := fun h => List.mem_or_eq_of_mem_set h
      have hsame : ∀ pc', pc ≠ .done → pc' ≠ .done → finishedFor key (s.threads.set i (c, pc')) = finishedFor key s.threads := by
        intro pc' n1 n2
        unfold finishedFor
        rw [filterMap_set_none hi (by simp [n1, n2])]
      cases pc with
      | check =>
        by_cases hc : Dict.contains s.lexicon.data c.key
        · simp only [AddCall.step, hc, if_true] at hg ⊢
          exact ⟨hg, h1, by grind, by grind, ⟨new, h4, by rw [hsame _ (by simp) (by simp)]; exact h6⟩⟩
        · simp only [AddCall.step, hc, if_false, Bool.false_eq_true] at hg ⊢
          refine ⟨hg, h1, ?_, by grind, ⟨new, h4, by rw [hsame _ (by simp) (by simp)]; exact h6⟩⟩
          intro c' hc'
          rcases hset hc' with hc' | hc'
          · exact h2 c' hc'
          · injection hc' with hc'
            subst hc'
            rintro rfl
            exact hc (contains_iff_get?.mpr ⟨_, h1⟩)
      | create =>
        have hk := h2 c hm
        have hl := g1 _ _ h1
        simp only [AddCall.step] at hg ⊢
        refine ⟨hg, by simp only [Dict.get?_set, if_neg hk, h1], by grind, by grind, ⟨new, ?_, by rw [hsame _ (by simp) (by simp)]; exact h6⟩⟩
        rw [List.getElem?_append_left hl, h4]
      | load =>
        obtain ⟨j, hj⟩ := g3 c hm
        simp only [AddCall.step, hj] at hg ⊢
        exact ⟨hg, h1, by grind, by grind, ⟨new, h4, by rw [hsame _ (by simp) (by simp)]; exact h6⟩⟩
      | append j =>
        simp only [AddCall.step] at hg ⊢
        by_cases hk : c.key = key
        · have hj := h3 c j hm hk
          subst hj
          refine ⟨hg, h1, by grind, by grind, ⟨new ++ [(c.template, c.restrictions)], ?_, ?_⟩⟩
          · rw [List.getElem?_modify_eq, h4]; simp
          · rw [← List.append_assoc]
            refine List.Perm.trans ?_ (h6.append_right _)
            unfold finishedFor
            exact filterMap_set_some hi (by simp) (by simp [hk])
        · have hj : j ≠ list := by
            rintro rfl
            exact (g4 c j hm).2 key (Ne.symm hk) h1
          refine ⟨hg, h1, by grind, by grind, ⟨new, ?_, ?_⟩⟩
          · simp [List.getElem?_modify, hj, h4]
          · unfold finishedFor
            rw [filterMap_set_none hi (by simp [hk])]
            exact h6
      | done =>
        have hself : s.threads.set i (c, .done) = s.threads := by
          obtain ⟨hl, he⟩ := List.getElem?_eq_some_iff.mp hi
          rw [← he, List.set_getElem_self]
        simp only [AddCall.step, hself]
        exact ⟨⟨g1, g2, g3, g4, g5⟩, h1, h2, h3, ⟨new, h4, h6⟩⟩
      | failed e => exact absurd hm (g5 c e)

/-- C106: once a key has a template and no call for it is running, nothing is lost any more, whatever calls for this and other keys
run in whatever schedule: the key keeps its templates and gets those of all calls for it that finish later, each once. -/
theorem C106_settled_key (before later : List (LexEvent K T R)) (key : K)
    (hk : (LexThreads.after before).lexicon.entries key ≠ [])
    (hq : ∀ c ∈ (LexThreads.after before).threads, c.1.key = key → c.2 = .done) :
    ∃ new, (LexThreads.after (before ++ later)).lexicon.entries key = (LexThreads.after before).lexicon.entries key ++ new ∧
      (finishedFor key (LexThreads.after (before ++ later)).threads).Perm (finishedFor key (LexThreads.after before).threads ++ new) := by
  have hg := LexThreads.after_good before
  rw [LexThreads.after, List.foldl_append, ← LexThreads.after]
  generalize LexThreads.after before = s at *
  unfold SharedLexicon.entries at hk ⊢
  cases hd : Dict.get? s.lexicon.data key with
  | none => rw [hd] at hk; exact absurd rfl hk
  | some i =>
    have hi := hg.range _ _ hd
    have key' : ∀ (es : List (LexEvent K T R)) (s' : LexThreads K T R),
        s'.Settled key i (s.lexicon.lists[i]) (finishedFor key s.threads) →
        (es.foldl LexThreads.step s').Settled key i (s.lexicon.lists[i]) (finishedFor key s.threads) := by
      intro es
      induction es with
      | nil => intro s' h; exact h
      | cons e es ih => intro s' h; exact ih _ (LexThreads.step_settled h e)
    have h0 : s.Settled key i (s.lexicon.lists[i]) (finishedFor key s.threads) := by
      refine ⟨hg, hd, ?_, ?_, ⟨[], by simp [hi], by simp⟩⟩
      · intro c hc he; have := hq _ hc he; simp at this
      · intro c j hc he; have := hq _ hc he; simp at this
    obtain ⟨-, k1, -, -, ⟨new, k2, k3⟩⟩ := key' later s h0
    refine ⟨new, ?_, k3⟩
    simp only [k1, k2, hi, List.getElem?_eq_getElem, Option.getD_some]

/-- C106: if the first call for a key has finished before another one for it begins, no template of the key is ever lost. -/
theorem C106_first_alone (before later : List (LexEvent K T R)) (key : K) (c : AddCall K T R) (hc : c.key = key)
    (hone : (LexThreads.after before).threads.filter (fun x => decide (x.1.key = key)) = [(c, .done)]) :
    ((LexThreads.after (before ++ later)).lexicon.entries key).Perm (finishedFor key (LexThreads.after (before ++ later)).threads) := by
  have hfin : finishedFor key (LexThreads.after before).threads = [(c.template, c.restrictions)] := by
    have : ∀ l : List (AddCall K T R × AddPC), finishedFor key l = finishedFor key (l.filter fun x => decide (x.1.key = key)) := by
      intro l
      unfold finishedFor
      rw [List.filterMap_filter]
      congr 1
      funext x
      by_cases h : x.1.key = key <;> simp [h]
    rw [this, hone]; simp [finishedFor, hc]
  have hq : ∀ x ∈ (LexThreads.after before).threads, x.1.key = key → x.2 = .done := by
    intro x hx hk
    have : x ∈ (LexThreads.after before).threads.filter (fun x => decide (x.1.key = key)) := List.mem_filter.mpr ⟨hx, by simp [hk]⟩
    rw [hone] at this
    rw [List.mem_singleton.mp this]
  have hne := C106_not_empty before key (by rw [hfin]; simp) hq
  obtain ⟨new, h1, h2⟩ := C106_settled_key before later key hne hq
  have hsub := C106_nothing_invented before key
  rw [hfin] at hsub h2
  have : (LexThreads.after before).lexicon.entries key = [(c.template, c.restrictions)] := by
    have hl := hsub.length_le
    obtain ⟨x, xs, hx⟩ := List.exists_cons_of_ne_nil hne
    rw [hx] at hl hsub ⊢
    have : xs = [] := by
      cases xs with
      | nil => rfl
      | cons _ _ => simp at hl
    subst this
    have := hsub.subset (List.mem_singleton.mpr rfl)
    rw [List.mem_singleton.mp this]
  rw [h1, this]
  exact h2.symm

/-- C106 applies: one call for a key is finished, then two calls overlap; both get in. -/
example (key : K) (t : T) : let before : List (LexEvent K T R) := [.call ⟨key, t, ∅⟩, .run 0, .run 0, .run 0, .run 0]
    let later : List (LexEvent K T R) := [.call ⟨key, t, ∅⟩, .call ⟨key, t, ∅⟩, .run 1, .run 2, .run 1, .run 2, .run 1, .run 2]
    (LexThreads.after before).threads.filter (fun x => decide (x.1.key = key)) = [(⟨key, t, ∅⟩, .done)] ∧
    (LexThreads.after (before ++ later)).lexicon.entries key = [(t, ∅), (t, ∅), (t, ∅)] := by
  simp [LexThreads.after, LexThreads.step, AddCall.step, Dict.contains, Dict.get?, Dict.set, SharedLexicon.entries]

end

end Utg
