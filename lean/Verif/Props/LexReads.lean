import Verif.Spec.LexReads
import Verif.Props.LexThreads
import Verif.Props.Lexicon
/-!
# C109: asking a lexicon while templates are added
-/

namespace Utg
open Py Spec

section
variable {K T R : Type} [DecidableEq K]

theorem LexThreads.after_snoc (es : List (LexEvent K T R)) (e : LexEvent K T R) :
    LexThreads.after (es ++ [e]) = (LexThreads.after es).step e := by
  simp [LexThreads.after, List.foldl_append]

/-- Lists only grow. -/
theorem LexThreads.step_grows (s : LexThreads K T R) (e : LexEvent K T R) (i : Nat) (l : List (T × Finset R))
    (h : s.lexicon.lists[i]? = some l) : ∃ l', (s.step e).lexicon.lists[i]? = some l' ∧ l <+: l' := by
  cases e with
  | call c => exact ⟨l, h, List.prefix_rfl⟩
  | run n =>
    simp only [LexThreads.step]
    cases hn : s.threads[n]? with
    | none => exact ⟨l, h, List.prefix_rfl⟩
    | some x =>
      obtain ⟨c, pc⟩ := x
      simp only
      cases pc with
      | check => simp only [AddCall.step]; split <;> exact ⟨l, h, List.prefix_rfl⟩
      | create =>
        simp only [AddCall.step]
        rw [List.getElem?_append_left (List.getElem?_eq_some_iff.mp h).1]
        exact ⟨l, h, List.prefix_rfl⟩
      | load => simp only [AddCall.step]; split <;> exact ⟨l, h, List.prefix_rfl⟩
      | append j =>
        simp only [AddCall.step, List.getElem?_modify, h]
        by_cases hj : j = i
        · simp only [hj, if_true, Option.map_some]; exact ⟨_, rfl, List.prefix_append _ _⟩
        · simp only [hj, if_false]; exact ⟨l, rfl, List.prefix_rfl⟩
      | done => exact ⟨l, h, List.prefix_rfl⟩
      | failed e => exact ⟨l, h, List.prefix_rfl⟩

/-- A known key stays known. -/
theorem LexThreads.step_known_key (s : LexThreads K T R) (e : LexEvent K T R) (key : K) (i : Nat)
    (h : Dict.get? s.lexicon.data key = some i) : ∃ j, Dict.get? (s.step e).lexicon.data key = some j ∧
      (j = i ∨ ∃ (n : Nat) (c : AddCall K T R), s.threads[n]? = some (c, .create) ∧ c.key = key) := by
  cases e with
  | call c => exact ⟨i, h, .inl rfl⟩
  | run n =>
    simp only [LexThreads.step]
    cases hn : s.threads[n]? with
    | none => exact ⟨i, h, .inl rfl⟩
    | some x =>
      obtain ⟨c, pc⟩ := x
      simp only
      cases pc with
      | check => simp only [AddCall.step]; split <;> exact ⟨i, h, .inl rfl⟩
      | create =>
        simp only [AddCall.step, Dict.get?_set]
        by_cases hk : c.key = key
        · simp only [hk, if_true]; exact ⟨_, rfl, .inr ⟨n, c, hn, hk⟩⟩
        · simp only [hk, if_false]; exact ⟨i, h, .inl rfl⟩
      | load => simp only [AddCall.step]; split <;> exact ⟨i, h, .inl rfl⟩
      | append j => exact ⟨i, h, .inl rfl⟩
      | done => exact ⟨i, h, .inl rfl⟩
      | failed e => exact ⟨i, h, .inl rfl⟩

theorem firstAlone_snoc {key : K} {es : List (LexEvent K T R)} {e : LexEvent K T R} (h : FirstAlone key (es ++ [e])) : FirstAlone key es :=
  fun b l hb => h b (l ++ [e]) (by rw [hb, List.append_assoc])

/-- Nobody creates a second list. -/
theorem firstAlone_create {key : K} {es : List (LexEvent K T R)} (h : FirstAlone key es) (n : Nat) (c : AddCall K T R)
    (hn : (LexThreads.after es).threads[n]? = some (c, .create)) (hk : c.key = key) :
    Dict.get? (LexThreads.after es).lexicon.data key = none := by
  induction es using List.reverseRecOn generalizing n c with
  | nil => simp [LexThreads.after] at hn
  | append_singleton es e ih =>
    have ih := ih (firstAlone_snoc h)
    rw [LexThreads.after_snoc] at hn ⊢
    have hp := LexThreads.after_promised es
    have hfirst := (firstAlone_snoc h) es [] (by simp)
    generalize LexThreads.after es = s at *
    cases e with
    | call c' =>
      simp only [LexThreads.step] at hn ⊢
      rcases Nat.lt_or_ge n s.threads.length with hl | hl
      · rw [List.getElem?_append_left hl] at hn; exact ih n c hn hk
      · rw [List.getElem?_append_right hl] at hn
        have := List.mem_of_getElem? hn
        simp at this
    | run m =>
      simp only [LexThreads.step] at hn ⊢
      cases hm : s.threads[m]? with
      | none => rw [hm] at hn; exact ih n c hn hk
      | some x =>
        obtain ⟨c', pc⟩ := x
        rw [hm] at hn
        simp only at hn ⊢
        have hml := (List.getElem?_eq_some_iff.mp hm).1
        by_cases hnm : n = m
        · subst hnm
          rw [List.getElem?_set_self hml] at hn
          injection hn with hn
          injection hn with h1 h2
          subst h1
          cases pc with
          | check =>
            simp only [AddCall.step] at h2 ⊢
            split at h2
            · cases h2
            · rename_i hc
              simp only [hc, if_false, Bool.false_eq_true]
              cases hd : Dict.get? s.lexicon.data key with
              | none => rfl
              | some j => rw [hk] at hc; exact absurd (contains_iff_get?.mpr ⟨j, hd⟩) hc
          | create => cases h2
          | load => simp only [AddCall.step] at h2; split at h2 <;> cases h2
          | append j => cases h2
          | done => cases h2
          | failed e => cases h2
        · rw [List.getElem?_set_ne (Ne.symm hnm)] at hn
          have hnone := ih n c hn hk
          cases pc with
          | check => simp only [AddCall.step]; split <;> exact hnone
          | create =>
            simp only [AddCall.step, Dict.get?_set]
            split
            · exfalso
              rename_i hk'
              have hx : (c, AddPC.create) ∈ s.threads.filter (fun x => decide (x.1.key = key)) :=
                List.mem_filter.mpr ⟨List.mem_of_getElem? hn, by simp [hk]⟩
              have hno : ∀ c0, (c0, AddPC.done) ∈ s.threads → c0.key ≠ key := by
                intro c0 h0 hk0
                obtain ⟨i, hi⟩ := hp.known c0 _ h0 (.inl rfl)
                rw [hk0, hnone] at hi
                cases hi
              obtain ⟨a, rest, hf⟩ : ∃ a rest, s.threads.filter (fun x => decide (x.1.key = key)) = a :: rest := by
                cases hf : s.threads.filter (fun x => decide (x.1.key = key)) with
                | nil => rw [hf] at hx; cases hx
                | cons a rest => exact ⟨a, rest, rfl⟩
              have ha : a ∈ s.threads ∧ a.1.key = key := by
                have : a ∈ s.threads.filter (fun x => decide (x.1.key = key)) := by rw [hf]; simp
                simpa using List.mem_filter.mp this
              have hrest : rest ≠ [] := by
                rintro rfl
                have h2 : 2 ≤ (s.threads.filter (fun x => decide (x.1.key = key))).length := by
                  rw [← List.countP_eq_length_filter]
                  have key2 : ∀ (l : List (AddCall K T R × AddPC)) (n m : Nat) (p : AddCall K T R × AddPC → Bool) (x y : AddCall K T R × AddPC),
                      n ≠ m → l[n]? = some x → l[m]? = some y → p x = true → p y = true → 2 ≤ l.countP p := by
                    intro l
                    induction l with
                    | nil => intro n m p x y _ h; simp at h
                    | cons b l ih =>
                      intro n m p x y hne h1 h2 p1 p2
                      rw [List.countP_cons]
                      cases n with
                      | zero =>
                        cases m with
                        | zero => exact absurd rfl hne
                        | succ m =>
                          simp at h1 h2
                          subst h1
                          have : 0 < l.countP p := List.countP_pos_iff.mpr ⟨y, List.mem_of_getElem? h2, p2⟩
                          simp only [p1, if_true]; omega
                      | succ n =>
                        simp at h1
                        cases m with
                        | zero =>
                          simp at h2
                          subst h2
                          have : 0 < l.countP p := List.countP_pos_iff.mpr ⟨x, List.mem_of_getElem? h1, p1⟩
                          simp only [p2, if_true]; omega
                        | succ m =>
                          simp at h2
                          have := ih n m p x y (by omega) h1 h2 p1 p2
                          omega
                  exact key2 s.threads n m _ _ _ hnm hn hm (by simp [hk]) (by simp [hk'])
                rw [hf] at h2; simp at h2
              have hd := hfirst a rest hf hrest
              obtain ⟨a1, a2⟩ := a
              simp only at hd
              subst hd
              exact hno a1 ha.1 ha.2
            · exact hnone
          | load => simp only [AddCall.step]; split <;> exact hnone
          | append j => exact hnone
          | done => exact hnone
          | failed e => exact hnone

theorem firstAlone_stays {key : K} {es : List (LexEvent K T R)} {e : LexEvent K T R} (h : FirstAlone key (es ++ [e])) (i : Nat)
    (hi : Dict.get? (LexThreads.after es).lexicon.data key = some i) :
    Dict.get? (LexThreads.after (es ++ [e])).lexicon.data key = some i := by
  rw [LexThreads.after_snoc]
  obtain ⟨j, hj, rfl | ⟨n, c, hn, hk⟩⟩ := LexThreads.step_known_key _ e key i hi
  · exact hj
  · rw [firstAlone_create (firstAlone_snoc h) n c hn hk] at hi; cases hi

end

section
variable {K T R : Type} [DecidableEq K] [DecidableEq R]

theorem additions_append (a b : List (AskEvent K T R)) : additions (a ++ b) = additions a ++ additions b := by
  induction a with
  | nil => rfl
  | cons e a ih => cases e <;> simp [additions, ih]

theorem requestsFrom_append (n : Nat) (a b : List (AskEvent K T R)) :
    requestsFrom n (a ++ b) = requestsFrom n a ++ requestsFrom (n + a.length) b := by
  induction a generalizing n with
  | nil => simp [requestsFrom]
  | cons e a ih =>
    have : n + (a.length + 1) = n + 1 + a.length := by omega
    cases e <;> simp [requestsFrom, ih, this]

theorem Asking.after_snoc (es : List (AskEvent K T R)) (e : AskEvent K T R) :
    Asking.after (es ++ [e]) = (Asking.after es).step e := by
  simp [Asking.after, List.foldl_append]

theorem Asking.after_lex (es : List (AskEvent K T R)) : (Asking.after es).lex = LexThreads.after (additions es) := by
  induction es using List.reverseRecOn with
  | nil => rfl
  | append_singleton es e ih =>
    rw [Asking.after_snoc, additions_append]
    cases e with
    | lex e => simp [Asking.step, additions, ih, LexThreads.after_snoc]
    | ask q => simpa [Asking.step, additions] using ih
    | turn i => simpa [Asking.step, additions] using ih

theorem lexAt_snoc (es : List (AskEvent K T R)) (e : AskEvent K T R) {k : Nat} (h : k ≤ es.length) : lexAt (es ++ [e]) k = lexAt es k := by
  unfold lexAt; rw [List.take_append_of_le_length h]

theorem lexAt_now (es : List (AskEvent K T R)) : lexAt es es.length = (Asking.after es).lex := by
  unfold lexAt; rw [List.take_length, Asking.after_lex]

theorem additions_take (events : List (AskEvent K T R)) (k : Nat) : ∃ rest, additions events = additions (events.take k) ++ rest :=
  ⟨additions (events.drop k), by rw [← additions_append, List.take_append_drop]⟩

theorem lexAt_succ (events : List (AskEvent K T R)) (k : Nat) : lexAt events (k + 1) = lexAt events k ∨
    ∃ e rest, lexAt events (k + 1) = (lexAt events k).step e ∧ additions events = additions (events.take k) ++ [e] ++ rest := by
  unfold lexAt
  rcases Nat.lt_or_ge k events.length with h | h
  · have ht : events.take (k + 1) = events.take k ++ [events[k]] := by rw [List.take_succ_eq_append_getElem h]
    obtain ⟨rest, hr⟩ := additions_take events (k + 1)
    rw [ht, additions_append] at hr
    rw [ht, additions_append]
    cases he : events[k] with
    | lex e => right; rw [he] at hr; exact ⟨e, rest, by simp [additions, LexThreads.after_snoc], by simpa [additions] using hr⟩
    | ask q => left; simp [additions]
    | turn i => left; simp [additions]
  · left; rw [List.take_of_length_le h, List.take_of_length_le (by omega)]

theorem lexAt_grows (events : List (AskEvent K T R)) (k m : Nat) (h : k ≤ m) (i : Nat) (l : List (T × Finset R))
    (hl : (lexAt events k).lexicon.lists[i]? = some l) : ∃ l', (lexAt events m).lexicon.lists[i]? = some l' ∧ l <+: l' := by
  induction m, h using Nat.le_induction with
  | base => exact ⟨l, hl, List.prefix_rfl⟩
  | succ m _ ih =>
    obtain ⟨l', h1, h2⟩ := ih
    rcases lexAt_succ events m with he | ⟨e, rest, he, -⟩
    · rw [he]; exact ⟨l', h1, h2⟩
    · rw [he]
      obtain ⟨l'', h3, h4⟩ := LexThreads.step_grows _ e i l' h1
      exact ⟨l'', h3, h2.trans h4⟩

theorem lexAt_known (events : List (AskEvent K T R)) (k m : Nat) (h : k ≤ m) (key : K)
    (hk : ∃ i, Dict.get? (lexAt events k).lexicon.data key = some i) : ∃ i, Dict.get? (lexAt events m).lexicon.data key = some i := by
  induction m, h using Nat.le_induction with
  | base => exact hk
  | succ m _ ih =>
    obtain ⟨i, hi⟩ := ih
    rcases lexAt_succ events m with he | ⟨e, rest, he, -⟩
    · rw [he]; exact ⟨i, hi⟩
    · rw [he]
      obtain ⟨j, hj, -⟩ := LexThreads.step_known_key _ e key i hi
      exact ⟨j, hj⟩

theorem lexAt_stays (events : List (AskEvent K T R)) (k m : Nat) (h : k ≤ m) (key : K) (hf : FirstAlone key (additions events)) (i : Nat)
    (hi : Dict.get? (lexAt events k).lexicon.data key = some i) : Dict.get? (lexAt events m).lexicon.data key = some i := by
  induction m, h using Nat.le_induction with
  | base => exact hi
  | succ m _ ih =>
    rcases lexAt_succ events m with he | ⟨e, rest, he, hr⟩
    · rw [he]; exact ih
    · rw [he]
      have hf' : FirstAlone key (additions (events.take m) ++ [e]) := fun b l hb => hf b (l ++ rest) (by rw [hr, hb, List.append_assoc])
      have := firstAlone_stays hf' i ih
      rwa [LexThreads.after_snoc] at this

/-- Where a request is. -/
def Request.Where (events : List (AskEvent K T R)) (start : Nat) (q : Request K R) : AskPC T R → Prop
  | .check => True
  | .load => ∃ i, Dict.get? (lexAt events events.length).lexicon.data q.key = some i
  | .scan none _ => False
  | .scan (some i) seen => ∃ k, start < k ∧ k < events.length ∧ Dict.get? (lexAt events k).lexicon.data q.key = some i ∧
      ∃ l, (lexAt events events.length).lexicon.lists[i]? = some l ∧ seen <+: l
  | .done r => (r = .error .UnknownLexiconKeyError ∧ ∃ k, start < k ∧ k < events.length ∧
        Dict.get? (lexAt events k).lexicon.data q.key = none) ∨
      ∃ k m i l, start < k ∧ k ≤ m ∧ m < events.length ∧ Dict.get? (lexAt events k).lexicon.data q.key = some i ∧
        (lexAt events m).lexicon.lists[i]? = some l ∧ r = q.answer [(q.key, l)]

theorem Request.where_snoc {events : List (AskEvent K T R)} {start : Nat} {q : Request K R} {pc : AskPC T R}
    (h : q.Where events start pc) (e : AskEvent K T R) : q.Where (events ++ [e]) start pc := by
  have hlen : (events ++ [e]).length = events.length + 1 := by simp
  have hnow : lexAt (events ++ [e]) events.length = lexAt events events.length := lexAt_snoc _ _ le_rfl
  cases pc with
  | check => trivial
  | load =>
    unfold Request.Where at h ⊢
    rw [← hnow] at h
    exact lexAt_known _ _ _ (by omega) _ h
  | scan o seen =>
    cases o with
    | none => exact h
    | some i =>
      obtain ⟨k, h1, h2, h3, l, h4, h5⟩ := h
      rw [← hnow] at h4
      obtain ⟨l', h6, h7⟩ := lexAt_grows (events ++ [e]) events.length (events ++ [e]).length (by omega) i l h4
      exact ⟨k, h1, by omega, by rw [lexAt_snoc _ _ h2.le]; exact h3, l', h6, h5.trans h7⟩
  | done r =>
    rcases h with ⟨h, k, h1, h2, h3⟩ | ⟨k, m, i, l, h1, h2, h3, h4, h5, h6⟩
    · exact .inl ⟨h, k, h1, by omega, by rw [lexAt_snoc _ _ h2.le]; exact h3⟩
    · exact .inr ⟨k, m, i, l, h1, h2, by omega, by rw [lexAt_snoc _ _ (by omega)]; exact h4, by rw [lexAt_snoc _ _ h3.le]; exact h5, h6⟩

theorem Request.where_step {events : List (AskEvent K T R)} {start n : Nat} {q : Request K R} {pc : AskPC T R}
    (h : q.Where events start pc) (hs : start < events.length) :
    q.Where (events ++ [.turn n]) start (q.step (Asking.after events).lex.lexicon pc) := by
  have hlen : (events ++ [AskEvent.turn n]).length = events.length + 1 := by simp
  have hnow : lexAt (events ++ [AskEvent.turn n]) events.length = (Asking.after events).lex := by
    rw [lexAt_snoc _ _ le_rfl, lexAt_now]
  have hend : lexAt (events ++ [AskEvent.turn n]) (events ++ [AskEvent.turn n]).length = (Asking.after events).lex := by
    rw [lexAt_now, Asking.after_snoc]; rfl
  have h0 := Request.where_snoc h (.turn n)
  cases pc with
  | check =>
    simp only [Request.step]
    split
    · rename_i hc
      unfold Request.Where
      rw [hend]
      exact contains_iff_get?.mp hc
    · rename_i hc
      refine .inl ⟨rfl, events.length, hs, by omega, ?_⟩
      rw [hnow]
      cases hd : Dict.get? (Asking.after events).lex.lexicon.data q.key with
      | none => rfl
      | some j => exact absurd (contains_iff_get?.mpr ⟨j, hd⟩) hc
  | load =>
    unfold Request.Where at h
    rw [lexAt_now] at h
    obtain ⟨i, hi⟩ := h
    simp only [Request.step, hi]
    have hr : i < (Asking.after events).lex.lexicon.lists.length := by
      rw [Asking.after_lex] at hi ⊢
      exact (LexThreads.after_good _).range _ _ hi
    exact ⟨events.length, hs, by omega, by rw [hnow]; exact hi, _, by rw [hend]; exact List.getElem?_eq_getElem hr, List.nil_prefix⟩
  | scan o seen =>
    cases o with
    | none => exact h.elim
    | some i =>
      obtain ⟨k, h1, h2, h3, l, h4, h5⟩ := h
      rw [lexAt_now] at h4
      simp only [Request.step, h4, Option.getD_some]
      cases hg : l[seen.length]? with
      | some pair =>
        refine ⟨k, h1, by omega, by rw [lexAt_snoc _ _ h2.le]; exact h3, l, by rw [hend]; exact h4, ?_⟩
        obtain ⟨t, rfl⟩ := h5
        rw [List.getElem?_append_right le_rfl] at hg
        cases t with
        | nil => simp at hg
        | cons a t => simp at hg; subst hg; exact ⟨t, by simp⟩
      | none =>
        have : seen = l := by
          obtain ⟨t, rfl⟩ := h5
          rw [List.getElem?_append_right le_rfl] at hg
          cases t with
          | nil => simp
          | cons a t => simp at hg
        subst this
        exact .inr ⟨k, events.length, i, seen, h1, h2.le, by omega, by rw [lexAt_snoc _ _ h2.le]; exact h3, by rw [hnow]; exact h4, rfl⟩
  | done r => exact h0

theorem Asking.after_where (es : List (AskEvent K T R)) :
    List.Forall₂ (fun (call : Nat × Request K R) x => call.1 < es.length ∧ x.1 = call.2 ∧ x.1.Where es call.1 x.2)
      (requestsFrom 0 es) (Asking.after es).asks := by
  induction es using List.reverseRecOn with
  | nil => exact .nil
  | append_singleton es e ih =>
    have ih' : List.Forall₂ (fun (call : Nat × Request K R) x =>
        call.1 < (es ++ [e]).length ∧ x.1 = call.2 ∧ x.1.Where (es ++ [e]) call.1 x.2) (requestsFrom 0 es) (Asking.after es).asks :=
      ih.imp fun call c h => ⟨by simp; omega, h.2.1, Request.where_snoc h.2.2 e⟩
    rw [Asking.after_snoc, requestsFrom_append]
    cases e with
    | lex e => simpa [requestsFrom, Asking.step] using ih'
    | ask q =>
      simp only [requestsFrom, Asking.step, Nat.zero_add]
      exact List.rel_append (R := _) ih' (.cons ⟨by simp, rfl, trivial⟩ .nil)
    | turn i =>
      simp only [requestsFrom, Asking.step, List.append_nil]
      rw [List.forall₂_iff_get] at ih ih' ⊢
      refine ⟨by simpa using ih.1, fun j h1 h2 => ?_⟩
      have h2' : j < (Asking.after es).asks.length := by simpa using h2
      have a := ih.2 j h1 h2'
      have b := ih'.2 j h1 h2'
      simp only [List.get_eq_getElem, List.getElem_modify] at a b ⊢
      split
      · exact ⟨b.1, b.2.1, Request.where_step a.2.2 a.1⟩
      · exact b

theorem snapshot_get? (l : SharedLexicon K T R) (key : K) :
    Dict.get? (snapshot l) key = (Dict.get? l.data key).map fun i => l.lists[i]?.getD [] := by
  obtain ⟨lists, data⟩ := l
  unfold snapshot
  simp only
  induction data with
  | nil => rfl
  | cons p data ih =>
    simp only [List.map_cons, Dict.get?] at ih ⊢
    split <;> simp_all

theorem Request.answer_congr (q : Request K R) (l l' : Lexicon K T R) (h : Dict.get? l q.key = Dict.get? l' q.key) :
    q.answer l = q.answer l' := by
  have hc : Dict.contains l q.key = Dict.contains l' q.key := by
    rw [Bool.eq_iff_iff, contains_iff_get?, contains_iff_get?, h]
  unfold Request.answer Lexicon.getRandomNearestTemplate Lexicon.getRandomTemplate Lexicon.getNearestTemplates Lexicon.getTemplates
  simp only [h, hc]

theorem Request.answer_unknown (q : Request K R) (l : Lexicon K T R) (h : Dict.get? l q.key = none) :
    q.answer l = .error .UnknownLexiconKeyError := by
  have hc : Dict.contains l q.key = false := by
    rw [Bool.eq_false_iff, ne_eq, contains_iff_get?, h]; simp
  unfold Request.answer Lexicon.getRandomNearestTemplate Lexicon.getRandomTemplate
  simp [hc]

/-- What a request gives for the pairs it has seen. -/
theorem Request.answer_seen (q : Request K R) (seen : List (T × Finset R)) :
    (q.answer [(q.key, seen)] = .error .NoTemplatesWithSpecifiedRestrictions ∧ ∀ p ∈ seen, ¬ p.2 ⊆ q.restrictions) ∨
    ∃ p ∈ seen, p.2 ⊆ q.restrictions ∧ q.answer [(q.key, seen)] = .ok p.1 ∧
      (q.nearest = true → ∀ p' ∈ seen, p'.2 ⊆ q.restrictions → p'.2.card ≤ p.2.card) := by
  cases hs : seen with
  | nil =>
    left
    refine ⟨?_, by simp⟩
    unfold Request.answer Lexicon.getRandomNearestTemplate Lexicon.getRandomTemplate Lexicon.getNearestTemplates Lexicon.getTemplates
    simp [Dict.contains, Dict.get?]
  | cons a rest =>
    rw [← hs]
    have hne : seen ≠ [] := by rw [hs]; simp
    obtain ⟨calls, hcalls⟩ : ∃ calls : List (Added K T R), calls = seen.map fun p => ⟨q.key, p.1, p.2⟩ := ⟨_, rfl⟩
    have hget : Dict.get? (lexiconOf calls) q.key = some seen := by
      have h1 := lexiconOf_getD calls q.key
      have h2 := lexiconOf_contains calls q.key
      have hc : ∃ c ∈ calls, c.key = q.key := by
        rw [hcalls, hs]; exact ⟨⟨q.key, a.1, a.2⟩, by simp, rfl⟩
      have h3 : Dict.contains (lexiconOf calls) q.key = true := by rw [h2]; simpa using hc
      obtain ⟨l, hl⟩ := contains_iff_get?.mp h3
      rw [hl] at h1 ⊢
      simp only [Option.getD_some] at h1
      rw [h1, hcalls, List.filter_map, List.map_map, List.filter_eq_self.mpr (by simp)]
      simp [Function.comp_def]
    have hans : q.answer [(q.key, seen)] = q.answer (lexiconOf calls) := by
      refine Request.answer_congr q _ _ ?_
      rw [hget]; simp [Dict.get?]
    rw [hans]
    have hmem : ∀ c, c ∈ calls ↔ ∃ p ∈ seen, (⟨q.key, p.1, p.2⟩ : Added K T R) = c := by
      intro c; rw [hcalls]; simp
    have hcase : (∃ c ∈ calls, Applicable q.key q.restrictions c) ∨ ¬ ∃ c ∈ calls, Applicable q.key q.restrictions c := em _
    rcases hcase with hex | hex
    · right
      unfold Request.answer
      by_cases hn : q.nearest = true
      · simp only [hn, if_true]
        obtain ⟨c, hc, hm, he⟩ := (C33_nearest_template calls q.key q.restrictions).1 q.draw hex
        obtain ⟨p, hp, rfl⟩ := (hmem c).mp hc
        refine ⟨p, hp, hm.1.2, he, fun _ p' hp' hsub => ?_⟩
        exact hm.2 _ ((hmem _).mpr ⟨p', hp', rfl⟩) ⟨rfl, hsub⟩
      · simp only [hn, if_false, Bool.false_eq_true]
        obtain ⟨c, hc, ha, he⟩ := (C32_random_template calls q.key q.restrictions).2.2.1 q.draw hex
        obtain ⟨p, hp, rfl⟩ := (hmem c).mp hc
        exact ⟨p, hp, ha.2, he, fun h => absurd h (by simp)⟩
    · left
      have hall : ∀ c ∈ calls, ¬ Applicable q.key q.restrictions c := fun c hc ha => hex ⟨c, hc, ha⟩
      have hsome : ∃ c ∈ calls, c.key = q.key := by
        rw [hcalls, hs]; exact ⟨⟨q.key, a.1, a.2⟩, by simp, rfl⟩
      have he := ((C32_random_template calls q.key q.restrictions).2.1 q.draw).mpr ⟨hsome, hall⟩
      constructor
      · unfold Request.answer
        split
        · exact (C33_same_errors calls q.key q.restrictions q.draw q.draw _).mpr he
        · exact he
      · intro p hp hsub
        exact hall ⟨q.key, p.1, p.2⟩ ((hmem _).mpr ⟨p, hp, rfl⟩) ⟨rfl, hsub⟩

theorem entries_of_get {l : SharedLexicon K T R} {key : K} {i : Nat} (h : Dict.get? l.data key = some i) :
    l.entries key = l.lists[i]?.getD [] := by
  unfold SharedLexicon.entries; rw [h]

/-- The templates of finished calls stay finished. -/
theorem finishedFor_lexAt (events : List (AskEvent K T R)) (k m : Nat) (h : k ≤ m) (key : K) :
    (finishedFor key (lexAt events k).threads).Subperm (finishedFor key (lexAt events m).threads) := by
  induction m, h using Nat.le_induction with
  | base => exact List.Subperm.refl _
  | succ m _ ih =>
    rcases lexAt_succ events m with he | ⟨e, rest, he, -⟩
    · rw [he]; exact ih
    · rw [he]
      refine ih.trans ?_
      generalize lexAt events m = s
      cases e with
      | call c => simp [LexThreads.step, finishedFor, List.Subperm.refl]
      | run i =>
        simp only [LexThreads.step]
        cases hi : s.threads[i]? with
        | none => exact List.Subperm.refl _
        | some x =>
          obtain ⟨c, pc⟩ := x
          simp only
          unfold finishedFor
          by_cases hd : pc = .done
          · subst hd
            rw [show (c.step s.lexicon AddPC.done).1 = AddPC.done from rfl, filterMap_set_none hi rfl]
          · by_cases hd' : (c.step s.lexicon pc).1 = .done ∧ c.key = key
            · exact ((List.sublist_append_left _ _).subperm).trans (filterMap_set_some (b := (c.template, c.restrictions)) hi (by simp [hd])
                (by simp [hd'])).symm.subperm
            · rw [filterMap_set_none hi (by simp only [hd, and_false, if_false]; rw [if_neg]; tauto)]

/-- A call for the key has finished, so the key is known. -/
theorem known_of_finished (events : List (LexEvent K T R)) (key : K) (h : Dict.get? (LexThreads.after events).lexicon.data key = none) :
    finishedFor key (LexThreads.after events).threads = [] := by
  have hp := LexThreads.after_promised events
  unfold finishedFor
  rw [List.filterMap_eq_nil_iff]
  rintro ⟨c, pc⟩ hc
  rw [if_neg]
  rintro ⟨rfl, hpc⟩
  obtain ⟨i, hi⟩ := hp.known c pc hc (.inl hpc)
  rw [h] at hi; cases hi

theorem finished_request {events : List (AskEvent K T R)} {i start : Nat} {q : Request K R} {r : Except PyErr T}
    (hcall : (requestsFrom 0 events)[i]? = some (start, q)) (hr : (Asking.after events).asks[i]? = some (q, .done r)) :
    q.Where events start (.done r) := by
  have h := Asking.after_where events
  rw [List.forall₂_iff_get] at h
  obtain ⟨l1, g1⟩ := List.getElem?_eq_some_iff.mp hcall
  obtain ⟨l2, g2⟩ := List.getElem?_eq_some_iff.mp hr
  have := h.2 i l1 l2
  simp only [List.get_eq_getElem, g1, g2] at this
  exact this.2.2

/-- The list seen holds templates of finished calls. -/
theorem seen_finished (events : List (AskEvent K T R)) (k m : Nat) (h : k ≤ m) (key : K) (i : Nat) (l : List (T × Finset R))
    (hi : Dict.get? (lexAt events k).lexicon.data key = some i) (hl : (lexAt events m).lexicon.lists[i]? = some l) :
    l.Subperm (finishedFor key (lexAt events m).threads) ∧ (lexAt events k).lexicon.entries key <+: l := by
  have hlt := (LexThreads.after_good _).range _ _ hi
  constructor
  · -- the owner of the list does not change
    have key' : ∀ n, ∃ owner, (lexAt events n).Owned owner := fun n => LexThreads.after_owned _
    have : ∃ owner, (lexAt events m).Owned owner ∧ owner[i]? = some key := by
      revert hl
      induction m, h using Nat.le_induction generalizing l with
      | base =>
        intro _
        obtain ⟨o, ho⟩ := key' k
        exact ⟨o, ho, ho.data _ _ hi⟩
      | succ m hm ih =>
        intro _
        obtain ⟨l', h1, -⟩ := lexAt_grows events k m hm i _ (List.getElem?_eq_getElem hlt)
        obtain ⟨o, ho, hoi⟩ := ih l' h1
        rcases lexAt_succ events m with he | ⟨e, rest, he, -⟩
        · rw [he]; exact ⟨o, ho, hoi⟩
        · rw [he]
          obtain ⟨o', ho', hpre⟩ := LexThreads.step_owned_prefix ho e
          refine ⟨o', ho', ?_⟩
          obtain ⟨t, rfl⟩ := hpre
          rw [List.getElem?_append_left (List.getElem?_eq_some_iff.mp hoi).1]; exact hoi
    obtain ⟨o, ho, hoi⟩ := this
    exact (sublist_listsOf hoi hl).subperm.trans (ho.all key).subperm
  · rw [entries_of_get hi]
    have hget : (lexAt events k).lexicon.lists[i]? = some _ := List.getElem?_eq_getElem hlt
    obtain ⟨l', h1, h2⟩ := lexAt_grows events k m h i _ hget
    rw [hl] at h1
    injection h1 with h1
    subst h1
    rw [hget]
    exact h2

/-- C109: in every interleaving with calls of `add_template`, a template that a finished request has returned was added for its key by
a finished call, with restrictions that are among those of the request; and for `get_random_nearest_template` no applicable template
that the key had at some moment during the request has more restrictions. -/
theorem C109_served (events : List (AskEvent K T R)) (i start : Nat) (q : Request K R) (t : T)
    (hcall : (requestsFrom 0 events)[i]? = some (start, q)) (hr : (Asking.after events).asks[i]? = some (q, .done (.ok t))) :
    ∃ rs, (t, rs) ∈ finishedFor q.key (Asking.after events).lex.threads ∧ rs ⊆ q.restrictions ∧
      (q.nearest = true → ∃ k, start < k ∧ k < events.length ∧
        ∀ p ∈ (lexAt events k).lexicon.entries q.key, p.2 ⊆ q.restrictions → p.2.card ≤ rs.card) := by
  rcases finished_request hcall hr with ⟨h, -⟩ | ⟨k, m, j, l, h1, h2, h3, h4, h5, h6⟩
  · cases h
  · obtain ⟨s1, s2⟩ := seen_finished events k m h2 q.key j l h4 h5
    rcases q.answer_seen l with ⟨ha, -⟩ | ⟨p, hp, hsub, ha, hn⟩
    · rw [ha] at h6; cases h6
    · rw [ha] at h6
      injection h6 with h6
      subst h6
      refine ⟨p.2, ?_, hsub, fun hq => ⟨k, h1, by omega, fun p' hp' => hn hq p' (s2.subset hp')⟩⟩
      have := (s1.trans (finishedFor_lexAt events m events.length h3.le q.key)).subset hp
      rwa [lexAt_now] at this

/-- C109: a request fails in two ways only. It raises `UnknownLexiconKeyError` only if no call for its key had finished when the request
began, and `NoTemplatesWithSpecifiedRestrictions` only if at some moment during the request the key had no applicable template. -/
theorem C109_errors (events : List (AskEvent K T R)) (i start : Nat) (q : Request K R) (e : PyErr)
    (hcall : (requestsFrom 0 events)[i]? = some (start, q)) (hr : (Asking.after events).asks[i]? = some (q, .done (.error e))) :
    (e = .UnknownLexiconKeyError ∧ finishedFor q.key (lexAt events start).threads = []) ∨
    (e = .NoTemplatesWithSpecifiedRestrictions ∧ ∃ k, start < k ∧ k < events.length ∧
      ∀ p ∈ (lexAt events k).lexicon.entries q.key, ¬ p.2 ⊆ q.restrictions) := by
  rcases finished_request hcall hr with ⟨h, k, h1, h2, h3⟩ | ⟨k, m, j, l, h1, h2, h3, h4, h5, h6⟩
  · injection h with h
    refine .inl ⟨h, ?_⟩
    have hk := known_of_finished _ _ h3
    have hsub := finishedFor_lexAt events start k h1.le q.key
    have hk' : finishedFor q.key (lexAt events k).threads = [] := hk
    rw [hk'] at hsub
    exact List.subperm_nil.mp hsub
  · right
    obtain ⟨s1, s2⟩ := seen_finished events k m h2 q.key j l h4 h5
    rcases q.answer_seen l with ⟨ha, hno⟩ | ⟨p, hp, hsub, ha, hn⟩
    · rw [ha] at h6
      injection h6 with h6
      exact ⟨h6, k, h1, by omega, fun p hp => hno p (s2.subset hp)⟩
    · rw [ha] at h6; cases h6

/-- C109: if calls for the key do not overlap with the first one, a request gives what it would give for the lexicon at one moment
between its beginning and its end. -/
theorem C109_one_moment (events : List (AskEvent K T R)) (i start : Nat) (q : Request K R) (r : Except PyErr T)
    (hcall : (requestsFrom 0 events)[i]? = some (start, q)) (hr : (Asking.after events).asks[i]? = some (q, .done r))
    (hf : FirstAlone q.key (additions events)) :
    ∃ m, start < m ∧ m < events.length ∧ r = q.answer (snapshot (lexAt events m).lexicon) := by
  rcases finished_request hcall hr with ⟨rfl, k, h1, h2, h3⟩ | ⟨k, m, j, l, h1, h2, h3, h4, h5, h6⟩
  · exact ⟨k, h1, h2, (Request.answer_unknown q _ (by rw [snapshot_get?, h3]; rfl)).symm⟩
  · refine ⟨m, by omega, h3, ?_⟩
    rw [h6]
    apply Request.answer_congr
    rw [snapshot_get?, lexAt_stays events k m h2 q.key hf j h4, Option.map_some, h5]
    simp [Dict.get?]

/-- How many steps a request still needs if at most `n` templates are added. -/
def AskPC.rest (n : Nat) : AskPC T R → Nat
  | .check => n + 3
  | .load => n + 2
  | .scan _ seen => n + 1 - seen.length
  | .done _ => 0

theorem threads_length (es : List (AskEvent K T R)) : (Asking.after es).lex.threads.length = additionsBegun es := by
  induction es using List.reverseRecOn with
  | nil => rfl
  | append_singleton es e ih =>
    have happ : additionsBegun (es ++ [e]) = additionsBegun es + additionsBegun [e] := by
      clear ih
      induction es with
      | nil => simp [additionsBegun]
      | cons a es ih =>
        cases a with
        | lex a => cases a <;> simp [additionsBegun, ih]; omega
        | ask q => simpa [additionsBegun] using ih
        | turn i => simpa [additionsBegun] using ih
    rw [Asking.after_snoc, happ]
    cases e with
    | ask q => simpa [Asking.step, additionsBegun] using ih
    | turn i => simpa [Asking.step, additionsBegun] using ih
    | lex e =>
      cases e with
      | call c => simp [Asking.step, LexThreads.step, additionsBegun, ih]
      | run i =>
        simp only [Asking.step, LexThreads.step, additionsBegun]
        cases (Asking.after es).lex.threads[i]? with
        | none => simpa using ih
        | some x => simpa using ih

theorem additionsBegun_append (a b : List (AskEvent K T R)) : additionsBegun a ≤ additionsBegun (a ++ b) := by
  induction a with
  | nil => exact Nat.zero_le _
  | cons e a ih =>
    cases e with
    | lex e => cases e <;> simp [additionsBegun, ih]
    | ask q => simpa [additionsBegun] using ih
    | turn i => simpa [additionsBegun] using ih

/-- A step of a request is progress. -/
theorem Request.step_rest {es : List (AskEvent K T R)} {start : Nat} {q : Request K R} {pc : AskPC T R} (h : q.Where es start pc) (n : Nat)
    (hn : additionsBegun es ≤ n) : (q.step (Asking.after es).lex.lexicon pc).rest n ≤ pc.rest n - 1 := by
  cases pc with
  | check => simp only [Request.step]; split <;> simp [AskPC.rest]
  | load => simp [Request.step, AskPC.rest]
  | scan o seen =>
    cases o with
    | none => exact h.elim
    | some i =>
      obtain ⟨k, h1, h2, h3, l, h4, h5⟩ := h
      have hlen : l.length ≤ n := by
        have hs := (seen_finished es k es.length h2.le q.key i l h3 h4).1.length_le
        have : (finishedFor q.key (lexAt es es.length).threads).length ≤ (lexAt es es.length).threads.length := by
          unfold finishedFor; exact List.length_filterMap_le _ _
        rw [lexAt_now, threads_length] at this
        rw [lexAt_now] at hs
        omega
      rw [lexAt_now] at h4
      simp only [Request.step, h4, Option.getD_some]
      cases hg : l[seen.length]? with
      | some pair => simp [AskPC.rest]; omega
      | none => simp [AskPC.rest]
  | done r => simp [Request.step, AskPC.rest]

/-- C109: a request finishes after three steps and one for each template to be added, in every schedule. -/
theorem C109_finishes (before later : List (AskEvent K T R)) (q : Request K R)
    (h : additionsBegun (before ++ .ask q :: later) + 3 ≤ turnsAsked (requestsFrom 0 before).length later) :
    ∃ r, (Asking.after (before ++ .ask q :: later)).asks[(requestsFrom 0 before).length]? = some (q, .done r) := by
  obtain ⟨n, hn⟩ : ∃ n, n = (requestsFrom 0 before).length := ⟨_, rfl⟩
  obtain ⟨N, hN⟩ : ∃ N, N = additionsBegun (before ++ .ask q :: later) := ⟨_, rfl⟩
  have key : ∀ mid : List (AskEvent K T R), (∃ rest, later = mid ++ rest) →
      ∃ pc, (Asking.after (before ++ .ask q :: mid)).asks[n]? = some (q, pc) ∧ pc.rest N ≤ N + 3 - turnsAsked n mid := by
    intro mid
    induction mid using List.reverseRecOn with
    | nil =>
      intro _
      refine ⟨.check, ?_, by simp [AskPC.rest, turnsAsked]⟩
      rw [Asking.after_snoc]
      have := (Asking.after_where before).length_eq
      simp [Asking.step, hn, this]
    | append_singleton mid e ih =>
      rintro ⟨rest, hrest⟩
      obtain ⟨pc, h1, h2⟩ := ih ⟨e :: rest, by rw [hrest]; simp⟩
      have hturns : turnsAsked n (mid ++ [e]) = turnsAsked n mid + turnsAsked n [e] := by
        clear ih h1 h2 hrest
        induction mid with
        | nil => simp [turnsAsked]
        | cons a mid ih => cases a <;> simp [turnsAsked, ih]; omega
      rw [show before ++ AskEvent.ask q :: (mid ++ [e]) = (before ++ AskEvent.ask q :: mid) ++ [e] by simp, Asking.after_snoc, hturns]
      cases e with
      | lex e => exact ⟨pc, h1, by simpa [turnsAsked] using h2⟩
      | ask q' =>
        refine ⟨pc, ?_, by simpa [turnsAsked] using h2⟩
        simp only [Asking.step]
        rw [List.getElem?_append_left (List.getElem?_eq_some_iff.mp h1).1]; exact h1
      | turn j =>
        by_cases hj : j = n
        · subst hj
          refine ⟨q.step (Asking.after (before ++ .ask q :: mid)).lex.lexicon pc, by simp [Asking.step, List.getElem?_modify, h1], ?_⟩
          have hw := Asking.after_where (before ++ .ask q :: mid)
          rw [List.forall₂_iff_get] at hw
          obtain ⟨l2, g2⟩ := List.getElem?_eq_some_iff.mp h1
          have hw := hw.2 j (by rw [hw.1]; exact l2) l2
          simp only [List.get_eq_getElem, g2] at hw
          have hle : additionsBegun (before ++ .ask q :: mid) ≤ N := by
            rw [hN, hrest]
            have := additionsBegun_append (before ++ .ask q :: mid) ([AskEvent.turn j] ++ rest)
            simpa using this
          have := Request.step_rest hw.2.2 N hle
          simp only [turnsAsked, if_true]
          omega
        · exact ⟨pc, by simp [Asking.step, List.getElem?_modify, hj, h1], by simpa [turnsAsked, hj] using h2⟩
  obtain ⟨pc, h1, h2⟩ := key later ⟨[], by simp⟩
  rw [← hn, ← hN] at h
  have h0 : pc.rest N = 0 := by omega
  rw [← hn]
  cases pc with
  | check => simp [AskPC.rest] at h0
  | load => simp [AskPC.rest] at h0
  | scan o seen =>
    exfalso
    have hw := Asking.after_where (before ++ .ask q :: later)
    rw [List.forall₂_iff_get] at hw
    obtain ⟨l2, g2⟩ := List.getElem?_eq_some_iff.mp h1
    have hw := hw.2 n (by rw [hw.1]; exact l2) l2
    simp only [List.get_eq_getElem, g2] at hw
    have hw := hw.2.2
    cases o with
    | none => exact hw
    | some i =>
      obtain ⟨k, h1, h2, h3, l, h4, h5⟩ := hw
      have hs := (seen_finished _ k _ h2.le q.key i l h3 h4).1.length_le
      have hle : (finishedFor q.key (lexAt (before ++ .ask q :: later) (before ++ .ask q :: later).length).threads).length ≤
          (lexAt (before ++ .ask q :: later) (before ++ .ask q :: later).length).threads.length := by
        unfold finishedFor; exact List.length_filterMap_le _ _
      rw [lexAt_now, threads_length, ← hN] at hle
      rw [lexAt_now] at hs
      have := h5.length_le
      simp only [AskPC.rest] at h0
      omega
  | done r => exact ⟨r, h1⟩

/-- A template is added; another one is added while a request is in its loop, and the request sees it. -/
def exSeen : List (AskEvent Nat Nat Nat) :=
  [.lex (.call ⟨1, 10, ∅⟩), .lex (.run 0), .lex (.run 0), .lex (.run 0), .lex (.run 0), .ask ⟨true, 1, {5}, 0⟩, .turn 0, .turn 0,
   .lex (.call ⟨1, 20, {5}⟩), .lex (.run 1), .lex (.run 1), .lex (.run 1), .turn 0, .turn 0, .turn 0]

/-- The schedule is one C109 speaks about. -/
example : (requestsFrom 0 exSeen)[0]? = some (5, ⟨true, 1, {5}, 0⟩) := rfl

example : (Asking.after exSeen).asks[0]?.map Prod.snd = some (.done (.ok 20)) := by
  rfl

example : FirstAlone 1 (additions exSeen) := by
  intro before later h c rest hf hr
  have hb : before = (additions exSeen).take before.length := by rw [h]; simp
  have hl : before.length ∈ List.range 10 := by
    have := congrArg List.length h; simp [exSeen, additions] at this ⊢; omega
  have all : ∀ n ∈ List.range 10,
      ((LexThreads.after ((additions exSeen).take n)).threads.filter (fun x => decide (x.1.key = 1))).tail.isEmpty = true ∨
      ((LexThreads.after ((additions exSeen).take n)).threads.filter (fun x => decide (x.1.key = 1))).head?.map Prod.snd = some .done := by
    decide +kernel
  have := all _ hl
  rw [← hb, hf] at this
  simpa [hr] using this

/-- A request while the first template of a key is being added. -/
def exHalf : List (AskEvent Nat Nat Nat) :=
  [.lex (.call ⟨1, 10, ∅⟩), .lex (.run 0), .lex (.run 0), .ask ⟨false, 1, ∅, 0⟩, .turn 0, .turn 0, .turn 0, .lex (.run 0), .lex (.run 0)]

/-- C109: the moment can be between the two assignments of `add_template`: the key is known, but has no template. Neither before nor
after the call of `add_template` does the request give this error. -/
theorem C109_half_added : (Asking.after exHalf).asks[0]?.map Prod.snd = some (.done (.error .NoTemplatesWithSpecifiedRestrictions)) ∧
    (⟨false, 1, ∅, 0⟩ : Request Nat Nat).answer (snapshot (lexAt exHalf 0).lexicon) = .error .UnknownLexiconKeyError ∧
    (⟨false, 1, ∅, 0⟩ : Request Nat Nat).answer (snapshot (lexAt exHalf 9).lexicon) = .ok 10 := by
  refine ⟨by rfl, by rfl, by rfl⟩

end

end Utg
