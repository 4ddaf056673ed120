import Verif.Spec.Queries
import Verif.Props.DictThreads
import Verif.Props.Filling
/-!
# C114: asking a dictionary while words are added
-/

namespace Utg
open Py Spec

theorem registering_append (a b : List QueryEvent) : registering (a ++ b) = registering a ++ registering b := by
  induction a with
  | nil => rfl
  | cons e a ih => cases e <;> simp [registering, ih]

theorem asked_append (n : Nat) (a b : List QueryEvent) : asked n (a ++ b) = asked n a ++ asked (n + a.length) b := by
  induction a generalizing n with
  | nil => simp [asked]
  | cons e a ih =>
    have : n + (a.length + 1) = n + 1 + a.length := by omega
    cases e <;> simp [asked, ih, this]

theorem registering_mem {es : List QueryEvent} {e : DictEvent} (h : e ∈ registering es) : QueryEvent.dict e ∈ es := by
  induction es with
  | nil => simp [registering] at h
  | cons a es ih =>
    cases a with
    | dict a =>
      simp only [registering, List.mem_cons] at h ⊢
      rcases h with h | h
      · exact .inl (by rw [h])
      · exact .inr (ih h)
    | ask q => exact List.mem_cons_of_mem _ (ih h)
    | turn i => exact List.mem_cons_of_mem _ (ih h)

theorem Queries.after_snoc (d : Dictionary) (es : List QueryEvent) (e : QueryEvent) :
    Queries.after d (es ++ [e]) = (Queries.after d es).step e := by
  simp [Queries.after, List.foldl_append]

theorem Queries.after_dict (d : Dictionary) (es : List QueryEvent) : (Queries.after d es).dict = dictionaryAfter d (registering es) := by
  induction es using List.reverseRecOn with
  | nil => rfl
  | append_singleton es e ih =>
    rw [Queries.after_snoc, registering_append]
    cases e <;> simp [Queries.step, registering, ih, dictionaryAfter, List.foldl_append]

theorem dictionaryWhen_snoc (d : Dictionary) (es : List QueryEvent) (e : QueryEvent) {k : Nat} (h : k ≤ es.length) :
    dictionaryWhen d (es ++ [e]) k = dictionaryWhen d es k := by
  unfold dictionaryWhen; rw [List.take_append_of_le_length h]

theorem dictionaryWhen_now (d : Dictionary) (es : List QueryEvent) : (Queries.after d es).dict.dictionary = dictionaryWhen d es es.length := by
  unfold dictionaryWhen; rw [List.take_length, Queries.after_dict]

/-- A step of a registration keeps the texts in their order, and at most adds one at the end. -/
theorem regStep_keys (d : Dictionary) (t : Str) (f : WordForm) (pc : RegPC) : Dict.keys d <+: Dict.keys (regStep d t f pc).2 := by
  cases pc with
  | put =>
    simp only [regStep, Dict.keys_set]
    split
    · exact List.prefix_rfl
    · exact List.prefix_append _ _
  | check => simp only [regStep]; split <;> exact List.prefix_rfl
  | compare => simp only [regStep]; split <;> try split
               all_goals exact List.prefix_rfl
  | done => exact List.prefix_rfl
  | failed e => exact List.prefix_rfl

theorem foldl_keys (es : List DictEvent) (s : DictThreads) : Dict.keys s.dictionary <+: Dict.keys (es.foldl DictThreads.step s).dictionary := by
  induction es generalizing s with
  | nil => exact List.prefix_rfl
  | cons e es ih =>
    refine List.IsPrefix.trans ?_ (ih _)
    cases e with
    | register => exact List.prefix_rfl
    | run i =>
      simp only [DictThreads.step]
      cases s.threads[i]? with
      | none => exact List.prefix_rfl
      | some c => exact regStep_keys _ _ _ _

theorem dictionaryWhen_keys (d : Dictionary) (events : List QueryEvent) {n k : Nat} (hk : n ≤ k) :
    Dict.keys (dictionaryWhen d events n) <+: Dict.keys (dictionaryWhen d events k) := by
  have : events.take k = events.take n ++ (events.drop n).take (k - n) := by
    rw [← List.take_add]; congr 1; omega
  unfold dictionaryWhen
  rw [this, registering_append, dictionaryAfter, dictionaryAfter, List.foldl_append]
  exact foldl_keys _ _

theorem dictionaryWhen_length (d : Dictionary) (events : List QueryEvent) {n k : Nat} (hk : n ≤ k) :
    (dictionaryWhen d events n).length ≤ (dictionaryWhen d events k).length := by
  have := (dictionaryWhen_keys d events hk).length_le
  simpa [Dict.length_keys] using this

theorem dictionaryWhen_known (d : Dictionary) (events : List QueryEvent) {n k : Nat} (hk : n ≤ k) {x : Str}
    (h : (dictionaryWhen d events n).hasWord x = true) : (dictionaryWhen d events k).hasWord x = true := by
  rw [Dictionary.hasWord, Dict.contains_iff] at h ⊢
  exact (dictionaryWhen_keys d events hk).subset h

theorem regStep_proper {d : Dictionary} (hd : ProperDictionary d) (t : Str) (f : WordForm) (hf : Accepted f.word) (pc : RegPC) :
    ProperDictionary (regStep d t f pc).2 := by
  cases pc with
  | put =>
    refine ⟨Dict.nodup_set hd.1 _ _, ?_⟩
    intro x g hm
    have hg := Dict.get?_of_mem (Dict.nodup_set hd.1 t f) hm
    rw [Dict.get?_set] at hg
    split at hg
    · injection hg with hg; rwa [← hg]
    · exact hd.2 x g (Dict.mem_of_get? hg)
  | check => simp only [regStep]; split <;> exact hd
  | compare => simp only [regStep]; split <;> try split
               all_goals exact hd
  | done => exact hd
  | failed e => exact hd

theorem foldl_proper (es : List DictEvent) (s : DictThreads) (hs : ProperDictionary s.dictionary) (ht : ∀ c ∈ s.threads, Accepted c.1.2.word)
    (he : ∀ x f, DictEvent.register x f ∈ es → Accepted f.word) : ProperDictionary (es.foldl DictThreads.step s).dictionary := by
  induction es generalizing s with
  | nil => exact hs
  | cons e es ih =>
    have he' : ∀ x f, DictEvent.register x f ∈ es → Accepted f.word := fun x f h => he x f (List.mem_cons_of_mem _ h)
    cases e with
    | register x f =>
      refine ih _ hs ?_ he'
      intro c hc
      rcases List.mem_append.mp hc with hc | hc
      · exact ht c hc
      · rw [List.mem_singleton.mp hc]; exact he x f (by simp)
    | run i =>
      simp only [List.foldl_cons, DictThreads.step]
      cases hi : s.threads[i]? with
      | none => exact ih _ hs ht he'
      | some c =>
        have hm := List.mem_of_getElem? hi
        refine ih _ (regStep_proper hs _ _ (ht _ hm) _) ?_ he'
        intro c' hc
        rcases List.mem_or_eq_of_mem_set hc with hc | rfl
        · exact ht c' hc
        · exact ht c hm

theorem dictionaryWhen_proper {d : Dictionary} (hd : ProperDictionary d) {events : List QueryEvent}
    (he : ∀ x f, .dict (.register x f) ∈ events → Accepted f.word) (n : Nat) : ProperDictionary (dictionaryWhen d events n) :=
  foldl_proper _ _ hd (by simp) fun x f h => he x f (List.mem_of_mem_take (registering_mem h))

/-- What a request has seen so far: position after position, the entry there at some moment since the request began. -/
def Walked (d : Dictionary) (events : List QueryEvent) (start size : Nat) (seen : List Word) (es : List (Str × WordForm)) : Prop :=
  (∃ k, start < k ∧ k < events.length ∧ (dictionaryWhen d events k).length = size) ∧
  (∀ (j : Nat) (e : Str × WordForm), es[j]? = some e → ∃ k, start < k ∧ k < events.length ∧ (dictionaryWhen d events k).length = size ∧
    (dictionaryWhen d events k)[j]? = some e) ∧
  seen = (es.map fun e => e.2.word).foldl setAdd []

/-- The words found missing if each variable is looked up in a dictionary of its own. -/
def missingIn (d : Dictionary) (events : List QueryEvent) (names : List Str) (p : Substitution × Nat) : Bool :=
  decide (p.1.id ∉ names) && !(dictionaryWhen d events p.2).hasWord p.1.id

/-- Where a request is. -/
def QueryPC.Where (d : Dictionary) (events : List QueryEvent) (start : Nat) : Query → QueryPC → Prop
  | .words, .begun => True
  | .words, .next size position seen => position ≤ size ∧ ∃ es, es.length = position ∧ Walked d events start size seen es
  | .words, .listed ws => ∃ size es, es.length = size ∧ Walked d events start size ws es
  | .words, .changed => ∃ k k', start < k ∧ k ≤ k' ∧ k' < events.length ∧
      (dictionaryWhen d events k).length ≠ (dictionaryWhen d events k').length
  | .check t names, .checking names' pending missing => names' = names ∧ ∃ done ks, t.substitutions = done ++ pending ∧
      ks.length = done.length ∧ (∀ k ∈ ks, start < k ∧ k < events.length) ∧
      missing = ((done.zip ks).filter (missingIn d events names)).map fun p => p.1.id
  | .check t names, .checked missing => ∃ ks, ks.length = t.substitutions.length ∧ (∀ k ∈ ks, start < k ∧ k < events.length) ∧
      missing = ((t.substitutions.zip ks).filter (missingIn d events names)).map fun p => p.1.id
  | _, _ => False

theorem Walked.snoc {d : Dictionary} {events : List QueryEvent} {start size : Nat} {seen : List Word} {es : List (Str × WordForm)}
    (h : Walked d events start size seen es) (e : QueryEvent) : Walked d (events ++ [e]) start size seen es := by
  obtain ⟨⟨k, a, b, c⟩, h2, h3⟩ := h
  refine ⟨⟨k, a, by simp; omega, by rw [dictionaryWhen_snoc _ _ _ b.le]; exact c⟩, ?_, h3⟩
  intro j x hx
  obtain ⟨k, a, b, c, c'⟩ := h2 j x hx
  exact ⟨k, a, by simp; omega, by rw [dictionaryWhen_snoc _ _ _ b.le]; exact c, by rw [dictionaryWhen_snoc _ _ _ b.le]; exact c'⟩

theorem filter_missing_snoc (d : Dictionary) (events : List QueryEvent) (e : QueryEvent) (names : List Str) (subs : List Substitution)
    {ks : List Nat} (h : ∀ k ∈ ks, k ≤ events.length) :
    (subs.zip ks).filter (missingIn d (events ++ [e]) names) = (subs.zip ks).filter (missingIn d events names) := by
  apply List.filter_congr
  intro p hp
  unfold missingIn
  rw [dictionaryWhen_snoc _ _ _ (h _ (List.of_mem_zip hp).2)]

theorem QueryPC.where_snoc {d : Dictionary} {events : List QueryEvent} {start : Nat} {q : Query} {pc : QueryPC}
    (h : pc.Where d events start q) (e : QueryEvent) : pc.Where d (events ++ [e]) start q := by
  cases q with
  | words =>
    cases pc with
    | begun => trivial
    | next size position seen => obtain ⟨h1, es, h2, h3⟩ := h; exact ⟨h1, es, h2, h3.snoc e⟩
    | listed ws => obtain ⟨size, es, h2, h3⟩ := h; exact ⟨size, es, h2, h3.snoc e⟩
    | changed =>
      obtain ⟨k, k', a, b, c, n⟩ := h
      refine ⟨k, k', a, b, by simp; omega, ?_⟩
      rwa [dictionaryWhen_snoc _ _ _ (by omega), dictionaryWhen_snoc _ _ _ c.le]
    | checking => exact h
    | checked => exact h
  | check t names =>
    cases pc with
    | checking names' pending missing =>
      obtain ⟨h1, done, ks, h2, h3, h4, h5⟩ := h
      refine ⟨h1, done, ks, h2, h3, fun k hk => ⟨(h4 k hk).1, by have := (h4 k hk).2; simp; omega⟩, ?_⟩
      rw [filter_missing_snoc _ _ _ _ _ fun k hk => (h4 k hk).2.le]
      exact h5
    | checked missing =>
      obtain ⟨ks, h3, h4, h5⟩ := h
      refine ⟨ks, h3, fun k hk => ⟨(h4 k hk).1, by have := (h4 k hk).2; simp; omega⟩, ?_⟩
      rw [filter_missing_snoc _ _ _ _ _ fun k hk => (h4 k hk).2.le]
      exact h5
    | begun => exact h
    | next => exact h
    | listed => exact h
    | changed => exact h

theorem QueryPC.where_step {d : Dictionary} {events : List QueryEvent} {start i : Nat} {q : Query} {pc : QueryPC}
    (h : pc.Where d events start q) (hs : start < events.length) :
    (pc.step (Queries.after d events).dict.dictionary).Where d (events ++ [.turn i]) start q := by
  have h0 := QueryPC.where_snoc h (.turn i)
  rw [dictionaryWhen_now]
  have hnow : dictionaryWhen d (events ++ [.turn i]) events.length = dictionaryWhen d events events.length := dictionaryWhen_snoc _ _ _ le_rfl
  have hlen : events.length < (events ++ [QueryEvent.turn i]).length := by simp
  cases q with
  | words =>
    cases pc with
    | begun =>
      refine ⟨Nat.zero_le _, [], rfl, ⟨events.length, hs, hlen, by rw [hnow]⟩, by simp, rfl⟩
    | next size position seen =>
      simp only [QueryPC.step]
      obtain ⟨h1, es, h2, h3⟩ := h0
      split
      · rename_i hne
        obtain ⟨⟨k, a, b, c⟩, -⟩ := h3
        refine ⟨k, events.length, a, by simp at b; omega, hlen, ?_⟩
        rw [c, hnow]; exact fun h => hne h.symm
      · rename_i heq
        have heq : (dictionaryWhen d events events.length).length = size := by simpa using heq
        cases hp : (dictionaryWhen d events events.length)[position]? with
        | none =>
          have : size ≤ position := by rw [← heq]; exact List.getElem?_eq_none_iff.mp hp
          exact ⟨size, es, by omega, h3⟩
        | some entry =>
          have hlt : position < size := by rw [← heq]; exact (List.getElem?_eq_some_iff.mp hp).1
          refine ⟨hlt, es ++ [entry], by simp [h2], h3.1, ?_, by rw [h3.2.2]; simp⟩
          intro j e hj
          by_cases hjp : j < es.length
          · rw [List.getElem?_append_left hjp] at hj
            exact h3.2.1 j e hj
          · have hj' : j = position := by
              have := (List.getElem?_eq_some_iff.mp hj).1
              simp at this; omega
            subst hj'
            rw [List.getElem?_append_right (by omega)] at hj
            have : e = entry := by simpa [h2] using hj.symm
            subst this
            exact ⟨events.length, hs, hlen, by rw [hnow]; exact heq, by rw [hnow]; exact hp⟩
    | listed ws => exact h0
    | changed => exact h0
    | checking => exact h.elim
    | checked => exact h.elim
  | check t names =>
    cases pc with
    | checking names' pending missing =>
      obtain ⟨h1, done, ks, h2, h3, h4, h5⟩ := h0
      subst h1
      cases pending with
      | nil =>
        rw [List.append_nil] at h2
        subst h2
        exact ⟨ks, h3, h4, h5⟩
      | cons s ss =>
        have hz : ((done ++ [s]).zip (ks ++ [events.length])) = done.zip ks ++ [(s, events.length)] := by
          rw [List.zip_append h3.symm]; rfl
        have hk : ∀ k ∈ ks ++ [events.length], start < k ∧ k < (events ++ [QueryEvent.turn i]).length := by
          intro k hk
          rcases List.mem_append.mp hk with hk | hk
          · exact h4 k hk
          · rw [List.mem_singleton.mp hk]; exact ⟨hs, hlen⟩
        have hm : missingIn d (events ++ [.turn i]) names' (s, events.length) =
            (decide (s.id ∉ names') && !(dictionaryWhen d events events.length).hasWord s.id) := by
          unfold missingIn; rw [hnow]
        simp only [QueryPC.step]
        split
        · rename_i hin
          refine ⟨rfl, done ++ [s], ks ++ [events.length], by simp [h2], by simp [h3], hk, ?_⟩
          rw [hz, List.filter_append, List.filter_singleton, hm]
          simp [hin, h5]
        · rename_i hin
          split
          · rename_i hw
            refine ⟨rfl, done ++ [s], ks ++ [events.length], by simp [h2], by simp [h3], hk, ?_⟩
            rw [hz, List.filter_append, List.filter_singleton, hm]
            simp [hw, h5]
          · rename_i hw
            refine ⟨rfl, done ++ [s], ks ++ [events.length], by simp [h2], by simp [h3], hk, ?_⟩
            rw [hz, List.filter_append, List.filter_singleton, hm]
            simp [hin, hw, h5]
    | checked missing => exact h0
    | begun => exact h.elim
    | next => exact h.elim
    | listed => exact h.elim
    | changed => exact h.elim

theorem Queries.after_where (d : Dictionary) (es : List QueryEvent) :
    List.Forall₂ (fun (r : Nat × Query) (pc : QueryPC) => r.1 < es.length ∧ pc.Where d es r.1 r.2) (asked 0 es) (Queries.after d es).requests := by
  induction es using List.reverseRecOn with
  | nil => exact .nil
  | append_singleton es e ih =>
    have ih' : List.Forall₂ (fun (r : Nat × Query) (pc : QueryPC) => r.1 < (es ++ [e]).length ∧ pc.Where d (es ++ [e]) r.1 r.2)
        (asked 0 es) (Queries.after d es).requests :=
      ih.imp fun r c h => ⟨by simp; omega, QueryPC.where_snoc h.2 e⟩
    rw [Queries.after_snoc, asked_append]
    cases e with
    | dict e => simpa [asked, Queries.step] using ih'
    | ask q =>
      simp only [asked, Queries.step, Nat.zero_add]
      refine List.rel_append (R := _) ih' (.cons ⟨by simp, ?_⟩ .nil)
      cases q with
      | words => trivial
      | check t names => exact ⟨rfl, [], [], rfl, rfl, by simp, rfl⟩
    | turn i =>
      simp only [asked, Queries.step, List.append_nil]
      rw [List.forall₂_iff_get] at ih ih' ⊢
      refine ⟨by simpa using ih.1, fun j h1 h2 => ?_⟩
      have h2' : j < (Queries.after d es).requests.length := by simpa using h2
      have a := ih.2 j h1 h2'
      have b := ih'.2 j h1 h2'
      simp only [List.get_eq_getElem, List.getElem_modify] at a b ⊢
      split
      · exact ⟨b.1, QueryPC.where_step a.2 a.1⟩
      · exact b

theorem where_of_asked {d : Dictionary} {events : List QueryEvent} {i start : Nat} {q : Query} {pc : QueryPC}
    (hq : (asked 0 events)[i]? = some (start, q)) (hpc : (Queries.after d events).requests[i]? = some pc) :
    start < events.length ∧ pc.Where d events start q := by
  have h := Queries.after_where d events
  rw [List.forall₂_iff_get] at h
  obtain ⟨l1, g1⟩ := List.getElem?_eq_some_iff.mp hq
  obtain ⟨l2, g2⟩ := List.getElem?_eq_some_iff.mp hpc
  have := h.2 i l1 l2
  simpa only [List.get_eq_getElem, g1, g2] using this

theorem foldl_setAdd (l s : List Word) (hs : s.Pairwise (fun v w => v.eq w = false)) (hl : ∀ w ∈ l, Accepted w) :
    (∀ w ∈ l.foldl setAdd s, w ∈ s ∨ w ∈ l) ∧ (∀ w ∈ s, w ∈ l.foldl setAdd s) ∧
    (∀ w ∈ l, ∃ v ∈ l.foldl setAdd s, v.eq w = true) ∧ (l.foldl setAdd s).Pairwise (fun v w => v.eq w = false) := by
  have hrefl := C16_eq_equivalence.1
  induction l generalizing s with
  | nil => exact ⟨fun w hw => Or.inl hw, fun w hw => hw, by simp, hs⟩
  | cons x l ih =>
    have hstep : (setAdd s x).Pairwise (fun v w => v.eq w = false) ∧ (∀ w ∈ setAdd s x, w ∈ s ∨ w = x) ∧
        (∀ w ∈ s, w ∈ setAdd s x) ∧ ∃ v ∈ setAdd s x, v.eq x = true := by
      unfold setAdd
      by_cases h : s.any (fun v => v.eq x) = true
      · rw [if_pos h]
        rw [List.any_eq_true] at h
        exact ⟨hs, fun w hw => Or.inl hw, fun w hw => hw, h⟩
      · rw [if_neg h]
        refine ⟨?_, by simp, by simp +contextual, ⟨x, by simp, hrefl x (hl x (by simp))⟩⟩
        rw [List.pairwise_append]
        refine ⟨hs, by simp, ?_⟩
        intro a ha b hb
        simp at hb; subst hb
        by_contra hne
        exact h (List.any_eq_true.mpr ⟨a, ha, by simpa using hne⟩)
    obtain ⟨i1, i2, i3, i4⟩ := ih (setAdd s x) hstep.1 (fun w hw => hl w (List.mem_cons_of_mem _ hw))
    refine ⟨?_, fun w hw => i2 w (hstep.2.2.1 w hw), ?_, i4⟩
    · intro w hw
      rcases i1 w hw with h | h
      · rcases hstep.2.1 w h with h | rfl
        · exact Or.inl h
        · exact Or.inr (by simp)
      · exact Or.inr (List.mem_cons_of_mem _ h)
    · intro w hw
      rcases List.mem_cons.mp hw with rfl | hw
      · obtain ⟨v, hv, he⟩ := hstep.2.2.2
        exact ⟨v, i2 v hv, he⟩
      · exact i3 w hw

theorem getWord_of_mem {d : Dictionary} (hd : ProperDictionary d) {x : Str} {f : WordForm} (h : (x, f) ∈ d) : d.getWord x = .ok f := by
  unfold Dictionary.getWord
  rw [Dict.get?_of_mem hd.1 h]

/-- C114: what `get_words` returns in any interleaving with registrations: every word is the word of a text at some moment during the
call; every text that was known when the call began has contributed the word it had at some moment during the call (or one equal to it);
no two words are equal. -/
theorem C114_words (d : Dictionary) (events : List QueryEvent) (i start : Nat) (ws : List Word) (hd : ProperDictionary d)
    (he : ∀ x f, .dict (.register x f) ∈ events → Accepted f.word)
    (hq : (asked 0 events)[i]? = some (start, .words)) (hr : (Queries.after d events).requests[i]? = some (.listed ws)) :
    (∀ w ∈ ws, ∃ k x f, start < k ∧ k < events.length ∧ (dictionaryWhen d events k).getWord x = .ok f ∧ f.word = w) ∧
    (∀ x, (dictionaryWhen d events start).hasWord x = true →
      ∃ k f, start < k ∧ k < events.length ∧ (dictionaryWhen d events k).getWord x = .ok f ∧ ∃ w ∈ ws, w.eq f.word = true) ∧
    ws.Pairwise (fun v w => v.eq w = false) := by
  obtain ⟨-, size, es, hlen, ⟨k0, a0, b0, c0⟩, hes, rfl⟩ := where_of_asked hq hr
  have hp := dictionaryWhen_proper hd he
  have hacc : ∀ w ∈ es.map (fun e => e.2.word), Accepted w := by
    intro w hw
    obtain ⟨e, hm, rfl⟩ := List.mem_map.mp hw
    obtain ⟨j, hj⟩ := List.getElem?_of_mem hm
    obtain ⟨k, -, -, -, hk⟩ := hes j e hj
    exact (hp k).2 e.1 e.2 (List.mem_of_getElem? hk)
  obtain ⟨f1, -, f3, f4⟩ := foldl_setAdd (es.map fun e => e.2.word) [] (by simp) hacc
  refine ⟨?_, ?_, f4⟩
  · intro w hw
    rcases f1 w hw with h | h
    · cases h
    · obtain ⟨e, hm, rfl⟩ := List.mem_map.mp h
      obtain ⟨j, hj⟩ := List.getElem?_of_mem hm
      obtain ⟨k, a, b, -, hk⟩ := hes j e hj
      exact ⟨k, e.1, e.2, a, b, getWord_of_mem (hp k) (List.mem_of_getElem? hk), rfl⟩
  · intro x hx
    rw [Dictionary.hasWord, Dict.contains_iff] at hx
    obtain ⟨j, hj⟩ := List.getElem?_of_mem hx
    have hjs : j < es.length := by
      have h1 := (List.getElem?_eq_some_iff.mp hj).1
      have h2 := dictionaryWhen_length d events (Nat.le_of_lt a0)
      rw [Dict.length_keys] at h1
      omega
    obtain ⟨k, a, b, -, hk⟩ := hes j _ (List.getElem?_eq_getElem hjs)
    have hx' : (es[j]).1 = x := by
      obtain ⟨rest, hrest⟩ := dictionaryWhen_keys d events (Nat.le_of_lt a)
      have h1 : (Dict.keys (dictionaryWhen d events k))[j]? = some x := by
        rw [← hrest, List.getElem?_append_left (List.getElem?_eq_some_iff.mp hj).1]; exact hj
      rw [Dict.keys, List.getElem?_map, hk] at h1
      simpa using h1
    refine ⟨k, (es[j]).2, a, b, ?_, ?_⟩
    · rw [← hx']; exact getWord_of_mem (hp k) (List.mem_of_getElem? hk)
    · exact f3 _ (List.mem_map.mpr ⟨es[j], List.getElem_mem hjs, rfl⟩)

/-- C114: `get_words` raises `RuntimeError` only if a text became known while it ran. -/
theorem C114_changed (d : Dictionary) (events : List QueryEvent) (i start : Nat) (hd : ProperDictionary d)
    (he : ∀ x f, .dict (.register x f) ∈ events → Accepted f.word)
    (hq : (asked 0 events)[i]? = some (start, .words)) (hr : (Queries.after d events).requests[i]? = some .changed) :
    ∃ x, (dictionaryWhen d events start).hasWord x = false ∧ (dictionaryWhen d events events.length).hasWord x = true := by
  obtain ⟨-, k, k', a, b, c, hne⟩ := where_of_asked hq hr
  have h1 := dictionaryWhen_length d events b
  have h2 := dictionaryWhen_length d events (Nat.le_of_lt a)
  have h3 := dictionaryWhen_length d events c.le
  obtain ⟨rest, hrest⟩ := dictionaryWhen_keys d events (show start ≤ events.length by omega)
  have hn := (dictionaryWhen_proper hd he events.length).1
  rw [← hrest, List.nodup_append] at hn
  have hl := congrArg List.length hrest
  rw [List.length_append, Dict.length_keys, Dict.length_keys] at hl
  obtain ⟨x, hx⟩ := List.exists_mem_of_length_pos (show 0 < rest.length by omega)
  refine ⟨x, ?_, ?_⟩
  · rw [Dictionary.hasWord, ← Bool.not_eq_true, Dict.contains_iff]
    intro hm
    exact hn.2.2 x hm x hx rfl
  · rw [Dictionary.hasWord, Dict.contains_iff, ← hrest]
    exact List.mem_append_right _ hx

/-- C114: it does raise if a text becomes known between two steps of the walk (a concrete case): a dictionary of one word form to which
another text is added. -/
theorem C114_violated (x y : Str) (f g : WordForm) (h : x ≠ y) :
    (Queries.after [(x, f)] [.ask .words, .turn 0, .turn 0, .dict (.register y g), .dict (.run 0), .dict (.run 0), .turn 0]).requests =
      [.changed] := by
  simp [Queries.after, Queries.step, Query.begin, QueryPC.step, DictThreads.step, regStep, Dict.contains, Dict.get?, Dict.set, h]

/-- C114: without registrations during the call the result is that of `get_words` on the dictionary. -/
theorem C114_quiet (d : Dictionary) (events : List QueryEvent) (i start : Nat) (ws : List Word)
    (hq : (asked 0 events)[i]? = some (start, .words)) (hr : (Queries.after d events).requests[i]? = some (.listed ws))
    (hquiet : ∀ k, start < k → k < events.length → dictionaryWhen d events k = dictionaryWhen d events start) :
    ws = (dictionaryWhen d events start).getWords := by
  obtain ⟨-, size, es, hlen, ⟨k0, a0, b0, c0⟩, hes, rfl⟩ := where_of_asked hq hr
  rw [hquiet k0 a0 b0] at c0
  have : es = dictionaryWhen d events start := by
    apply List.ext_getElem (by omega)
    intro j h1 h2
    obtain ⟨k, a, b, -, hk⟩ := hes j _ (List.getElem?_eq_getElem h1)
    rw [hquiet k a b, List.getElem?_eq_getElem h2] at hk
    exact (Option.some.inj hk).symm
  rw [this]; rfl

/-- C114: what `get_undictionaried_words` returns in any interleaving with registrations: some of the variables in their order, none of
them an external or known when the call began; every variable that is no external and is still unknown at the end is among them. -/
theorem C114_check (d : Dictionary) (events : List QueryEvent) (i start : Nat) (t : Template) (names missing : List Str)
    (hq : (asked 0 events)[i]? = some (start, .check t names)) (hr : (Queries.after d events).requests[i]? = some (.checked missing)) :
    missing.Sublist (t.substitutions.map Substitution.id) ∧
    (∀ x ∈ missing, x ∉ names ∧ (dictionaryWhen d events start).hasWord x = false) ∧
    ∀ s ∈ t.substitutions, s.id ∉ names → (dictionaryWhen d events events.length).hasWord s.id = false → s.id ∈ missing := by
  obtain ⟨-, ks, h1, h2, rfl⟩ := where_of_asked hq hr
  refine ⟨?_, ?_, ?_⟩
  · have : t.substitutions.map Substitution.id = (t.substitutions.zip ks).map fun p => p.1.id := by
      have := List.map_fst_zip (l₁ := t.substitutions) (l₂ := ks) (by omega)
      conv_lhs => rw [← this]
      rw [List.map_map]; rfl
    rw [this]
    exact List.filter_sublist.map _
  · intro x hx
    obtain ⟨⟨s, k⟩, hm, rfl⟩ := List.mem_map.mp hx
    obtain ⟨hm, hp⟩ := List.mem_filter.mp hm
    simp only [missingIn, Bool.and_eq_true, decide_eq_true_eq, Bool.not_eq_true'] at hp
    refine ⟨hp.1, ?_⟩
    have hk := h2 k (List.of_mem_zip hm).2
    by_contra hw
    rw [Bool.not_eq_false] at hw
    rw [dictionaryWhen_known d events hk.1.le hw] at hp
    exact absurd hp.2 (by simp)
  · intro s hs hn hw
    obtain ⟨j, hj⟩ := List.getElem?_of_mem hs
    have hjl := (List.getElem?_eq_some_iff.mp hj).1
    have hjk : j < ks.length := by omega
    refine List.mem_map.mpr ⟨(s, ks[j]), List.mem_filter.mpr ⟨?_, ?_⟩, rfl⟩
    · refine List.mem_of_getElem? (i := j) ?_
      rw [List.getElem?_zip_eq_some]
      exact ⟨hj, List.getElem?_eq_getElem hjk⟩
    · simp only [missingIn, Bool.and_eq_true, decide_eq_true_eq, Bool.not_eq_true']
      refine ⟨hn, ?_⟩
      have hk := h2 _ (List.getElem_mem hjk)
      by_contra hc
      rw [Bool.not_eq_false] at hc
      rw [dictionaryWhen_known d events hk.2.le hc] at hw
      cases hw

/-- C114: a check that finds nothing missing stays true: every variable is an external or known from then on. -/
theorem C114_check_lasts (d : Dictionary) (events later : List QueryEvent) (i start : Nat) (t : Template) (names : List Str)
    (hq : (asked 0 events)[i]? = some (start, .check t names)) (hr : (Queries.after d events).requests[i]? = some (.checked [])) :
    t.getUndictionariedWords names (dictionaryWhen d (events ++ later) (events ++ later).length) = [] := by
  obtain ⟨-, -, h⟩ := C114_check d events i start t names [] hq hr
  rw [C49_exact, List.filter_eq_nil_iff]
  intro x hx
  obtain ⟨s, hs, rfl⟩ := List.mem_map.mp hx
  by_cases hn : s.id ∈ names
  · simp [hn]
  · have : (dictionaryWhen d events events.length).hasWord s.id = true := by
      by_contra hc
      rw [Bool.not_eq_true] at hc
      exact absurd (h s hs hn hc) (by simp)
    have e : dictionaryWhen d events events.length = dictionaryWhen d (events ++ later) events.length := by
      unfold dictionaryWhen; rw [List.take_left', List.take_length]; rfl
    rw [e] at this
    have hk := dictionaryWhen_known d (events ++ later) (by simp : events.length ≤ (events ++ later).length) this
    simp only [hk]
    simp

/-- How many steps a request still needs, if the dictionary does not get more than `n` items. -/
def QueryPC.rest (n : Nat) : QueryPC → Nat
  | .begun => n + 2
  | .next size position _ => (if size ≤ n then size - position else 0) + 1
  | .listed _ | .changed | .checked _ => 0
  | .checking _ pending _ => pending.length + 1

theorem QueryPC.step_rest {d : Dictionary} {n : Nat} (h : d.length ≤ n) (pc : QueryPC) : (pc.step d).rest n ≤ pc.rest n - 1 := by
  cases pc with
  | begun => simp [QueryPC.step, QueryPC.rest, h]
  | next size position seen =>
    simp only [QueryPC.step]
    split
    · simp [QueryPC.rest]
    · rename_i heq
      have heq : d.length = size := by simpa using heq
      cases hp : d[position]? with
      | none => simp [QueryPC.rest]
      | some e =>
        have := (List.getElem?_eq_some_iff.mp hp).1
        have hs : size ≤ n := by omega
        simp only [QueryPC.rest, if_pos hs]
        omega
  | listed => simp [QueryPC.step, QueryPC.rest]
  | changed => simp [QueryPC.step, QueryPC.rest]
  | checked => simp [QueryPC.step, QueryPC.rest]
  | checking x pending missing =>
    cases pending with
    | nil => simp [QueryPC.step, QueryPC.rest]
    | cons s ss =>
      simp only [QueryPC.step]
      split
      · simp [QueryPC.rest]
      · split <;> simp [QueryPC.rest]

/-- C114: every request finishes: `get_words` after two steps more than the dictionary has items, `get_undictionaried_words` after one
step for each variable and one more. -/
theorem C114_finishes (d : Dictionary) (before later : List QueryEvent) (q : Query) (n : Nat)
    (hn : (dictionaryWhen d (before ++ .ask q :: later) (before ++ .ask q :: later).length).length ≤ n)
    (h : turnsNeeded n q ≤ turnsGiven (asked 0 before).length later) :
    (Queries.after d (before ++ .ask q :: later)).requests[(asked 0 before).length]? = some .changed ∨
    (∃ ws, (Queries.after d (before ++ .ask q :: later)).requests[(asked 0 before).length]? = some (.listed ws)) ∨
    ∃ missing, (Queries.after d (before ++ .ask q :: later)).requests[(asked 0 before).length]? = some (.checked missing) := by
  have hlen := (Queries.after_where d before).length_eq
  obtain ⟨j, hj⟩ : ∃ j, j = (asked 0 before).length := ⟨_, rfl⟩
  rw [← hj] at h hlen ⊢
  have key : ∀ es : List QueryEvent, es <+: later →
      ∃ pc, (Queries.after d (before ++ .ask q :: es)).requests[j]? = some pc ∧ pc.rest n ≤ q.begin.rest n - turnsGiven j es := by
    intro es
    induction es using List.reverseRecOn with
    | nil =>
      intro _
      refine ⟨q.begin, ?_, by simp [turnsGiven]⟩
      rw [Queries.after_snoc]
      simp [Queries.step, hlen]
    | append_singleton es e ih =>
      intro hpre
      obtain ⟨pc, h1, h2⟩ := ih ((List.prefix_append es [e]).trans hpre)
      have hsteps : turnsGiven j (es ++ [e]) = turnsGiven j es + turnsGiven j [e] := by
        clear * -
        induction es with
        | nil => simp [turnsGiven]
        | cons a es ih => cases a <;> simp [turnsGiven, ih] <;> omega
      rw [show before ++ QueryEvent.ask q :: (es ++ [e]) = (before ++ .ask q :: es) ++ [e] by simp, Queries.after_snoc]
      cases e with
      | dict e => exact ⟨pc, h1, by simpa [hsteps, turnsGiven] using h2⟩
      | ask q' =>
        refine ⟨pc, ?_, by simpa [hsteps, turnsGiven] using h2⟩
        simp only [Queries.step]
        rw [List.getElem?_append_left (List.getElem?_eq_some_iff.mp h1).1]; exact h1
      | turn i =>
        by_cases hi : i = j
        · subst hi
          refine ⟨pc.step (Queries.after d (before ++ .ask q :: es)).dict.dictionary, by simp [Queries.step, List.getElem?_modify_eq, h1], ?_⟩
          have hle : (Queries.after d (before ++ .ask q :: es)).dict.dictionary.length ≤ n := by
            refine le_trans ?_ hn
            rw [dictionaryWhen_now]
            obtain ⟨rest, hrest⟩ := (List.prefix_append es [QueryEvent.turn i]).trans hpre
            have e1 : dictionaryWhen d (before ++ .ask q :: es) (before ++ .ask q :: es).length =
                dictionaryWhen d (before ++ .ask q :: later) (before ++ .ask q :: es).length := by
              unfold dictionaryWhen
              rw [← hrest, List.take_length, show before ++ QueryEvent.ask q :: (es ++ rest) = (before ++ .ask q :: es) ++ rest by simp,
                List.take_left' rfl]
            rw [e1]
            exact dictionaryWhen_length _ _ (by rw [← hrest]; simp)
          have := QueryPC.step_rest hle pc
          rw [hsteps]
          simp only [turnsGiven, if_true]
          omega
        · refine ⟨pc, by simp [Queries.step, List.getElem?_modify, hi, h1], by simpa [hsteps, turnsGiven, hi] using h2⟩
  obtain ⟨pc, h1, h2⟩ := key later List.prefix_rfl
  have hb : q.begin.rest n = turnsNeeded n q := by cases q <;> rfl
  have hz : pc.rest n = 0 := by omega
  rw [h1]
  cases pc with
  | begun => simp [QueryPC.rest] at hz
  | next => simp [QueryPC.rest] at hz
  | listed ws => exact .inr (.inl ⟨ws, rfl⟩)
  | changed => exact .inl rfl
  | checking => simp [QueryPC.rest] at hz
  | checked m => exact .inr (.inr ⟨m, rfl⟩)

/-- A dictionary of one word, asked for its words and checked against a template while `c` is added. -/
def exAsking : List QueryEvent :=
  [.ask .words, .ask (.check exTwice []), .turn 0, .turn 1, .turn 0, .turn 0, .dict (.register (str! "c") (WordForm.new (exText (str! "c")))),
   .dict (.run 0), .dict (.run 0), .turn 1, .turn 1]

/-- The hypotheses of C114 are met. -/
example : ProperDictionary [(str! "a", WordForm.new (exText (str! "a")))] ∧
    (∀ x f, .dict (.register x f) ∈ exAsking → Accepted f.word) ∧
    (asked 0 exAsking)[0]? = some (0, .words) ∧ (asked 0 exAsking)[1]? = some (1, .check exTwice []) ∧
    (Queries.after [(str! "a", WordForm.new (exText (str! "a")))] exAsking).requests = [.listed [exText (str! "a")], .checked []] := by
  refine ⟨⟨by decide +kernel, ?_⟩, ?_, rfl, rfl, by decide +kernel⟩
  · intro x f h
    simp only [List.mem_singleton, Prod.mk.injEq] at h
    rw [h.2]; exact exText_accepted _ _ (wf_new (by simp [WFArgs]))
  · intro x f h
    simp only [exAsking, List.mem_cons, List.not_mem_nil, or_false, reduceCtorEq, false_or, QueryEvent.dict.injEq, DictEvent.register.injEq] at h
    rw [h.2]; exact exText_accepted _ _ (wf_new (by simp [WFArgs]))

/-- And those of `C114_finishes`. -/
example : turnsNeeded 1 .words ≤ turnsGiven 0 exAsking.tail := by decide +kernel

end Utg
