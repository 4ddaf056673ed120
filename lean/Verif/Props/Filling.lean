import Verif.Spec.Filling
import Verif.Props.DictThreads
import Verif.Props.Checked
import Verif.Props.Locality
/-!
# C108: filling templates while words are added
-/

namespace Utg
open Py Spec

theorem registrations_append (a b : List FillEvent) : registrations (a ++ b) = registrations a ++ registrations b := by
  induction a with
  | nil => rfl
  | cons e a ih => cases e <;> simp [registrations, ih]

theorem callsFrom_append (n : Nat) (a b : List FillEvent) : callsFrom n (a ++ b) = callsFrom n a ++ callsFrom (n + a.length) b := by
  induction a generalizing n with
  | nil => simp [callsFrom]
  | cons e a ih =>
    have : n + (a.length + 1) = n + 1 + a.length := by omega
    cases e <;> simp [callsFrom, ih, this]

theorem Filling.after_snoc (U : PyUni) (d : Dictionary) (es : List FillEvent) (e : FillEvent) :
    Filling.after U d (es ++ [e]) = (Filling.after U d es).step U e := by
  simp [Filling.after, List.foldl_append]

theorem Filling.after_dict (U : PyUni) (d : Dictionary) (es : List FillEvent) :
    (Filling.after U d es).dict = dictionaryAfter d (registrations es) := by
  induction es using List.reverseRecOn with
  | nil => rfl
  | append_singleton es e ih =>
    rw [Filling.after_snoc, registrations_append]
    cases e <;> simp [Filling.step, registrations, ih, dictionaryAfter, List.foldl_append]

/-- Where a call is: which dictionaries its variables were looked up in so far. -/
def Fill.Looked (U : PyUni) (d : Dictionary) (events : List FillEvent) (start : Nat) (t : Template) (externals : Externals) (c : Fill) : Prop :=
  c.template = t ∧ c.externals = externals ∧
  ∃ ks : List Nat, ks.Pairwise (· ≤ ·) ∧ (∀ k ∈ ks, start < k ∧ k < events.length) ∧
    match c.result with
    | none => ∃ done, t.substitutions = done ++ c.pending ∧ ks.length = done.length ∧
        (done.zip (ks.map (dictionaryAt d events))).mapM (fun p => p.1.getText U externals p.2) = .ok c.texts
    | some r => ks.length = t.substitutions.length ∧ r = fillWith U t externals (ks.map (dictionaryAt d events))

theorem dictionaryAt_snoc (d : Dictionary) (es : List FillEvent) (e : FillEvent) {k : Nat} (h : k ≤ es.length) :
    dictionaryAt d (es ++ [e]) k = dictionaryAt d es k := by
  unfold dictionaryAt; rw [List.take_append_of_le_length h]

theorem dictionaryAt_now (U : PyUni) (d : Dictionary) (es : List FillEvent) :
    dictionaryAt d es es.length = (Filling.after U d es).dict.dictionary := by
  unfold dictionaryAt; rw [List.take_length, Filling.after_dict]

theorem map_dictionaryAt_snoc (d : Dictionary) (es : List FillEvent) (e : FillEvent) {ks : List Nat} (h : ∀ k ∈ ks, k ≤ es.length) :
    ks.map (dictionaryAt d (es ++ [e])) = ks.map (dictionaryAt d es) :=
  List.map_congr_left fun k hk => dictionaryAt_snoc d es e (h k hk)

theorem Fill.looked_snoc {U : PyUni} {d : Dictionary} {es : List FillEvent} {start : Nat} {t : Template} {x : Externals} {c : Fill}
    (h : c.Looked U d es start t x) (e : FillEvent) : c.Looked U d (es ++ [e]) start t x := by
  obtain ⟨h1, h2, ks, h3, h4, h5⟩ := h
  refine ⟨h1, h2, ks, h3, fun k hk => ⟨(h4 k hk).1, by simp; have := (h4 k hk).2; omega⟩, ?_⟩
  rw [map_dictionaryAt_snoc d es e fun k hk => (h4 k hk).2.le]
  exact h5

theorem mapM_append_ok {α β : Type} {f : α → Except PyErr β} {l l' : List α} {ys : List β} (h : l.mapM f = .ok ys) :
    (l ++ l').mapM f = (l'.mapM f).bind fun zs => .ok (ys ++ zs) := by
  rw [List.mapM_append, h]
  cases l'.mapM f <;> rfl

theorem Fill.looked_step {U : PyUni} {d : Dictionary} {es : List FillEvent} {start i : Nat} {t : Template} {x : Externals} {c : Fill}
    (h : c.Looked U d es start t x) (hs : start < es.length) :
    (c.step U (Filling.after U d es).dict.dictionary).Looked U d (es ++ [.turn i]) start t x := by
  have h0 := Fill.looked_snoc h (.turn i)
  obtain ⟨h1, h2, ks, h3, h4, h5⟩ := h
  have hle : ∀ k ∈ ks, k ≤ es.length := fun k hk => (h4 k hk).2.le
  have hnow : dictionaryAt d (es ++ [.turn i]) es.length = (Filling.after U d es).dict.dictionary := by
    rw [dictionaryAt_snoc d es _ le_rfl, dictionaryAt_now U]
  unfold Fill.step
  cases hr : c.result with
  | some r => exact h0
  | none =>
    rw [hr] at h5
    obtain ⟨done, e1, e2, e3⟩ := h5
    have hks : ∀ n, (ks ++ List.replicate n es.length).Pairwise (· ≤ ·) ∧
        ∀ k ∈ ks ++ List.replicate n es.length, start < k ∧ k < (es ++ [FillEvent.turn i]).length := by
      intro n
      constructor
      · rw [List.pairwise_append]
        refine ⟨h3, List.pairwise_replicate.mpr (.inr le_rfl), fun a ha b hb => ?_⟩
        rw [(List.mem_replicate.mp hb).2]; exact hle a ha
      · intro k hk
        rcases List.mem_append.mp hk with hk | hk
        · have := h4 k hk; simp; omega
        · rw [(List.mem_replicate.mp hk).2]; simp; exact hs
    have hmap : ∀ n, (ks ++ List.replicate n es.length).map (dictionaryAt d (es ++ [.turn i])) =
        ks.map (dictionaryAt d es) ++ List.replicate n (Filling.after U d es).dict.dictionary := by
      intro n
      rw [List.map_append, map_dictionaryAt_snoc d es _ hle, List.map_replicate, hnow]
    cases hp : c.pending with
    | nil =>
      rw [hp, List.append_nil] at e1
      have hk4 : ∀ k ∈ ks, start < k ∧ k < (es ++ [FillEvent.turn i]).length := fun k hk => by have := h4 k hk; simp; omega
      have hfill : fillWith U t x (ks.map (dictionaryAt d es)) = match t.template with
          | none => .error .TypeError
          | some template => pyFormat U template c.texts := by
        unfold fillWith; rw [e1, e3]; rfl
      have hlen : ks.length = t.substitutions.length := by rw [e1]; exact e2
      simp only [h1]
      cases ht : t.template with
      | none => exact ⟨rfl, h2, ks, h3, hk4, hlen, by rw [map_dictionaryAt_snoc d es _ hle, hfill, ht]⟩
      | some _ => exact ⟨rfl, h2, ks, h3, hk4, hlen, by rw [map_dictionaryAt_snoc d es _ hle, hfill, ht]⟩
    | cons s ss =>
      rw [hp] at e1
      simp only
      cases hg : s.getText U c.externals (Filling.after U d es).dict.dictionary with
      | ok text =>
        refine ⟨h1, h2, ks ++ List.replicate 1 es.length, (hks 1).1, (hks 1).2, ?_⟩
        refine ⟨done ++ [s], by rw [e1]; simp, by simp [e2], ?_⟩
        rw [hmap 1, List.zip_append (by simp [e2]), mapM_append_ok e3]
        simp only [List.replicate_one, List.zip_cons_cons, List.zip_nil_left, List.mapM_cons, List.mapM_nil, ← h2, hg]
        rfl
      | error err =>
        refine ⟨h1, h2, ks ++ List.replicate (ss.length + 1) es.length, (hks _).1, (hks _).2, ?_⟩
        refine ⟨by rw [e1]; simp [e2], ?_⟩
        rw [hmap]
        unfold fillWith
        rw [e1, List.zip_append (by simp [e2]), mapM_append_ok e3]
        simp only [List.replicate_succ, List.zip_cons_cons, List.mapM_cons, ← h2, hg]
        rfl

theorem Filling.after_looked (U : PyUni) (d : Dictionary) (es : List FillEvent) :
    List.Forall₂ (fun (call : Nat × Template × Externals) c => call.1 < es.length ∧ c.Looked U d es call.1 call.2.1 call.2.2)
      (callsFrom 0 es) (Filling.after U d es).fills := by
  induction es using List.reverseRecOn with
  | nil => exact .nil
  | append_singleton es e ih =>
    have ih' : List.Forall₂ (fun (call : Nat × Template × Externals) c =>
        call.1 < (es ++ [e]).length ∧ c.Looked U d (es ++ [e]) call.1 call.2.1 call.2.2) (callsFrom 0 es) (Filling.after U d es).fills :=
      ih.imp fun call c h => ⟨by simp; omega, Fill.looked_snoc h.2 e⟩
    rw [Filling.after_snoc, callsFrom_append]
    cases e with
    | dict e => simpa [callsFrom, Filling.step] using ih'
    | fill t x =>
      simp only [callsFrom, Filling.step, Nat.zero_add]
      refine List.rel_append (R := _) ih' (.cons ⟨by simp, rfl, rfl, [], .nil, by simp, ?_⟩ .nil)
      exact ⟨[], rfl, rfl, rfl⟩
    | turn i =>
      simp only [callsFrom, Filling.step, List.append_nil]
      rw [List.forall₂_iff_get] at ih ih' ⊢
      refine ⟨by simpa using ih.1, fun j h1 h2 => ?_⟩
      have h2' : j < (Filling.after U d es).fills.length := by simpa using h2
      have a := ih.2 j h1 h2'
      have b := ih'.2 j h1 h2'
      simp only [List.get_eq_getElem, List.getElem_modify] at a b ⊢
      split
      · exact ⟨b.1, Fill.looked_step a.2 a.1⟩
      · exact b

/-- C108: in every interleaving with registrations, what a finished call of `substitute` has returned or raised is the text of the
template with each variable looked up in a dictionary that was there after the call began, later variables no earlier than former
ones. -/
theorem C108_lookups (U : PyUni) (d : Dictionary) (events : List FillEvent) (i start : Nat) (t : Template) (externals : Externals) (c : Fill)
    (r : Except PyErr Str) (hcall : (callsFrom 0 events)[i]? = some (start, t, externals))
    (hc : (Filling.after U d events).fills[i]? = some c) (hr : c.result = some r) :
    ∃ ks : List Nat, ks.length = t.substitutions.length ∧ ks.Pairwise (· ≤ ·) ∧ (∀ k ∈ ks, start < k ∧ k < events.length) ∧
      r = fillWith U t externals (ks.map (dictionaryAt d events)) := by
  have h := Filling.after_looked U d events
  rw [List.forall₂_iff_get] at h
  obtain ⟨l1, g1⟩ := List.getElem?_eq_some_iff.mp hcall
  obtain ⟨l2, g2⟩ := List.getElem?_eq_some_iff.mp hc
  obtain ⟨-, -, -, ks, h3, h4, h5⟩ := h.2 i l1 l2
  simp only [List.get_eq_getElem, g1, g2, hr] at h4 h5
  exact ⟨ks, h5.1, h3, h4, h5.2⟩

/-- How many steps a call still needs. -/
def Fill.rest (c : Fill) : Nat := match c.result with
  | some _ => 0
  | none => c.pending.length + 1

theorem Fill.step_rest (U : PyUni) (d : Dictionary) (c : Fill) : (c.step U d).rest ≤ c.rest - 1 := by
  unfold Fill.step
  cases hr : c.result with
  | some r => simp [Fill.rest, hr]
  | none =>
    cases hp : c.pending with
    | nil =>
      simp only
      split <;> simp [Fill.rest]
    | cons s ss =>
      simp only
      split <;> simp [Fill.rest, hr, hp]

/-- C108: a call finishes after one step for each variable and one more, in every schedule. -/
theorem C108_finishes (U : PyUni) (d : Dictionary) (before later : List FillEvent) (t : Template) (externals : Externals)
    (h : t.substitutions.length + 1 ≤ turnsOf (callsFrom 0 before).length later) :
    ∃ c r, (Filling.after U d (before ++ .fill t externals :: later)).fills[(callsFrom 0 before).length]? = some c ∧ c.result = some r := by
  have hlen := (Filling.after_looked U d before).length_eq
  rw [Filling.after, List.foldl_append, List.foldl_cons, ← Filling.after]
  obtain ⟨n, hn⟩ : ∃ n, n = (callsFrom 0 before).length := ⟨_, rfl⟩
  rw [← hn] at h hlen ⊢
  have key : ∀ (es : List FillEvent) (s : Filling) (c : Fill), s.fills[n]? = some c →
      ∃ c', (es.foldl (Filling.step U) s).fills[n]? = some c' ∧ c'.rest ≤ c.rest - turnsOf n es := by
    intro es
    induction es with
    | nil => intro s c hc; exact ⟨c, hc, by simp [turnsOf]⟩
    | cons e es ih =>
      intro s c hc
      cases e with
      | dict e => exact ih _ c hc
      | fill t x => exact ih _ c (by simp only [Filling.step]; rw [List.getElem?_append_left (List.getElem?_eq_some_iff.mp hc).1]; exact hc)
      | turn j =>
        by_cases hj : j = n
        · subst hj
          obtain ⟨c', h1, h2⟩ := ih (s.step U (.turn j)) (c.step U s.dict.dictionary) (by simp [Filling.step, List.getElem?_modify_eq, hc])
          refine ⟨c', h1, ?_⟩
          have := Fill.step_rest U s.dict.dictionary c
          simp only [turnsOf, if_true]
          omega
        · obtain ⟨c', h1, h2⟩ := ih (s.step U (.turn j)) c (by simp [Filling.step, List.getElem?_modify, hj, hc])
          exact ⟨c', h1, by simpa [turnsOf, hj] using h2⟩
  obtain ⟨c, h1, h2⟩ := key later ((Filling.after U d before).step U (.fill t externals)) (Fill.begin t externals) (by
    simp [Filling.step, ← hlen])
  refine ⟨c, ?_⟩
  have : c.rest = 0 := by
    have : (Fill.begin t externals).rest = t.substitutions.length + 1 := rfl
    omega
  unfold Fill.rest at this
  cases hr : c.result with
  | none => simp [hr] at this
  | some r => exact ⟨r, h1, rfl⟩

/-- The word forms found at any time were in the dictionary at first or are registered in the schedule. -/
theorem dictionaryAt_source {d : Dictionary} {events : List FillEvent} {n : Nat} {x : Str} {f : WordForm}
    (h : (dictionaryAt d events n).getWord x = .ok f) : d.getWord x = .ok f ∨ .dict (.register x f) ∈ events := by
  rcases C99_source _ _ _ _ h with h | h
  · exact .inl h
  · right
    have : ∀ es : List FillEvent, DictEvent.register x f ∈ registrations es → FillEvent.dict (.register x f) ∈ es := by
      intro es
      induction es with
      | nil => simp [registrations]
      | cons e es ih =>
        cases e with
        | dict e =>
          simp only [registrations, List.mem_cons]
          rintro (h | h)
          · exact .inl (by rw [h])
          · exact .inr (ih h)
        | fill t x => exact fun h => List.mem_cons_of_mem _ (ih h)
        | turn i => exact fun h => List.mem_cons_of_mem _ (ih h)
    exact List.mem_of_mem_take (this _ h)

/-- A text known at some time is known later. -/
theorem dictionaryAt_known {d : Dictionary} {events : List FillEvent} {n k : Nat} (hk : n ≤ k) {x : Str}
    (h : (dictionaryAt d events n).hasWord x = true) : (dictionaryAt d events k).hasWord x = true := by
  have : events.take k = events.take n ++ (events.drop n).take (k - n) := by
    rw [← List.take_add]; congr 1; omega
  unfold dictionaryAt at h ⊢
  rw [this, registrations_append]
  obtain ⟨f, hf⟩ := contains_iff_get?.mp h
  have key : ∀ (es : List DictEvent) (s : DictThreads), (∃ g, Dict.get? s.dictionary x = some g) →
      ∃ g, Dict.get? (es.foldl DictThreads.step s).dictionary x = some g := by
    intro es
    induction es with
    | nil => intro s h; exact h
    | cons e es ih =>
      intro s ⟨g, hg⟩
      refine ih _ ?_
      cases e with
      | register => exact ⟨g, hg⟩
      | run i =>
        simp only [DictThreads.step]
        cases s.threads[i]? with
        | none => exact ⟨g, hg⟩
        | some c =>
          obtain ⟨⟨t', f'⟩, pc⟩ := c
          cases pc with
          | put => simp only [regStep, Dict.get?_set]; split <;> simp [hg]
          | check => simp only [regStep]; split <;> exact ⟨g, hg⟩
          | compare => simp only [regStep]; split <;> try split
                       all_goals exact ⟨g, hg⟩
          | done => exact ⟨g, hg⟩
          | failed e => exact ⟨g, hg⟩
  apply contains_iff_get?.mpr
  rw [dictionaryAfter, List.foldl_append, ← dictionaryAfter]
  exact key _ _ ⟨f, hf⟩

/-- C108: a template that is checked when the call begins is filled without an error, whatever word forms are registered meanwhile in
whatever schedule. -/
theorem C108_checked (U : PyUni) (d : Dictionary) (events : List FillEvent) (i start : Nat) (t : Template) (externals : Externals) (c : Fill)
    (r : Except PyErr Str) (text : Str) (names : List Str)
    (hcall : (callsFrom 0 events)[i]? = some (start, t, externals))
    (hc : (Filling.after U d events).fills[i]? = some c) (hr : c.result = some r)
    (ht : Template.empty.parse U text names = .ok t) (hn : ∀ n, n ∈ names ↔ ∃ f, externals.get? n = some f)
    (hcheck : t.getUndictionariedWords names (dictionaryAt d events start) = [])
    (hU : ∀ c, U.upperC c ≠ []) (he : ∀ n f, externals.get? n = some f → GoodForm f ∧ NonEmptyForms f)
    (hd : ∀ x f, d.getWord x = .ok f → GoodForm f ∧ NonEmptyForms f)
    (hreg : ∀ x f, .dict (.register x f) ∈ events → GoodForm f ∧ NonEmptyForms f) : ∃ result, r = .ok result := by
  obtain ⟨ks, k1, -, k3, rfl⟩ := C108_lookups U d events i start t externals c r hcall hc hr
  have hgd : ∀ k x f, (dictionaryAt d events k).getWord x = .ok f → GoodForm f ∧ NonEmptyForms f := by
    intro k x f h
    rcases dictionaryAt_source h with h | h
    · exact hd x f h
    · exact hreg x f h
  obtain ⟨l, ps, hp, -⟩ := C45_pieces_unique text
  obtain ⟨h1, h2⟩ := (C45_parse U names text l ps t hp).mp ht
  have hgood := template_good ht
  rw [C49_exact, List.filter_eq_nil_iff] at hcheck
  have hall : ∀ p ∈ t.substitutions.zip (ks.map (dictionaryAt d events)), ∃ x, p.1.getText U externals p.2 = .ok x := by
    rintro ⟨s, d'⟩ hm
    obtain ⟨hs, hd'⟩ := List.of_mem_zip hm
    obtain ⟨k, hk, rfl⟩ := List.mem_map.mp hd'
    obtain ⟨g1, g2⟩ := hgood s hs
    have hres : ∃ f, Resolves externals (dictionaryAt d events k) s.id f := by
      rw [resolves_iff]
      have hc := hcheck s.id (List.mem_map.mpr ⟨s, hs, rfl⟩)
      by_cases hx : s.id ∈ names
      · exact .inl ((hn _).mp hx)
      · right
        have hc' : (dictionaryAt d events start).hasWord s.id = true := by simpa [hx] using hc
        exact dictionaryAt_known (k3 k hk).1.le hc'
    obtain ⟨base, hres⟩ := hres
    obtain ⟨x, hx, -⟩ := C50_substitution U externals (dictionaryAt d events k) s base hU (fun n f h => (he n f h).1)
      (fun x f h => (hgd k x f h).1) g1 (fun n f h => (he n f h).2) (fun x f h => (hgd k x f h).2) hres (fun n hn' => (hn n).mp (g2 n hn'))
    exact ⟨x, hx⟩
  obtain ⟨texts, hm, hf⟩ := mapM_ok hall
  have hlen : texts.length = ps.length := by
    have a := hf.length_eq
    have b := h1.length_eq
    rw [List.length_zip, List.length_map, k1] at a
    omega
  refine ⟨filled l texts (ps.map Prod.snd), ?_⟩
  unfold fillWith
  rw [hm]
  simp only [bind, Except.bind]
  rw [h2]
  exact pyFormat_template _ _ _ _ (by simpa using hlen)

theorem lookup_unchanged {x : Str} (es : List DictEvent) (s : DictThreads) (hq : ∀ c ∈ s.threads, c.1.1 = x → c.2 = .done)
    (hno : ∀ f, DictEvent.register x f ∉ es) : Dict.get? (es.foldl DictThreads.step s).dictionary x = Dict.get? s.dictionary x := by
  induction es generalizing s with
  | nil => rfl
  | cons e es ih =>
    rw [List.foldl_cons]
    have hno' : ∀ f, DictEvent.register x f ∉ es := fun f h => hno f (List.mem_cons_of_mem _ h)
    cases e with
    | register y f =>
      have hy : y ≠ x := by rintro rfl; exact hno f List.mem_cons_self
      refine ih _ ?_ hno'
      intro c hc hx
      simp only [DictThreads.step, List.mem_append, List.mem_singleton] at hc
      rcases hc with hc | rfl
      · exact hq c hc hx
      · exact absurd hx hy
    | run i =>
      cases hi : s.threads[i]? with
      | none =>
        have : s.step (.run i) = s := by simp only [DictThreads.step, hi]
        rw [this]; exact ih s hq hno'
      | some c =>
        obtain ⟨⟨y, f⟩, pc⟩ := c
        have hm := List.mem_of_getElem? hi
        have hstep : s.step (.run i) = ⟨(regStep s.dictionary y f pc).2, s.threads.set i ((y, f), (regStep s.dictionary y f pc).1)⟩ := by
          simp only [DictThreads.step, hi]
        rw [ih _ ?_ hno', hstep]
        · by_cases hy : y = x
          · have := hq _ hm hy
            simp only at this
            subst this
            rfl
          · cases pc with
            | put => simp only [regStep, Dict.get?_set, if_neg hy]
            | check => simp only [regStep]; split <;> rfl
            | compare => simp only [regStep]; split <;> try split
                         all_goals rfl
            | done => rfl
            | failed e => rfl
        · intro c hc hx
          rw [hstep] at hc
          rcases mem_set_iff_or hc with hc | hc
          · exact hq c hc hx
          · subst hc
            have hd : pc = .done := hq _ hm hx
            subst hd
            rfl

/-- C108: registrations that do not concern the variables of a template do not disturb it: the result is the text for the dictionary
at the beginning of the call. -/
theorem C108_undisturbed (U : PyUni) (d : Dictionary) (events : List FillEvent) (i start : Nat) (t : Template) (externals : Externals)
    (c : Fill) (r : Except PyErr Str) (hcall : (callsFrom 0 events)[i]? = some (start, t, externals))
    (hc : (Filling.after U d events).fills[i]? = some c) (hr : c.result = some r)
    (hquiet : ∀ s ∈ t.substitutions, externals.get? s.id = none →
      (∀ x ∈ (dictionaryAfter d (registrations (events.take start))).threads, x.1.1 = s.id → x.2 = .done) ∧
      ∀ f, .dict (.register s.id f) ∉ events.drop start) :
    r = t.substitute U externals (dictionaryAt d events start) := by
  obtain ⟨ks, k1, -, k3, rfl⟩ := C108_lookups U d events i start t externals c r hcall hc hr
  have hreg : ∀ (es : List FillEvent) (e : DictEvent), e ∈ registrations es → FillEvent.dict e ∈ es := by
    intro es e
    induction es with
    | nil => simp [registrations]
    | cons a es ih =>
      cases a with
      | dict a =>
        simp only [registrations, List.mem_cons]
        rintro (h | h)
        · exact .inl (by rw [h])
        · exact .inr (ih h)
      | fill t x => exact fun h => List.mem_cons_of_mem _ (ih h)
      | turn i => exact fun h => List.mem_cons_of_mem _ (ih h)
  have hsame : ∀ s ∈ t.substitutions, ∀ k ∈ ks,
      s.getText U externals (dictionaryAt d events k) = s.getText U externals (dictionaryAt d events start) := by
    intro s hs k hk
    have hb : s.baseForm externals (dictionaryAt d events k) = s.baseForm externals (dictionaryAt d events start) := by
      unfold Substitution.baseForm
      cases hx : externals.get? s.id with
      | some f => rfl
      | none =>
        obtain ⟨q1, q2⟩ := hquiet s hs hx
        have e : events.take k = events.take start ++ (events.drop start).take (k - start) := by
          rw [← List.take_add]; congr 1; have := (k3 k hk).1; omega
        simp only [Dictionary.getWord]
        have : Dict.get? (dictionaryAt d events k) s.id = Dict.get? (dictionaryAt d events start) s.id := by
          unfold dictionaryAt
          rw [e, registrations_append, dictionaryAfter, List.foldl_append, ← dictionaryAfter]
          exact lookup_unchanged _ _ q1 fun f h => q2 f (List.mem_of_mem_take (hreg _ _ h))
        rw [this]
    unfold Substitution.getText
    rw [hb]
  have hmap : ∀ (subs : List Substitution) (ks : List Nat), ks.length = subs.length →
      (∀ s ∈ subs, ∀ k ∈ ks, s.getText U externals (dictionaryAt d events k) = s.getText U externals (dictionaryAt d events start)) →
      (subs.zip (ks.map (dictionaryAt d events))).mapM (fun p => p.1.getText U externals p.2) =
        subs.mapM fun s => s.getText U externals (dictionaryAt d events start) := by
    intro subs
    induction subs with
    | nil => intro ks _ _; rfl
    | cons s subs ih =>
      intro ks hl h
      cases ks with
      | nil => simp at hl
      | cons k ks =>
        simp only [List.map_cons, List.zip_cons_cons, List.mapM_cons]
        rw [h s (by simp) k (by simp), ih ks (by simpa using hl) fun s hs k hk => h s (by simp [hs]) k (by simp [hk])]
  unfold fillWith Template.substitute
  rw [hmap t.substitutions ks k1 hsame]
  rfl

/-- A template `[a|дт] [a|дт]`. -/
def exTwice : Template :=
  ⟨[⟨str! "a", [.props (.new [.record .CASE_DATIVE])]⟩, ⟨str! "a", [.props (.new [.record .CASE_DATIVE])]⟩], some (str! "%s %s")⟩

/-- A call begins and fills the first variable; a noun is registered under the text `a`, which was known as a mere text; the second
variable is filled. -/
def exTorn : List FillEvent :=
  [.fill exTwice [], .turn 0, .dict (.register (str! "a") (WordForm.new exNoun)), .dict (.run 0), .dict (.run 0), .dict (.run 0),
   .turn 0, .turn 0]

/-- The schedule is one C108 speaks about. -/
example : (callsFrom 0 exTorn)[0]? = some (0, exTwice, []) ∧ Template.empty.parse exPy (str! "[a|дт] [a|дт]") [] = .ok exTwice ∧
    exTwice.getUndictionariedWords [] (dictionaryAt [(str! "a", WordForm.new (exText (str! "a")))] exTorn 0) = [] :=
  ⟨rfl, by decide +kernel, by decide +kernel⟩

/-- C108: it is not always the text for one dictionary: `[a|дт] [a|дт]` can be filled from two words. -/
theorem C108_torn : ∃ (d : Dictionary) (c : Fill),
    (Filling.after exPy d exTorn).fills[0]? = some c ∧ c.result = some (.ok (str! "a c")) ∧
    ∀ n, exTwice.substitute exPy [] (dictionaryAt d exTorn n) ≠ .ok (str! "a c") := by
  refine ⟨[(str! "a", WordForm.new (exText (str! "a")))],
    ⟨exTwice, [], [], [str! "a", str! "c"], some (.ok (str! "a c"))⟩, ?_, rfl, ?_⟩
  · rfl
  · intro n
    have hn : dictionaryAt [(str! "a", WordForm.new (exText (str! "a")))] exTorn n =
        dictionaryAt [(str! "a", WordForm.new (exText (str! "a")))] exTorn (min n 8) := by
      unfold dictionaryAt
      by_cases h : n ≤ 8
      · rw [Nat.min_eq_left h]
      · rw [Nat.min_eq_right (by omega), List.take_of_length_le (by simp [exTorn]; omega), List.take_of_length_le (by simp [exTorn])]
    rw [hn]
    have hm : min n 8 ∈ List.range 9 := by simp
    revert hm
    generalize min n 8 = k
    have : ∀ k ∈ List.range 9, exTwice.substitute exPy [] (dictionaryAt [(str! "a", WordForm.new (exText (str! "a")))] exTorn k) ≠ .ok (str! "a c") := by
      decide +kernel
    exact this k

end Utg
