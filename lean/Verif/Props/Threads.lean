import Verif.Spec.Threads
import Verif.Props.Integers
import Verif.Props.Dictionary
/-! # C96–C99: shared state under threads -/

namespace Utg
open Py Spec

/-! ## C96: the integer cache -/

theorem buildTuple_eq (right : Nat) : buildTuple right = .ok ((List.range (right + 1)).map fun (i : Nat) => integerForm (i : Int)) := by
  unfold buildTuple
  generalize List.range (right + 1) = l
  induction l with
  | nil => rfl
  | cons a l ih => rw [List.mapM_cons, ih, constructIntegerFresh_eq]; rfl

/-- What is true of every call. -/
def IntPC.Good (right : Nat) (cache : Option (Nat × List WordForm)) : IntPC → Prop
  | .called _ => True
  | .check n | .build n => 0 ≤ n ∧ n ≤ right
  | .assign n _ t => (0 ≤ n ∧ n ≤ right) ∧ buildTuple right = .ok t
  | .load n => (0 ≤ n ∧ n ≤ right) ∧ cache ≠ none
  | .returned n r => ∃ x, r = .ok (x, integerForm n)

/-- What is true of every state. -/
def IntThreads.Good (right : Nat) (s : IntThreads) : Prop :=
  (∀ id t, s.cache = some (id, t) → buildTuple right = .ok t) ∧ ∀ pc ∈ s.threads, pc.Good right s.cache

def IntPC.number : IntPC → Int
  | .called n | .check n | .build n | .assign n _ _ | .load n | .returned n _ => n

theorem IntPC.step_good {right next : Nat} {cache : Option (Nat × List WordForm)} {pc : IntPC}
    (hc : ∀ id t, cache = some (id, t) → buildTuple right = .ok t) (h : pc.Good right cache) :
    (pc.step right next cache).1.Good right (pc.step right next cache).2.2 ∧
    (∀ id t, (pc.step right next cache).2.2 = some (id, t) → buildTuple right = .ok t) ∧
    (cache ≠ none → (pc.step right next cache).2.2 ≠ none) ∧
    (pc.step right next cache).1.number = pc.number := by
  cases pc with
  | called n =>
    simp only [IntPC.step]
    split
    · rename_i hn; exact ⟨hn, hc, id, rfl⟩
    · rw [constructIntegerFresh_eq]; exact ⟨⟨_, rfl⟩, hc, id, rfl⟩
  | check n =>
    simp only [IntPC.step]
    cases cache with
    | none => exact ⟨h, hc, id, rfl⟩
    | some x => exact ⟨⟨h, by simp⟩, hc, id, rfl⟩
  | build n =>
    have hb := buildTuple_eq right
    generalize (List.range (right + 1)).map (fun (i : Nat) => integerForm (i : Int)) = t at hb
    simp only [IntPC.step, hb]
    exact ⟨⟨h, hb⟩, fun i t e => hb ▸ hc i t e, id, rfl⟩
  | assign n id t =>
    simp only [IntPC.step]
    refine ⟨⟨h.1, by simp⟩, ?_, by simp, rfl⟩
    rintro a b ⟨⟩
    exact h.2
  | load n =>
    obtain ⟨hn, hx⟩ := h
    cases hcache : cache with
    | none => exact absurd hcache hx
    | some x =>
      obtain ⟨a, t⟩ := x
      have ht := hc a t hcache
      rw [buildTuple_eq] at ht
      injection ht with ht
      have hg : t[n.toNat]? = some (integerForm n) := by
        rw [← ht, List.getElem?_map, List.getElem?_range (by omega)]
        simp only [Option.map_some]
        congr 2; omega
      simp only [IntPC.step, hg]
      subst hcache
      exact ⟨⟨_, rfl⟩, hc, id, rfl⟩
  | returned n r => exact ⟨h, hc, id, rfl⟩

theorem IntPC.Good.mono {right : Nat} {c c' : Option (Nat × List WordForm)} {pc : IntPC} (h : pc.Good right c) (hc : c ≠ none → c' ≠ none) :
    pc.Good right c' := by
  cases pc with
  | load n => exact ⟨h.1, hc h.2⟩
  | _ => exact h

theorem IntThreads.step_good {right : Nat} {s : IntThreads} (h : s.Good right) (e : IntEvent) : (s.step right e).Good right := by
  obtain ⟨h1, h2⟩ := h
  cases e with
  | call n =>
    refine ⟨h1, ?_⟩
    intro pc hpc
    rcases List.mem_append.mp hpc with hpc | hpc
    · exact h2 pc hpc
    · rw [List.mem_singleton] at hpc; subst hpc; trivial
  | run i =>
    simp only [IntThreads.step]
    cases hi : s.threads[i]? with
    | none => exact ⟨h1, h2⟩
    | some pc =>
      obtain ⟨a, b, c, -⟩ := IntPC.step_good (next := s.next) h1 (h2 pc (List.mem_of_getElem? hi))
      refine ⟨b, ?_⟩
      intro q hq
      rcases List.mem_or_eq_of_mem_set hq with hq | rfl
      · exact (h2 q hq).mono c
      · exact a

theorem IntThreads.step_numbers {right : Nat} {s : IntThreads} (h : s.Good right) (e : IntEvent) :
    (s.step right e).threads.map IntPC.number = s.threads.map IntPC.number ++ numbers [e] := by
  cases e with
  | call n => simp [IntThreads.step, numbers, IntPC.number]
  | run i =>
    simp only [IntThreads.step, numbers, List.append_nil]
    cases hi : s.threads[i]? with
    | none => rfl
    | some pc =>
      obtain ⟨-, -, -, hn⟩ := IntPC.step_good (next := s.next) h.1 (h.2 pc (List.mem_of_getElem? hi))
      simp only [List.map_set, hn]
      obtain ⟨hil, hie⟩ := List.getElem?_eq_some_iff.mp hi
      have : pc.number = (s.threads.map IntPC.number)[i]'(by simpa using hil) := by simp [hie]
      rw [this, List.set_getElem_self]

theorem IntThreads.foldl_good {right : Nat} {s : IntThreads} (h : s.Good right) (es : List IntEvent) :
    (es.foldl (IntThreads.step right) s).Good right ∧
    (es.foldl (IntThreads.step right) s).threads.map IntPC.number = s.threads.map IntPC.number ++ numbers es := by
  induction es generalizing s with
  | nil => exact ⟨h, by simp [numbers]⟩
  | cons e es ih =>
    obtain ⟨a, b⟩ := ih (IntThreads.step_good h e)
    refine ⟨a, ?_⟩
    rw [List.foldl_cons, b, IntThreads.step_numbers h e, List.append_assoc]
    congr 1
    cases e <;> simp [numbers]

theorem IntThreads.after_good (right : Nat) (es : List IntEvent) :
    (IntThreads.after right es).Good right ∧ (IntThreads.after right es).threads.map IntPC.number = numbers es := by
  obtain ⟨a, b⟩ := IntThreads.foldl_good (right := right) (s := ⟨0, none, []⟩) ⟨by simp, by simp⟩ es
  exact ⟨a, by rw [IntThreads.after, b]; rfl⟩

/-- C96: whatever the schedule, a finished call of `construct_integer` did not raise and returned the word form of the number it was
called with; calls never get mixed up. -/
theorem C96_right_value (right : Nat) (events : List IntEvent) (i : Nat) (n : Int) (r : Except PyErr ((Nat × Nat) × WordForm))
    (h : (IntThreads.after right events).threads[i]? = some (.returned n r)) :
    (numbers events)[i]? = some n ∧ ∃ name f, r = .ok (name, f) ∧ constructIntegerFresh n = .ok f := by
  obtain ⟨a, b⟩ := IntThreads.after_good right events
  constructor
  · rw [← b, List.getElem?_map, h]; rfl
  · obtain ⟨x, hx⟩ := a.2 _ (List.mem_of_getElem? h)
    exact ⟨x, _, hx, constructIntegerFresh_eq n⟩

/-- How many steps a call still needs at most. -/
def IntPC.rank : IntPC → Nat
  | .called _ => 5
  | .check _ => 4
  | .build _ => 3
  | .assign _ _ _ => 2
  | .load _ => 1
  | .returned _ _ => 0

theorem IntPC.step_rank (right next : Nat) (cache : Option (Nat × List WordForm)) (pc : IntPC) :
    (pc.step right next cache).1.rank ≤ pc.rank - 1 := by
  cases pc with
  | called n => simp only [IntPC.step]; split <;> simp [IntPC.rank]
  | check n => simp only [IntPC.step]; split <;> simp [IntPC.rank]
  | build n => simp only [IntPC.step]; split <;> simp [IntPC.rank]
  | assign n id t => simp [IntPC.step, IntPC.rank]
  | load n =>
    simp only [IntPC.step]
    split
    · simp [IntPC.rank]
    · split <;> simp [IntPC.rank]
  | returned n r => simp [IntPC.step, IntPC.rank]

/-- C96: no call waits for another one: a call that was given five steps is finished, whatever the others did. -/
theorem C96_progress (right : Nat) (before later : List IntEvent) (n : Int) (h : 5 ≤ stepsOf (numbers before).length later) :
    ∃ r, (IntThreads.after right (before ++ .call n :: later)).threads[(numbers before).length]? = some (.returned n r) := by
  obtain ⟨-, b⟩ := IntThreads.after_good right (before ++ .call n :: later)
  have hlen : (IntThreads.after right before).threads.length = (numbers before).length := by
    rw [← (IntThreads.after_good right before).2, List.length_map]
  have hnum : ∀ l, (numbers (before ++ .call n :: l))[(numbers before).length]? = some n := by
    intro l
    have : ∀ a b, numbers (a ++ b) = numbers a ++ numbers b := by
      intro a b
      induction a with
      | nil => rfl
      | cons e a ih => cases e <;> simp [numbers, ih]
    rw [this]; simp [numbers]
  have key : ∀ (es : List IntEvent) (s : IntThreads) (pc : IntPC) (i : Nat), s.threads[i]? = some pc →
      ∃ pc', (es.foldl (IntThreads.step right) s).threads[i]? = some pc' ∧ pc'.rank ≤ pc.rank - stepsOf i es := by
    intro es
    induction es with
    | nil => intro s pc i hi; exact ⟨pc, hi, by simp [stepsOf]⟩
    | cons e es ih =>
      intro s pc i hi
      have hil : i < s.threads.length := (List.getElem?_eq_some_iff.mp hi).1
      cases e with
      | call m =>
        obtain ⟨pc', h1, h2⟩ := ih (s.step right (.call m)) pc i (by simp only [IntThreads.step]; rw [List.getElem?_append_left hil]; exact hi)
        exact ⟨pc', h1, by simpa [stepsOf] using h2⟩
      | run j =>
        by_cases hj : j = i
        · subst hj
          obtain ⟨pc', h1, h2⟩ := ih (s.step right (.run j)) (pc.step right s.next s.cache).1 j (by
            simp only [IntThreads.step, hi]
            rw [List.getElem?_set_self hil])
          refine ⟨pc', h1, ?_⟩
          have := IntPC.step_rank right s.next s.cache pc
          simp only [stepsOf, if_true]
          omega
        · obtain ⟨pc', h1, h2⟩ := ih (s.step right (.run j)) pc i (by
            simp only [IntThreads.step]
            split
            · exact hi
            · simp only [List.getElem?_set_ne hj, hi])
          exact ⟨pc', h1, by simpa [stepsOf, hj] using h2⟩
  obtain ⟨pc', h1, h2⟩ := key later ((IntThreads.after right before).step right (.call n)) (.called n) (numbers before).length (by
    simp only [IntThreads.step]; rw [← hlen]; simp)
  have e : IntThreads.after right (before ++ .call n :: later) = later.foldl (IntThreads.step right) ((IntThreads.after right before).step right (.call n)) := by
    simp [IntThreads.after, List.foldl_append]
  rw [e] at b ⊢
  have hn : pc'.number = n := by
    have := congrArg (fun l => l[(numbers before).length]?) b
    simp only [List.getElem?_map, h1, Option.map_some, hnum] at this
    injection this
  have h0 : pc'.rank = 0 := by simp only [IntPC.rank] at h2 ⊢; omega
  cases pc' with
  | returned m r => simp only [IntPC.number] at hn; subst hn; exact ⟨r, h1⟩
  | _ => simp [IntPC.rank] at h0

/-- The cache stays once nobody is about to replace it. -/
theorem IntThreads.step_settled {right : Nat} {s : IntThreads} {tuple : Nat} (h : Settled s tuple) (e : IntEvent) :
    Settled (s.step right e) tuple := by
  obtain ⟨⟨t, ht⟩, h2⟩ := h
  cases e with
  | call n =>
    refine ⟨⟨t, ht⟩, ?_⟩
    intro pc hpc
    rcases List.mem_append.mp hpc with hpc | hpc
    · exact h2 pc hpc
    · rw [List.mem_singleton] at hpc; subst hpc; trivial
  | run i =>
    simp only [IntThreads.step]
    cases hi : s.threads[i]? with
    | none => exact ⟨⟨t, ht⟩, h2⟩
    | some pc =>
      have hpc := h2 pc (List.mem_of_getElem? hi)
      simp only [ht]
      have key : (pc.step right s.next (some (tuple, t))).2.2 = some (tuple, t) ∧ match (pc.step right s.next (some (tuple, t))).1 with
          | .build _ | .assign _ _ _ => False
          | _ => True := by
        cases pc with
        | called n => simp only [IntPC.step]; split <;> exact ⟨rfl, trivial⟩
        | check n => exact ⟨rfl, trivial⟩
        | build n => exact absurd hpc id
        | assign n a b => exact absurd hpc id
        | load n => simp only [IntPC.step]; split <;> exact ⟨rfl, trivial⟩
        | returned n r => exact ⟨rfl, trivial⟩
      refine ⟨⟨t, key.1⟩, ?_⟩
      intro q hq
      rcases List.mem_or_eq_of_mem_set hq with hq | rfl
      · exact h2 q hq
      · exact key.2

/-- C96: once the cache is filled and no call is filling it again, every call for a number in its range gives the same object as every other
one for this number, for good. -/
theorem C96_same_object (right : Nat) (before later : List IntEvent) (tuple : Nat) (hs : Settled (IntThreads.after right before) tuple)
    (i : Nat) (n : Int) (hn : 0 ≤ n ∧ n ≤ right) (hi : (numbers before).length ≤ i) (r : Except PyErr ((Nat × Nat) × WordForm))
    (h : (IntThreads.after right (before ++ later)).threads[i]? = some (.returned n r)) :
    ∃ f, r = .ok ((tuple, n.toNat), f) := by
  have hlen : (IntThreads.after right before).threads.length = (numbers before).length := by
    rw [← (IntThreads.after_good right before).2, List.length_map]
  rw [← hlen] at hi
  have hg := (IntThreads.after_good right before).1
  rw [IntThreads.after, List.foldl_append, ← IntThreads.after] at h
  have key : ∀ (es : List IntEvent) (s : IntThreads), s.Good right → Settled s tuple →
      (∀ n r, s.threads[i]? = some (.returned n r) → 0 ≤ n ∧ n ≤ (right : Int) → ∃ f, r = .ok ((tuple, n.toNat), f)) →
      (∀ n r, (es.foldl (IntThreads.step right) s).threads[i]? = some (.returned n r) → 0 ≤ n ∧ n ≤ (right : Int) →
        ∃ f, r = .ok ((tuple, n.toNat), f)) := by
    intro es
    induction es with
    | nil => intro s _ _ h; exact h
    | cons e es ih =>
      intro s hg hs hold
      refine ih _ (IntThreads.step_good hg e) (IntThreads.step_settled hs e) ?_
      intro n r hr hn
      cases e with
      | call m =>
        simp only [IntThreads.step] at hr
        rw [List.getElem?_append] at hr
        split at hr
        · exact hold n r hr hn
        · cases hx : i - s.threads.length with
          | zero => rw [hx] at hr; simp at hr
          | succ k => rw [hx] at hr; simp at hr
      | run j =>
        simp only [IntThreads.step] at hr
        cases hj : s.threads[j]? with
        | none => rw [hj] at hr; exact hold n r hr hn
        | some pc =>
          rw [hj] at hr
          simp only at hr
          by_cases hji : j = i
          · subst hji
            have hjl := (List.getElem?_eq_some_iff.mp hj).1
            rw [List.getElem?_set_self hjl] at hr
            injection hr with hr
            obtain ⟨⟨t, ht⟩, h2⟩ := hs
            have hpc := h2 pc (List.mem_of_getElem? hj)
            have hgood := hg.2 pc (List.mem_of_getElem? hj)
            cases pc with
            | called m =>
              simp only [IntPC.step] at hr
              split at hr
              · cases hr
              · rename_i hm
                injection hr with h1 h2
                subst h1
                exact absurd hn hm
            | check m => simp only [IntPC.step] at hr; split at hr <;> cases hr
            | build m => exact absurd hpc id
            | assign m a b => exact absurd hpc id
            | load m =>
              simp only [IntPC.step, ht] at hr
              split at hr
              · injection hr with h1 h2
                have ht' := hg.1 _ _ ht
                rw [buildTuple_eq] at ht'
                injection ht' with ht'
                rename_i hnone
                rw [← ht', List.getElem?_map, List.getElem?_range (by subst h1; omega)] at hnone
                cases hnone
              · injection hr with h1 h2
                subst h1 h2
                exact ⟨_, rfl⟩
            | returned m q =>
              simp only [IntPC.step] at hr
              injection hr with h1 h2
              subst h1 h2
              exact hold _ _ hj hn
          · rw [List.getElem?_set_ne hji] at hr
            exact hold n r hr hn
  refine key later _ hg hs ?_ n r h hn
  intro n r hr
  have := (List.getElem?_eq_some_iff.mp hr).1
  omega

/-- The hypotheses are met: five steps for the first call and the cache is filled for good. -/
theorem settled_example (right : Nat) (h : 1 ≤ right) :
    Settled (IntThreads.after right [.call 1, .run 0, .run 0, .run 0, .run 0, .run 0]) 0 := by
  have h1 : (1 : Int) ≤ right := by omega
  have h2 : 1 < right + 1 := by omega
  simp [IntThreads.after, IntThreads.step, IntPC.step, buildTuple_eq, h1, h2, Settled]

example : stepsOf (numbers []).length [.run 0, .call 7, .run 0, .run 1, .run 0, .run 0, .run 0] = 5 := rfl

/-- C36 does not extend to threads: two calls that overlap can give two objects for one number, even though each was asked for the same
number. -/
theorem C96_identity_violated (right : Nat) (h : 1 ≤ right) : ∃ (events : List IntEvent) (f g : WordForm),
    (IntThreads.after right events).threads[0]? = some (.returned 1 (.ok ((0, 1), f))) ∧
    (IntThreads.after right events).threads[1]? = some (.returned 1 (.ok ((1, 1), g))) := by
  have h1 : (1 : Int) ≤ right := by omega
  have h2 : 1 < right + 1 := by omega
  refine ⟨[.call 1, .call 1, .run 0, .run 0, .run 1, .run 1, .run 0, .run 1, .run 0, .run 0, .run 1, .run 1], integerForm 1, integerForm 1, ?_⟩
  simp [IntThreads.after, IntThreads.step, IntPC.step, buildTuple_eq, h1, h2]

/-! ## C97: lazy attributes -/

section
variable {S V : Type}

/-- What is true of every read and of the attribute if nothing is deleted; `P` holds for all values that can be computed. -/
def LazyPC.Good (P : V → Prop) (hidden : Option V) : LazyPC V → Prop
  | .check | .compute => True
  | .set v => P v
  | .get => hidden ≠ none
  | .read r => ∃ v, r = .ok v ∧ P v
  | .dcheck | .ddel | .deleted _ => False

def LazyThreads.Good (P : V → Prop) (t : LazyThreads S V) : Prop :=
  (∀ v, t.obj.hidden = some v → P v) ∧ ∀ pc ∈ t.threads, pc.Good P t.obj.hidden

theorem LazyThreads.step_good {func : S → V} {P : V → Prop} {t : LazyThreads S V} (h : t.Good P) (hs : P (func t.obj.state))
    {e : LazyEvent S} (he : ∀ x, e = x → x ≠ .delete) : (t.step func e).Good P := by
  obtain ⟨h1, h2⟩ := h
  cases e with
  | read =>
    refine ⟨h1, ?_⟩
    intro pc hpc
    rcases List.mem_append.mp hpc with hpc | hpc
    · exact h2 pc hpc
    · rw [List.mem_singleton] at hpc; subst hpc; trivial
  | delete => exact absurd rfl (he _ rfl)
  | mutate s => exact ⟨h1, h2⟩
  | run i =>
    simp only [LazyThreads.step]
    cases hi : t.threads[i]? with
    | none => exact ⟨h1, h2⟩
    | some pc =>
      have hpc := h2 pc (List.mem_of_getElem? hi)
      have key : (∀ v, (pc.step func t.obj).2.hidden = some v → P v) ∧ (pc.step func t.obj).1.Good P (pc.step func t.obj).2.hidden ∧
          (t.obj.hidden ≠ none → (pc.step func t.obj).2.hidden ≠ none) := by
        cases pc with
        | check =>
          simp only [LazyPC.step]
          cases hh : t.obj.hidden with
          | none => simp [LazyPC.Good, hh]
          | some v => simpa [LazyPC.Good, hh] using h1 v hh
        | compute => exact ⟨h1, hs, id⟩
        | set v =>
          refine ⟨?_, ?_, ?_⟩
          · rintro w ⟨⟩; exact hpc
          · simp [LazyPC.step, LazyPC.Good]
          · simp [LazyPC.step]
        | get =>
          simp only [LazyPC.step]
          cases hh : t.obj.hidden with
          | none => exact absurd hh hpc
          | some v =>
            simp only [LazyPC.Good, hh]
            exact ⟨fun w e => by injection e with e; subst e; exact h1 _ hh, ⟨v, rfl, h1 v hh⟩, id⟩
        | read r => exact ⟨h1, hpc, id⟩
        | dcheck => exact absurd hpc id
        | ddel => exact absurd hpc id
        | deleted x => exact absurd hpc id
      refine ⟨key.1, ?_⟩
      intro q hq
      rcases List.mem_or_eq_of_mem_set hq with hq | rfl
      · have := h2 q hq
        cases q with
        | get => exact key.2.2 this
        | _ => exact this
      · exact key.2.1

theorem LazyThreads.step_state {func : S → V} {t : LazyThreads S V} (e : LazyEvent S) :
    (t.step func e).obj.state = match e with | .mutate s => s | _ => t.obj.state := by
  cases e with
  | read => rfl
  | delete => rfl
  | mutate s => rfl
  | run i =>
    simp only [LazyThreads.step]
    split
    · rfl
    · rename_i pc _
      cases pc <;> simp only [LazyPC.step] <;> (try rfl) <;> split <;> rfl

/-- C97: whatever the schedule, as long as nobody deletes the attribute, a finished read did not raise and gave the value computed from a
state the object had. -/
theorem C97_reads (func : S → V) (s : S) (events : List (LazyEvent S)) (h : .delete ∉ events) (i : Nat) (r : Except PyErr V)
    (hr : (LazyThreads.after func s events).threads[i]? = some (.read r)) :
    ∃ s' ∈ statesOf s events, r = .ok (func s') := by
  have key : ∀ (es : List (LazyEvent S)) (t : LazyThreads S V) (P : V → Prop), t.Good P → (∀ x ∈ statesOf t.obj.state es, P (func x)) →
      .delete ∉ es → (es.foldl (LazyThreads.step func) t).Good P := by
    intro es
    induction es with
    | nil => intro t P hg _ _; exact hg
    | cons e es ih =>
      intro t P hg hP hd
      have hs : P (func t.obj.state) := by
        cases e <;> simp only [statesOf] at hP
        case mutate => exact hP _ (by simp)
        all_goals
          refine hP _ ?_
          have : ∀ (es : List (LazyEvent S)) (a : S), a ∈ statesOf a es := by
            intro es
            induction es with
            | nil => intro a; simp [statesOf]
            | cons e es ih => intro a; cases e <;> simp [statesOf, ih]
          exact this _ _
      refine ih _ P (LazyThreads.step_good hg hs (by rintro x rfl rfl; exact hd (by simp))) ?_ (fun hx => hd (by simp [hx]))
      rw [LazyThreads.step_state]
      cases e <;> simp only [statesOf] at hP ⊢
      case mutate => exact fun x hx => hP x (by simp [hx])
      all_goals exact hP
  have := key events ⟨⟨s, none⟩, []⟩ (fun v => ∃ s' ∈ statesOf s events, v = func s') ⟨by simp, by simp⟩ (fun x hx => ⟨x, hx, rfl⟩) h
  obtain ⟨v, rfl, s', h1, rfl⟩ := this.2 _ (List.mem_of_getElem? hr)
  exact ⟨s', h1, rfl⟩

/-- C97: in particular all reads of an object that is not changed give the same value. -/
theorem C97_same_value (func : S → V) (s : S) (events : List (LazyEvent S)) (h : ∀ e ∈ events, e = .read ∨ ∃ i, e = .run i) (i : Nat)
    (r : Except PyErr V) (hr : (LazyThreads.after func s events).threads[i]? = some (.read r)) : r = .ok (func s) := by
  obtain ⟨s', hs, rfl⟩ := C97_reads func s events (by intro hd; rcases h _ hd with h | ⟨i, h⟩ <;> cases h) i r hr
  have : statesOf s events = [s] := by
    clear hs hr
    induction events with
    | nil => rfl
    | cons e es ih =>
      have := ih (fun x hx => h x (by simp [hx]))
      rcases h e (by simp) with rfl | ⟨i, rfl⟩ <;> exact this
  rw [this, List.mem_singleton] at hs
  rw [hs]

/-- Two threads read at the same time and both compute: the hypotheses are met, and the attribute is computed twice. -/
example (func : S → V) (s : S) : (LazyThreads.after func s [.read, .read, .run 0, .run 1, .run 0, .run 1, .run 0, .run 0, .run 1, .run 1]).threads =
    [.read (.ok (func s)), .read (.ok (func s))] := by
  simp [LazyThreads.after, LazyThreads.step, LazyPC.step]

/-- Deleting the attribute at the same time can make a read raise. -/
theorem C97_delete_violated (func : S → V) (s : S) : ∃ events : List (LazyEvent S),
    (LazyThreads.after func s events).threads[0]? = some (.read (.error .AttributeError)) :=
  ⟨[.read, .delete, .run 0, .run 0, .run 0, .run 1, .run 1, .run 0], by
    simp [LazyThreads.after, LazyThreads.step, LazyPC.step]⟩

/-- Two deletions at the same time can make one of them raise. -/
theorem C97_deletes_violated (func : S → V) (s : S) : ∃ events : List (LazyEvent S),
    (LazyThreads.after func s events).threads[2]? = some (.deleted (some .AttributeError)) :=
  ⟨[.read, .delete, .delete, .run 0, .run 0, .run 0, .run 1, .run 2, .run 1, .run 2], by
    simp [LazyThreads.after, LazyThreads.step, LazyPC.step]⟩

end

/-! ## C98: `add_template` -/

theorem contains_iff_get? {K V : Type} [DecidableEq K] {d : Dict K V} {k : K} : Dict.contains d k = true ↔ ∃ v, Dict.get? d k = some v := by
  rw [Dict.contains, Option.isSome_iff_exists]

section
variable {K T R : Type} [DecidableEq K]

/-- What is true of every state. -/
structure LexThreads.Good (s : LexThreads K T R) : Prop where
  range : ∀ k i, Dict.get? s.lexicon.data k = some i → i < s.lexicon.lists.length
  inj : ∀ k k' i, Dict.get? s.lexicon.data k = some i → Dict.get? s.lexicon.data k' = some i → k = k'
  load : ∀ c, (c, AddPC.load) ∈ s.threads → ∃ i, Dict.get? s.lexicon.data c.key = some i
  append : ∀ c i, (c, AddPC.append i) ∈ s.threads → i < s.lexicon.lists.length ∧ ∀ k', k' ≠ c.key → Dict.get? s.lexicon.data k' ≠ some i
  ok : ∀ c e, (c, AddPC.failed e) ∉ s.threads

theorem LexThreads.step_good {s : LexThreads K T R} (h : s.Good) (e : LexEvent K T R) : (s.step e).Good := by
  obtain ⟨h1, h2, h3, h4, h5⟩ := h
  cases e with
  | call c =>
    refine ⟨h1, h2, ?_, ?_, ?_⟩ <;> simp only [LexThreads.step, List.mem_append, List.mem_singleton, Prod.mk.injEq] <;> grind
  | run i =>
    simp only [LexThreads.step]
    cases hi : s.threads[i]? with
    | none => exact ⟨h1, h2, h3, h4, h5⟩
    | some x =>
      obtain ⟨c, pc⟩ := x
      have hm := List.mem_of_getElem? hi
      have hset : ∀ {y a}, a ∈ s.threads.set i y → a ∈ s.threads ∨ a = y := fun h => List.mem_or_eq_of_mem_set h
      cases pc with
      | check =>
        by_cases hc : Dict.contains s.lexicon.data c.key
        · simp only [AddCall.step, hc, if_true]
          rw [contains_iff_get?] at hc
          refine ⟨h1, h2, ?_, ?_, ?_⟩ <;> grind
        · simp only [AddCall.step, hc]
          refine ⟨h1, h2, ?_, ?_, ?_⟩ <;> grind
      | create =>
        simp only [AddCall.step]
        refine ⟨?_, ?_, ?_, ?_, ?_⟩ <;> simp only [Dict.get?_set, List.length_append, List.length_singleton]
        · grind
        · grind
        · intro c' hc'
          by_cases hk : c.key = c'.key
          · exact ⟨_, if_pos hk⟩
          · rw [if_neg hk]
            rcases hset hc' with hc' | hc'
            · exact h3 c' hc'
            · injection hc' with hc'
              exact absurd (by rw [hc']) hk
        · grind
        · grind
      | load =>
        obtain ⟨j, hj⟩ := h3 c hm
        simp only [AddCall.step, hj]
        refine ⟨h1, h2, ?_, ?_, ?_⟩ <;> grind
      | append j =>
        simp only [AddCall.step]
        refine ⟨?_, h2, ?_, ?_, ?_⟩ <;> simp only [List.length_modify] <;> grind
      | done =>
        simp only [AddCall.step]
        refine ⟨h1, h2, ?_, ?_, ?_⟩ <;> grind
      | failed e => exact absurd hm (h5 c e)

theorem LexThreads.after_good (events : List (LexEvent K T R)) : (LexThreads.after events).Good := by
  have key : ∀ (es : List (LexEvent K T R)) (s : LexThreads K T R), s.Good → (es.foldl LexThreads.step s).Good := by
    intro es
    induction es with
    | nil => intro s h; exact h
    | cons e es ih => intro s h; exact ih _ (LexThreads.step_good h e)
  exact key events _ ⟨by simp [Dict.get?], by simp [Dict.get?], by simp, by simp, by simp⟩

/-- C98: whatever the schedule, `add_template` does not raise. -/
theorem C98_no_errors (events : List (LexEvent K T R)) (c : AddCall K T R) (e : PyErr) : (c, AddPC.failed e) ∉ (LexThreads.after events).threads :=
  (LexThreads.after_good events).ok c e

theorem filterMap_set_none {α β : Type} {f : α → Option β} {l : List α} {i : Nat} {x y : α} (hi : l[i]? = some x) (hxy : f x = f y) :
    (l.set i y).filterMap f = l.filterMap f := by
  induction l generalizing i with
  | nil => simp at hi
  | cons a l ih =>
    cases i with
    | zero => simp at hi; subst hi; simp [List.filterMap_cons, hxy]
    | succ i => simp at hi; simp [List.filterMap_cons, ih hi]

theorem filterMap_set_some {α β : Type} {f : α → Option β} {l : List α} {i : Nat} {x y : α} {b : β} (hi : l[i]? = some x) (hx : f x = none)
    (hy : f y = some b) : ((l.set i y).filterMap f).Perm (l.filterMap f ++ [b]) := by
  induction l generalizing i with
  | nil => simp at hi
  | cons a l ih =>
    cases i with
    | zero =>
      simp at hi; subst hi
      simp only [List.set_cons_zero, List.filterMap_cons, hx, hy]
      exact (List.perm_append_singleton _ _).symm
    | succ i =>
      simp at hi
      simp only [List.set_cons_succ, List.filterMap_cons]
      cases f a with
      | none => exact ih hi
      | some c => exact (ih hi).cons c

/-- What is true of a known key while calls run. -/
structure LexThreads.Known (key : K) (list : Nat) (base : List (T × Finset R)) (old : List (AddCall K T R × AddPC)) (s : LexThreads K T R) : Prop where
  good : s.Good
  known : Dict.get? s.lexicon.data key = some list
  create : ∀ c, (c, AddPC.create) ∈ s.threads → c.key ≠ key
  append : ∀ c i, (c, AddPC.append i) ∈ s.threads → c.key = key → i = list
  entries : ∃ new calls, s.lexicon.lists[list]? = some (base ++ new) ∧ s.threads = old ++ calls ∧ new.Perm (finishedFor key calls)
  old : ∀ c ∈ old, c.2 = .done

theorem LexThreads.step_known {key : K} {list : Nat} {base : List (T × Finset R)} {old : List (AddCall K T R × AddPC)} {s : LexThreads K T R}
    (h : s.Known key list base old) (e : LexEvent K T R) : (s.step e).Known key list base old := by
  have hg := LexThreads.step_good h.good e
  obtain ⟨⟨g1, g2, g3, g4, g5⟩, h1, h2, h3, ⟨new, calls, h4, h5, h6⟩, h7⟩ := h
  cases e with
  | call c =>
    refine ⟨hg, h1, ?_, ?_, ⟨new, calls ++ [(c, .check)], h4, ?_, ?_⟩, h7⟩
    · simp only [LexThreads.step, List.mem_append, List.mem_singleton]; grind
    · simp only [LexThreads.step, List.mem_append, List.mem_singleton]; grind
    · simp [LexThreads.step, h5]
    · simpa [finishedFor] using h6
  | run i =>
    simp only [LexThreads.step] at hg ⊢
    cases hi : s.threads[i]? with
    | none => exact ⟨⟨g1, g2, g3, g4, g5⟩, h1, h2, h3, ⟨new, calls, h4, h5, h6⟩, h7⟩
    | some x =>
      obtain ⟨c, pc⟩ := x
      rw [hi] at hg
      simp only at hg ⊢
      have hm := List.mem_of_getElem? hi
      have hset : ∀ {y a}, a ∈ s.threads.set i y → a ∈ s.threads ∨ a = y := fun h => List.mem_or_eq_of_mem_set h
      -- a call that is already finished
      by_cases hlt : i < old.length
      · have hd : pc = .done := by
          rw [h5, List.getElem?_append_left hlt] at hi
          exact h7 _ (List.mem_of_getElem? hi)
        subst hd
        have hself : s.threads.set i (c, .done) = s.threads := by
          obtain ⟨hl, he⟩ := List.getElem?_eq_some_iff.mp hi
          rw [← he, List.set_getElem_self]
        simp only [AddCall.step, hself]
        exact ⟨⟨g1, g2, g3, g4, g5⟩, h1, h2, h3, ⟨new, calls, h4, h5, h6⟩, h7⟩
      · have hic : calls[i - old.length]? = some (c, pc) := by
          rw [h5, List.getElem?_append_right (by omega)] at hi; exact hi
        have hcalls : ∀ y, s.threads.set i y = old ++ calls.set (i - old.length) y := by
          intro y; rw [h5, List.set_append_right _ _ (by omega)]
        have hsame : ∀ pc', pc ≠ .done → pc' ≠ .done →
            ∃ calls', s.threads.set i (c, pc') = old ++ calls' ∧ new.Perm (finishedFor key calls') := by
          intro pc' n1 n2
          refine ⟨_, hcalls _, ?_⟩
          unfold finishedFor
          rw [filterMap_set_none hic (by simp [n1, n2])]
          exact h6
        cases pc with
        | check =>
          by_cases hc : Dict.contains s.lexicon.data c.key
          · obtain ⟨calls', a, b⟩ := hsame .load (by simp) (by simp)
            simp only [AddCall.step, hc, if_true] at hg ⊢
            exact ⟨hg, h1, by grind, by grind, ⟨new, calls', h4, a, b⟩, h7⟩
          · obtain ⟨calls', a, b⟩ := hsame .create (by simp) (by simp)
            simp only [AddCall.step, hc, if_false, Bool.false_eq_true] at hg ⊢
            refine ⟨hg, h1, ?_, by grind, ⟨new, calls', h4, a, b⟩, h7⟩
            intro c' hc'
            rcases hset hc' with hc' | hc'
            · exact h2 c' hc'
            · injection hc' with hc'
              subst hc'
              rintro rfl
              exact hc (contains_iff_get?.mpr ⟨_, h1⟩)
        | create =>
          have hk := h2 c hm
          obtain ⟨calls', a, b⟩ := hsame .load (by simp) (by simp)
          have hl := g1 _ _ h1
          simp only [AddCall.step] at hg ⊢
          refine ⟨hg, by simp only [Dict.get?_set, if_neg hk, h1], by grind, by grind, ⟨new, calls', ?_, a, b⟩, h7⟩
          rw [List.getElem?_append_left hl, h4]
        | load =>
          obtain ⟨j, hj⟩ := g3 c hm
          obtain ⟨calls', a, b⟩ := hsame (.append j) (by simp) (by simp)
          simp only [AddCall.step, hj] at hg ⊢
          exact ⟨hg, h1, by grind, by grind, ⟨new, calls', h4, a, b⟩, h7⟩
        | append j =>
          simp only [AddCall.step] at hg ⊢
          by_cases hk : c.key = key
          · have hj := h3 c j hm hk
            subst hj
            refine ⟨hg, h1, by grind, by grind, ⟨new ++ [(c.template, c.restrictions)], _, ?_, hcalls _, ?_⟩, h7⟩
            · rw [List.getElem?_modify_eq, h4]; simp
            · refine (h6.append_right _).trans ?_
              unfold finishedFor
              exact (filterMap_set_some hic (by simp) (by simp [hk])).symm
          · have hj : j ≠ list := by
              rintro rfl
              exact (g4 c j hm).2 key (Ne.symm hk) h1
            refine ⟨hg, h1, by grind, by grind, ⟨new, _, ?_, hcalls _, ?_⟩, h7⟩
            · simp [List.getElem?_modify, hj, h4]
            · unfold finishedFor
              rw [filterMap_set_none hic (by simp [hk])]
              exact h6
        | done =>
          have hself : s.threads.set i (c, .done) = s.threads := by
            obtain ⟨hl, he⟩ := List.getElem?_eq_some_iff.mp hi
            rw [← he, List.set_getElem_self]
          simp only [AddCall.step, hself]
          exact ⟨⟨g1, g2, g3, g4, g5⟩, h1, h2, h3, ⟨new, calls, h4, h5, h6⟩, h7⟩
        | failed e => exact absurd hm (g5 c e)

/-- C98 (partial): if a key is known and no call is running, then whatever calls run in whatever schedule, the list of the key keeps
its templates and gets those of the finished calls, each once. Missing: keys that are added for the first time by calls running at the
same time, for which the claim is false (`C98_violated`). -/
theorem C98_known_key_partial (before later : List (LexEvent K T R)) (key : K)
    (hk : (LexThreads.after before).lexicon.entries key ≠ [])
    (hq : ∀ c ∈ (LexThreads.after before).threads, c.2 = .done) :
    ∃ new calls, (LexThreads.after (before ++ later)).lexicon.entries key = (LexThreads.after before).lexicon.entries key ++ new ∧
      (LexThreads.after (before ++ later)).threads = (LexThreads.after before).threads ++ calls ∧ new.Perm (finishedFor key calls) := by
  have hg := LexThreads.after_good before
  rw [LexThreads.after, List.foldl_append, ← LexThreads.after]
  generalize LexThreads.after before = s at *
  unfold SharedLexicon.entries at hk ⊢
  cases hd : Dict.get? s.lexicon.data key with
  | none => rw [hd] at hk; exact absurd rfl hk
  | some i =>
    have hi := hg.range _ _ hd
    have key' : ∀ (es : List (LexEvent K T R)) (s' : LexThreads K T R), s'.Known key i (s.lexicon.lists[i]) s.threads →
        (es.foldl LexThreads.step s').Known key i (s.lexicon.lists[i]) s.threads := by
      intro es
      induction es with
      | nil => intro s' h; exact h
      | cons e es ih => intro s' h; exact ih _ (LexThreads.step_known h e)
    have h0 : s.Known key i (s.lexicon.lists[i]) s.threads := by
      refine ⟨hg, hd, ?_, ?_, ⟨[], [], by simp [hi], by simp, by simp [finishedFor]⟩, hq⟩
      · intro c hc; have := hq _ hc; simp at this
      · intro c j hc; have := hq _ hc; simp at this
    obtain ⟨-, k1, -, -, ⟨new, calls, k2, k3, k4⟩, -⟩ := key' later s h0
    refine ⟨new, calls, ?_, k3, k4⟩
    simp only [k1, k2, hi, List.getElem?_eq_getElem, Option.getD_some]

/-- C98 is false of the code for new keys: of two calls for a new key that overlap, one template can be lost. -/
theorem C98_violated (key : K) (t t' : T) : ∃ events : List (LexEvent K T R),
    (LexThreads.after events).threads = [(⟨key, t, ∅⟩, .done), (⟨key, t', ∅⟩, .done)] ∧
    (LexThreads.after events).lexicon.entries key = [(t', ∅)] :=
  ⟨[.call ⟨key, t, ∅⟩, .call ⟨key, t', ∅⟩, .run 0, .run 1, .run 0, .run 0, .run 0, .run 1, .run 1, .run 1], by
    simp [LexThreads.after, LexThreads.step, AddCall.step, Dict.contains, Dict.get?, Dict.set, SharedLexicon.entries]⟩

/-- The hypotheses of `C98_known_key_partial` are met after one call. -/
example (key : K) (t : T) : let s := LexThreads.after (R := R) [.call ⟨key, t, ∅⟩, .run 0, .run 0, .run 0, .run 0]
    s.lexicon.entries key = [(t, ∅)] ∧ s.threads = [(⟨key, t, ∅⟩, .done)] := by
  simp [LexThreads.after, LexThreads.step, AddCall.step, Dict.contains, Dict.get?, Dict.set, SharedLexicon.entries]

end

end Utg
