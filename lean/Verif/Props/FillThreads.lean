import Verif.Spec.FillThreads
import Verif.Props.Autofill
import Mathlib.Data.List.Induction
/-! # Property C118: several threads call `autofill_missed_forms` of one word -/

namespace Utg
open Py Spec

theorem filling_append (w : Word) (a b : List AutofillEvent) :
    filling w (a ++ b) = b.foldl AutofillThreads.step (filling w a) := by
  unfold filling; rw [List.foldl_append]

theorem steps_induction {P : AutofillThreads → Prop} (hstart : ∀ s, P s → P (s.step .start))
    (hturn : ∀ s (c : Nat) (pc : AutofillPC), P s → s.calls[c]? = some pc → P (s.step (.turn c))) :
    ∀ (events : List AutofillEvent) (s : AutofillThreads), P s → P (events.foldl AutofillThreads.step s) := by
  intro events
  induction events with
  | nil => intro s h; exact h
  | cons e es ih =>
    intro s h
    refine ih _ ?_
    cases e with
    | start => exact hstart s h
    | turn c =>
      cases hc : s.calls[c]? with
      | none => simpa only [AutofillThreads.step, hc] using h
      | some pc => exact hturn s c pc h hc

theorem step_turn {s : AutofillThreads} {c : Nat} {pc : AutofillPC} (h : s.calls[c]? = some pc) :
    s.step (.turn c) =
      ⟨s.type, (autofillTurn s.type s.forms pc).2, s.calls.set c (autofillTurn s.type s.forms pc).1⟩ := by
  simp only [AutofillThreads.step, h]

/-- The collected keys belong to slots that are filled now. -/
def SeenNow (t : WordType) (forms : List Str) (available : List Key) : Prop :=
  ∀ k ∈ available, ∃ (j : Nat) (f : Str), (invertedCache t)[j]? = some k ∧ forms[j]? = some f ∧ f ≠ []

/-- The collected keys include those of the forms that were present from the beginning, below this slot. -/
def Covering (orig : List Str) (index : Nat) (available : List Key) : Prop :=
  ∀ (j : Nat) (f : Str), j < index → orig[j]? = some f → f ≠ [] → available ≠ []

/-- All slots below this one are filled. -/
def FilledTo (forms : List Str) (i : Nat) : Prop := ∀ j : Nat, j < i → forms[j]? ≠ some []

/-- What is true of a call, wherever it is. -/
def CallOk (t : WordType) (orig forms : List Str) : AutofillPC → Prop
  | .scan index available => index ≤ orig.length ∧ SeenNow t forms available ∧ Covering orig index available
  | .test i available => i ≤ orig.length ∧ SeenNow t forms available ∧ Covering orig orig.length available ∧
      (available ≠ [] → FilledTo forms i)
  | .read i j available => i < orig.length ∧ SeenNow t forms available ∧ Covering orig orig.length available ∧
      (available ≠ [] → FilledTo forms i) ∧ orig[i]? = some [] ∧ ∃ f, forms[j]? = some f ∧ f ≠ []
  | .store i text available => i < orig.length ∧ SeenNow t forms available ∧ Covering orig orig.length available ∧
      (available ≠ [] → FilledTo forms i) ∧ orig[i]? = some [] ∧ text ≠ [] ∧ text ∈ orig
  | .done => (∃ f ∈ orig, f ≠ []) → FilledTo forms orig.length
  | .failed _ => False

/-- What is true of the forms. -/
structure FormsOk (orig forms : List Str) : Prop where
  length : forms.length = orig.length
  kept : ∀ (i : Nat) (f : Str), orig[i]? = some f → f ≠ [] → forms[i]? = some f
  texts : ∀ f ∈ forms, f = [] ∨ f ∈ orig

theorem grow_seen {t : WordType} {forms forms' : List Str} {av : List Key}
    (hg : ∀ (j : Nat) (f : Str), forms[j]? = some f → f ≠ [] → ∃ f', forms'[j]? = some f' ∧ f' ≠ [])
    (h : SeenNow t forms av) : SeenNow t forms' av := by
  intro k hk
  obtain ⟨j, f, h1, h2, h3⟩ := h k hk
  obtain ⟨f', h4, h5⟩ := hg j f h2 h3
  exact ⟨j, f', h1, h4, h5⟩

theorem grow_filled {forms forms' : List Str} {n : Nat} (hl : forms.length = forms'.length) (hn : n ≤ forms.length)
    (hg : ∀ (j : Nat) (f : Str), forms[j]? = some f → f ≠ [] → ∃ f', forms'[j]? = some f' ∧ f' ≠ [])
    (h : FilledTo forms n) : FilledTo forms' n := by
  intro j hj hc
  have hlt : j < forms.length := by omega
  have h1 := h j hj
  rw [List.getElem?_eq_getElem hlt] at h1
  obtain ⟨f', h4, h5⟩ := hg j _ (List.getElem?_eq_getElem hlt) (by simpa using h1)
  rw [h4] at hc; injection hc with hc; exact h5 hc

theorem grow_call {t : WordType} {orig forms forms' : List Str} (hl : forms.length = forms'.length) (ho : forms.length = orig.length)
    (hg : ∀ (j : Nat) (f : Str), forms[j]? = some f → f ≠ [] → ∃ f', forms'[j]? = some f' ∧ f' ≠ [])
    (pc : AutofillPC) (h : CallOk t orig forms pc) : CallOk t orig forms' pc := by
  cases pc with
  | scan index av => exact ⟨h.1, grow_seen hg h.2.1, h.2.2⟩
  | test i av => exact ⟨h.1, grow_seen hg h.2.1, h.2.2.1, fun x => grow_filled hl (by have := h.1; omega) hg (h.2.2.2 x)⟩
  | read i j av =>
    obtain ⟨f, h1, h2⟩ := h.2.2.2.2.2
    exact ⟨h.1, grow_seen hg h.2.1, h.2.2.1, fun x => grow_filled hl (by have := h.1; omega) hg (h.2.2.2.1 x), h.2.2.2.2.1, hg j f h1 h2⟩
  | store i text av =>
    exact ⟨h.1, grow_seen hg h.2.1, h.2.2.1, fun x => grow_filled hl (by have := h.1; omega) hg (h.2.2.2.1 x), h.2.2.2.2⟩
  | done => exact fun x => grow_filled hl (by omega) hg (h x)
  | failed e => exact h

/-- One step keeps everything that is true of the forms and of the call, and empties no slot. -/
theorem turn_ok {t : WordType} {orig forms : List Str} (h : orig.length = (invertedCache t).length) (hf : FormsOk orig forms)
    (pc : AutofillPC) (hc : CallOk t orig forms pc) :
    FormsOk orig (autofillTurn t forms pc).2 ∧ CallOk t orig (autofillTurn t forms pc).2 (autofillTurn t forms pc).1 ∧
      ∀ (j : Nat) (f : Str), forms[j]? = some f → f ≠ [] → ∃ f', (autofillTurn t forms pc).2[j]? = some f' ∧ f' ≠ [] := by
  have hl := hf.length
  cases pc with
  | done => exact ⟨hf, hc, fun j f h1 h2 => ⟨f, h1, h2⟩⟩
  | failed e => exact hc.elim
  | scan index av =>
    obtain ⟨h1, h2, h3⟩ := hc
    unfold autofillTurn
    simp only
    by_cases hi : index < forms.length
    · have hk : index < (invertedCache t).length := by omega
      rw [List.getElem?_eq_getElem hi, List.getElem?_eq_getElem hk]
      cases hfi : forms[index] with
      | nil =>
        refine ⟨hf, ⟨by omega, h2, ?_⟩, fun j f h1 h2 => ⟨f, h1, h2⟩⟩
        intro j f hj ho hne
        rcases Nat.lt_succ_iff_lt_or_eq.mp hj with hj | rfl
        · exact h3 j f hj ho hne
        · have := hf.kept j f ho hne
          rw [List.getElem?_eq_getElem hi, hfi] at this
          injection this with this; exact absurd this.symm hne
      | cons c cs =>
        refine ⟨hf, ⟨by omega, ?_, ?_⟩, fun j f h1 h2 => ⟨f, h1, h2⟩⟩
        · intro k hk'
          rcases List.mem_append.mp hk' with hk' | hk'
          · exact h2 k hk'
          · rw [List.mem_singleton] at hk'; subst hk'
            exact ⟨index, c :: cs, List.getElem?_eq_getElem hk, by rw [List.getElem?_eq_getElem hi, hfi], by simp⟩
        · intro _ _ _ _ _; simp
    · rw [List.getElem?_eq_none (by omega)]
      refine ⟨hf, ⟨by omega, h2, ?_, fun _ j hj => by omega⟩, fun j f h1 h2 => ⟨f, h1, h2⟩⟩
      have : index = orig.length := by omega
      exact this ▸ h3
  | test i av =>
    obtain ⟨h1, h2, h3, h4⟩ := hc
    unfold autofillTurn
    simp only
    by_cases hi : i < forms.length
    · have hk : i < (invertedCache t).length := by omega
      rw [List.getElem?_eq_getElem hi, List.getElem?_eq_getElem hk]
      simp only
      by_cases hfi : forms[i] = []
      · rw [if_neg (by simp [hfi])]
        have hoi : orig[i]? = some [] := by
          have hio : i < orig.length := by omega
          rw [List.getElem?_eq_getElem hio]
          by_cases he : orig[i] = []
          · rw [he]
          · have := hf.kept i _ (List.getElem?_eq_getElem hio) he
            rw [List.getElem?_eq_getElem hi, hfi] at this
            injection this with this; exact absurd this.symm he
        cases hg : getNearestKey (invertedCache t)[i] av with
        | none =>
          rw [getNearestKey_eq_none] at hg
          exact ⟨hf, ⟨by omega, h2, h3, fun x => absurd hg x⟩, fun j f h1 h2 => ⟨f, h1, h2⟩⟩
        | some nk =>
          obtain ⟨j, f, e1, e2, e3⟩ := h2 nk (getNearestKey_mem hg)
          simp only [wordsCache_get?.mpr e1]
          exact ⟨hf, ⟨by omega, h2, h3, h4, hoi, f, e2, e3⟩, fun j f h1 h2 => ⟨f, h1, h2⟩⟩
      · rw [if_pos hfi]
        refine ⟨hf, ⟨by omega, h2, h3, ?_⟩, fun j f h1 h2 => ⟨f, h1, h2⟩⟩
        intro x j hj
        rcases Nat.lt_succ_iff_lt_or_eq.mp hj with hj | rfl
        · exact h4 x j hj
        · rw [List.getElem?_eq_getElem hi]; simpa using hfi
    · rw [List.getElem?_eq_none (by omega)]
      refine ⟨hf, ?_, fun j f h1 h2 => ⟨f, h1, h2⟩⟩
      rintro ⟨f, hfm, hne⟩
      obtain ⟨j, hj⟩ := List.mem_iff_getElem?.mp hfm
      have hjl := (List.getElem?_eq_some_iff.mp hj).1
      have := h4 (h3 j f hjl hj hne)
      have hii : i = orig.length := by omega
      exact hii ▸ this
  | read i j av =>
    obtain ⟨h1, h2, h3, h4, h5, f, e1, e2⟩ := hc
    unfold autofillTurn
    simp only [e1]
    refine ⟨hf, ⟨h1, h2, h3, h4, h5, e2, ?_⟩, fun j f h1 h2 => ⟨f, h1, h2⟩⟩
    exact (hf.texts f (List.mem_of_getElem? e1)).resolve_left e2
  | store i text av =>
    obtain ⟨h1, h2, h3, h4, h5, h6, h7⟩ := hc
    unfold autofillTurn
    simp only
    have hil : i < forms.length := by omega
    have hg : ∀ (j : Nat) (f : Str), forms[j]? = some f → f ≠ [] → ∃ f', (forms.set i text)[j]? = some f' ∧ f' ≠ [] := by
      intro j f hj hne
      by_cases hij : i = j
      · subst hij; exact ⟨text, by rw [List.getElem?_set_self hil], h6⟩
      · exact ⟨f, by rw [List.getElem?_set_ne hij, hj], hne⟩
    refine ⟨⟨by simp [hl], ?_, ?_⟩, ⟨by omega, grow_seen hg h2, h3, ?_⟩, hg⟩
    · intro j f hj hne
      by_cases hij : i = j
      · subst hij; rw [h5] at hj; injection hj with hj; exact absurd hj.symm hne
      · rw [List.getElem?_set_ne hij]; exact hf.kept j f hj hne
    · intro f hfm
      rcases List.mem_or_eq_of_mem_set hfm with hfm | rfl
      · exact hf.texts f hfm
      · exact Or.inr h7
    · intro x j hj
      rcases Nat.lt_succ_iff_lt_or_eq.mp hj with hj | rfl
      · exact grow_filled (by simp) (by omega) hg (h4 x) j hj
      · rw [List.getElem?_set_self hil]; simpa using h6

/-- What is true at any time. -/
structure ThreadsOk (t : WordType) (orig : List Str) (s : AutofillThreads) : Prop where
  type : s.type = t
  forms : FormsOk orig s.forms
  calls : ∀ pc ∈ s.calls, CallOk t orig s.forms pc

theorem threadsOk {t : WordType} {orig : List Str} (h : orig.length = (invertedCache t).length) (events : List AutofillEvent)
    (s : AutofillThreads) (hs : ThreadsOk t orig s) : ThreadsOk t orig (events.foldl AutofillThreads.step s) := by
  refine steps_induction ?_ ?_ events s hs
  · intro s hs
    refine ⟨hs.type, hs.forms, ?_⟩
    intro pc hpc
    rcases List.mem_append.mp hpc with hpc | hpc
    · exact hs.calls pc hpc
    · rw [List.mem_singleton] at hpc; subst hpc
      exact ⟨Nat.zero_le _, fun k hk => absurd hk (by simp), fun j f hj => absurd hj (by omega)⟩
  · intro s c pc hs hc
    rw [step_turn hc]
    have ht := hs.type
    obtain ⟨a, b, g⟩ := turn_ok h hs.forms pc (hs.calls pc (List.mem_of_getElem? hc))
    rw [← ht] at a b g
    refine ⟨ht, a, ?_⟩
    intro pc' hpc'
    rcases List.mem_or_eq_of_mem_set hpc' with hpc' | rfl
    · exact grow_call (by rw [hs.forms.length, a.length]) hs.forms.length g pc' (hs.calls pc' hpc')
    · exact ht ▸ b

theorem filling_ok (w : Word) (hw : Accepted w) (events : List AutofillEvent) : ThreadsOk w.type w.forms (filling w events) :=
  threadsOk (accepted_iff.mp hw).2 events _
    ⟨rfl, ⟨rfl, fun _ _ h _ => h, fun _ h => Or.inr h⟩, fun _ h => absurd h (by simp)⟩

/-- C118: at any time, whatever the threads do, a form that was present is the form it was, and every other form is empty or the text
of one that was. -/
theorem C118_present_kept (w : Word) (hw : Accepted w) (events : List AutofillEvent) :
    (filling w events).forms.length = w.forms.length ∧
    (∀ (i : Nat) (f : Str), w.forms[i]? = some f → f ≠ [] → (filling w events).forms[i]? = some f) ∧
    ∀ f ∈ (filling w events).forms, f = [] ∨ f ∈ w.forms :=
  let h := (filling_ok w hw events).forms
  ⟨h.length, h.kept, h.texts⟩

/-- C118: when any of the calls has returned, no form is missing, if one was present. -/
theorem C118_complete (w : Word) (hw : Accepted w) (events : List AutofillEvent) (call : Nat) (hr : Returned (filling w events) call)
    (hex : ∃ f ∈ w.forms, f ≠ []) : ∀ f ∈ (filling w events).forms, f ≠ [] := by
  have h := filling_ok w hw events
  intro f hf he
  obtain ⟨j, hj⟩ := List.mem_iff_getElem?.mp hf
  have hjl := (List.getElem?_eq_some_iff.mp hj).1
  exact h.calls _ (List.mem_of_getElem? hr) hex j (by rw [← h.forms.length]; exact hjl) (by rw [hj, he])

/-- A slot that is filled is never empty again. -/
theorem C118_stays_filled (w : Word) (hw : Accepted w) (before later : List AutofillEvent) (i : Nat) (f : Str)
    (hi : (filling w before).forms[i]? = some f) (hne : f ≠ []) :
    ∃ f', (filling w (before ++ later)).forms[i]? = some f' ∧ f' ≠ [] := by
  rw [filling_append]
  have h2 := (accepted_iff.mp hw).2
  have := steps_induction (P := fun s => ThreadsOk w.type w.forms s ∧ ∃ f', s.forms[i]? = some f' ∧ f' ≠ [])
    (fun s hs => ⟨threadsOk h2 [.start] s hs.1, hs.2⟩) (by
      intro s c pc hs hc
      refine ⟨threadsOk h2 [.turn c] s hs.1, ?_⟩
      obtain ⟨f', e1, e2⟩ := hs.2
      rw [step_turn hc]
      obtain ⟨_, _, g⟩ := turn_ok h2 hs.1.forms pc (hs.1.calls pc (List.mem_of_getElem? hc))
      rw [hs.1.type]
      exact g i f' e1 e2) later _ ⟨filling_ok w hw before, f, hi, hne⟩
  exact this.2

/-- How many turns a call still needs at most, for a word of `n` slots. -/
def autofillLeft (n : Nat) : AutofillPC → Nat
  | .scan index _ => (n - index) + 1 + (3 * n + 1)
  | .test i _ => 3 * (n - i) + 1
  | .read i _ _ => 3 * (n - i)
  | .store i _ _ => 3 * (n - i) - 1
  | .done => 0
  | .failed _ => 0

theorem turn_less {t : WordType} {orig forms : List Str} (h : orig.length = (invertedCache t).length) (hf : FormsOk orig forms)
    (pc : AutofillPC) (hc : CallOk t orig forms pc) :
    autofillLeft orig.length (autofillTurn t forms pc).1 ≤ autofillLeft orig.length pc - 1 ∧ (autofillLeft orig.length pc = 0 → pc = .done) := by
  have hl := hf.length
  have hn := (turn_ok h hf pc hc).2.1
  cases pc with
  | done => exact ⟨Nat.zero_le _, fun _ => rfl⟩
  | failed e => exact hc.elim
  | scan index av =>
    refine ⟨?_, fun h0 => by simp only [autofillLeft] at h0; omega⟩
    revert hn
    unfold autofillTurn
    dsimp only
    have h1 := hc.1
    split
    · intro _; simp only [autofillLeft]; omega
    · rename_i hi; have := (List.getElem?_eq_some_iff.mp hi).1; intro _; simp only [autofillLeft]; omega
    · rename_i hi; have := (List.getElem?_eq_some_iff.mp hi).1
      split
      · intro hh; exact hh.elim
      · intro _; simp only [autofillLeft]; omega
  | test i av =>
    refine ⟨?_, fun h0 => by simp only [autofillLeft] at h0; omega⟩
    revert hn
    unfold autofillTurn
    dsimp only
    split
    · intro _; simp only [autofillLeft]; omega
    · rename_i hi; have := (List.getElem?_eq_some_iff.mp hi).1
      split
      · intro _; simp only [autofillLeft]; omega
      · split
        · intro hh; exact hh.elim
        · split
          · intro _; simp only [autofillLeft]; omega
          · split
            · intro hh; exact hh.elim
            · intro _; simp only [autofillLeft]; omega
  | read i j av =>
    have h1 := hc.1
    refine ⟨?_, fun h0 => by simp only [autofillLeft] at h0; omega⟩
    revert hn
    unfold autofillTurn
    dsimp only
    split
    · intro hh; exact hh.elim
    · intro _; simp only [autofillLeft]; omega
  | store i text av =>
    have h1 := hc.1
    refine ⟨?_, fun h0 => by simp only [autofillLeft] at h0; omega⟩
    simp only [autofillTurn, autofillLeft]; omega

theorem calls_begun (w : Word) (events : List AutofillEvent) : (filling w events).calls.length = callsBegun events := by
  suffices h : ∀ (events : List AutofillEvent) (s : AutofillThreads),
      (events.foldl AutofillThreads.step s).calls.length = s.calls.length + callsBegun events by
    unfold filling; rw [h]; simp
  intro events
  induction events with
  | nil => intro s; simp [callsBegun]
  | cons e es ih =>
    intro s
    rw [List.foldl_cons, ih]
    cases e with
    | start => simp [AutofillThreads.step, callsBegun]; omega
    | turn c =>
      have : (s.step (.turn c)).calls.length = s.calls.length := by
        cases hc : s.calls[c]? with
        | none => simp only [AutofillThreads.step, hc]
        | some pc => rw [step_turn hc]; simp
      rw [this]; simp [callsBegun]

theorem enough_turns {t : WordType} {orig : List Str} (h : orig.length = (invertedCache t).length) (c : Nat) :
    ∀ (events : List AutofillEvent) (s : AutofillThreads) (pc : AutofillPC), ThreadsOk t orig s → s.calls[c]? = some pc →
      autofillLeft orig.length pc ≤ turnsOfCall c events → (events.foldl AutofillThreads.step s).calls[c]? = some .done := by
  intro events
  induction events with
  | nil =>
    intro s pc hs hc hle
    have := (turn_less h hs.forms pc (hs.calls pc (List.mem_of_getElem? hc))).2 (by simpa [turnsOfCall] using hle)
    exact this ▸ hc
  | cons e es ih =>
    intro s pc hs hc hle
    rw [List.foldl_cons]
    have hs' : ThreadsOk t orig (s.step e) := threadsOk h [e] s hs
    have hlt := (List.getElem?_eq_some_iff.mp hc).1
    cases e with
    | start =>
      refine ih _ pc hs' ?_ (by simpa [turnsOfCall] using hle)
      show (s.calls ++ _)[c]? = _
      rw [List.getElem?_append_left hlt, hc]
    | turn c' =>
      by_cases hcc : c' = c
      · subst hcc
        have hd := (turn_less h hs.forms pc (hs.calls pc (List.mem_of_getElem? hc))).1
        refine ih _ (autofillTurn t s.forms pc).1 hs' ?_ ?_
        · rw [step_turn hc, hs.type]
          exact List.getElem?_set_self hlt
        · have : turnsOfCall c' (.turn c' :: es) = turnsOfCall c' es + 1 := by simp [turnsOfCall]
          omega
      · refine ih _ pc hs' ?_ (by simpa [turnsOfCall, hcc] using hle)
        cases hc' : s.calls[c']? with
        | none => simpa only [AutofillThreads.step, hc'] using hc
        | some pc' =>
          rw [step_turn hc']
          show (s.calls.set c' _)[c]? = _
          rw [List.getElem?_set_ne hcc, hc]

/-- C118: a call never raises, and returns after at most `4 * n + 2` of its own turns for a word of `n` forms, whatever the others do. -/
theorem C118_finishes (w : Word) (hw : Accepted w) (before later : List AutofillEvent) (call : Nat) (hb : call < callsBegun before)
    (ht : 4 * w.forms.length + 2 ≤ turnsOfCall call later) : Returned (filling w (before ++ later)) call := by
  have h2 := (accepted_iff.mp hw).2
  have hs := filling_ok w hw before
  have hlt : call < (filling w before).calls.length := by rw [calls_begun]; exact hb
  unfold Returned
  rw [filling_append]
  refine enough_turns h2 call later _ _ hs (List.getElem?_eq_getElem hlt) (Nat.le_trans ?_ ht)
  have hc := hs.calls _ (List.getElem_mem hlt)
  generalize (filling w before).calls[call] = pc at hc
  cases pc <;> simp only [autofillLeft] <;> omega

/-- The keys of the present slots below `index`, in slot order. -/
def presentKeysTo (t : WordType) (forms : List Str) (index : Nat) : List Key :=
  ((List.range index).filter fun i => decide (∃ f, forms[i]? = some f ∧ f ≠ [])).filterMap fun i => (invertedCache t)[i]?

theorem presentKeysTo_all (t : WordType) (forms : List Str) : presentKeysTo t forms forms.length = presentKeys t forms := rfl

theorem presentKeysTo_succ (t : WordType) (forms : List Str) (i : Nat) : presentKeysTo t forms (i + 1) =
    presentKeysTo t forms i ++ (if ∃ f, forms[i]? = some f ∧ f ≠ [] then ((invertedCache t)[i]?).toList else []) := by
  unfold presentKeysTo
  rw [List.range_succ, List.filter_append, List.filterMap_append]
  congr 1
  by_cases h : ∃ f, forms[i]? = some f ∧ f ≠ []
  · rw [if_pos h, List.filter_singleton, decide_eq_true h]
    cases hk : (invertedCache t)[i]? <;> simp [hk]
  · rw [if_neg h, List.filter_singleton, decide_eq_false h]; rfl

theorem filledForm_present {t : WordType} {orig : List Str} {i : Nat} {f : Str} (h : orig[i]? = some f) (hne : f ≠ []) :
    filledForm t orig i = some f := by
  unfold filledForm; rw [h]
  cases f with
  | nil => exact absurd rfl hne
  | cons c cs => rfl

/-- What is true of a call while all calls looked first. -/
def CallExact (t : WordType) (orig forms : List Str) : AutofillPC → Prop
  | .scan index available => available = presentKeysTo t orig index
  | .test i available => available = presentKeys t orig ∧ ∀ j : Nat, j < i → forms[j]? = filledForm t orig j
  | .read i j available => available = presentKeys t orig ∧ (∀ j : Nat, j < i → forms[j]? = filledForm t orig j) ∧
      ∃ f, f ≠ [] ∧ orig[j]? = some f ∧ filledForm t orig i = some f
  | .store i text available => available = presentKeys t orig ∧ (∀ j : Nat, j < i → forms[j]? = filledForm t orig j) ∧
      filledForm t orig i = some text
  | .done => ∀ j : Nat, forms[j]? = filledForm t orig j
  | .failed _ => False

theorem turn_exact {t : WordType} {orig forms : List Str} (h : orig.length = (invertedCache t).length) (hf : FormsOk orig forms)
    (hm : ∀ i : Nat, forms[i]? = orig[i]? ∨ forms[i]? = filledForm t orig i)
    (pc : AutofillPC) (hc : CallOk t orig forms pc) (he : CallExact t orig forms pc) (hscan : Looking pc → forms = orig) :
    CallExact t orig (autofillTurn t forms pc).2 (autofillTurn t forms pc).1 ∧
      ∀ i : Nat, (autofillTurn t forms pc).2[i]? = forms[i]? ∨ (autofillTurn t forms pc).2[i]? = filledForm t orig i := by
  have hl := hf.length
  cases pc with
  | done => exact ⟨he, fun i => Or.inl rfl⟩
  | failed e => exact he.elim
  | scan index av =>
    have hfo := hscan trivial
    subst hfo
    have h1 := hc.1
    have he : av = presentKeysTo t forms index := he
    have hsucc := presentKeysTo_succ t forms index
    unfold autofillTurn
    dsimp only
    by_cases hi : index < forms.length
    · have hk : index < (invertedCache t).length := by omega
      rw [List.getElem?_eq_getElem hi, List.getElem?_eq_getElem hk] at hsucc
      rw [List.getElem?_eq_getElem hi, List.getElem?_eq_getElem hk]
      cases hfi : forms[index] with
      | nil =>
        rw [hfi] at hsucc
        refine ⟨?_, fun i => Or.inl rfl⟩
        show av = _
        rw [hsucc, he]; simp
      | cons c cs =>
        rw [hfi] at hsucc
        refine ⟨?_, fun i => Or.inl rfl⟩
        show av ++ _ = _
        rw [hsucc, he]; simp
    · rw [List.getElem?_eq_none (by omega)]
      refine ⟨⟨?_, fun j hj => by omega⟩, fun i => Or.inl rfl⟩
      have : index = forms.length := by omega
      rw [he, this, presentKeysTo_all]
  | test i av =>
    obtain ⟨h1, _, _, _⟩ := hc
    obtain ⟨e1, e2⟩ := he
    unfold autofillTurn
    dsimp only
    by_cases hi : i < forms.length
    · have hk : i < (invertedCache t).length := by omega
      have hio : i < orig.length := by omega
      rw [List.getElem?_eq_getElem hi, List.getElem?_eq_getElem hk]
      dsimp only
      by_cases hfi : forms[i] = []
      · rw [if_neg (by simp [hfi])]
        have hoi : orig[i]? = some [] := by
          rw [List.getElem?_eq_getElem hio]
          by_cases ho : orig[i] = []
          · rw [ho]
          · have := hf.kept i _ (List.getElem?_eq_getElem hio) ho
            rw [List.getElem?_eq_getElem hi, hfi] at this
            injection this with this; exact absurd this.symm ho
        cases hg : getNearestKey (invertedCache t)[i] av with
        | none =>
          refine ⟨⟨e1, ?_⟩, fun i => Or.inl rfl⟩
          intro j hj
          rcases Nat.lt_succ_iff_lt_or_eq.mp hj with hj | rfl
          · exact e2 j hj
          · rw [List.getElem?_eq_getElem hi, hfi]
            unfold filledForm
            rw [hoi, List.getElem?_eq_getElem hk, ← e1]
            simp only [hg]
        | some nk =>
          obtain ⟨j, f, a1, a2, a3, a4⟩ := nearest_slot h (e1 ▸ hg)
          simp only [a1]
          refine ⟨⟨e1, e2, f, a4, a3, ?_⟩, fun i => by first | exact Or.inl rfl | exact Or.inl trivial⟩
          unfold filledForm
          rw [hoi, List.getElem?_eq_getElem hk, ← e1]
          simp only [hg, a1, a3]
      · rw [if_pos hfi]
        refine ⟨⟨e1, ?_⟩, fun i => Or.inl rfl⟩
        intro j hj
        rcases Nat.lt_succ_iff_lt_or_eq.mp hj with hj | rfl
        · exact e2 j hj
        · rcases hm j with hj' | hj'
          · rw [hj']
            rw [List.getElem?_eq_getElem hi] at hj'
            rw [← hj']; exact (filledForm_present hj'.symm hfi).symm
          · exact hj'
    · rw [List.getElem?_eq_none (by omega)]
      refine ⟨?_, fun i => Or.inl rfl⟩
      intro j
      by_cases hj : j < i
      · exact e2 j hj
      · show forms[j]? = _
        rw [List.getElem?_eq_none (by omega)]
        unfold filledForm
        rw [List.getElem?_eq_none (by omega)]
  | read i j av =>
    obtain ⟨e1, e2, f, e3, e4, e5⟩ := he
    unfold autofillTurn
    simp only [hf.kept j f e4 e3]
    exact ⟨⟨e1, e2, e5⟩, fun i => by first | exact Or.inl rfl | exact Or.inl trivial⟩
  | store i text av =>
    obtain ⟨e1, e2, e3⟩ := he
    have h1 := hc.1
    have hil : i < forms.length := by omega
    unfold autofillTurn
    dsimp only
    refine ⟨⟨e1, ?_⟩, ?_⟩
    · intro j hj
      rcases Nat.lt_succ_iff_lt_or_eq.mp hj with hj | rfl
      · rw [List.getElem?_set_ne (by omega)]; exact e2 j hj
      · rw [List.getElem?_set_self hil, e3]
    · intro j
      by_cases hij : i = j
      · subst hij; right; rw [List.getElem?_set_self hil, e3]
      · left; rw [List.getElem?_set_ne hij]

theorem exact_grow {t : WordType} {orig forms forms' : List Str}
    (hg : ∀ i : Nat, forms'[i]? = forms[i]? ∨ forms'[i]? = filledForm t orig i) (pc : AutofillPC) (h : CallExact t orig forms pc) :
    CallExact t orig forms' pc := by
  have key : ∀ j : Nat, forms[j]? = filledForm t orig j → forms'[j]? = filledForm t orig j :=
    fun j hj => (hg j).elim (fun x => x.trans hj) id
  cases pc with
  | scan index av => exact h
  | test i av => exact ⟨h.1, fun j hj => key j (h.2 j hj)⟩
  | read i j av => exact ⟨h.1, fun j hj => key j (h.2.1 j hj), h.2.2⟩
  | store i text av => exact ⟨h.1, fun j hj => key j (h.2.1 j hj), h.2.2⟩
  | done => exact fun j => key j (h j)
  | failed e => exact h

theorem looked_exact (w : Word) (hw : Accepted w) (events : List AutofillEvent) (hl : LookedFirst w events) :
    (∀ i : Nat, (filling w events).forms[i]? = w.forms[i]? ∨ (filling w events).forms[i]? = filledForm w.type w.forms i) ∧
    ∀ pc ∈ (filling w events).calls, CallExact w.type w.forms (filling w events).forms pc := by
  have h2 := (accepted_iff.mp hw).2
  induction events using List.reverseRecOn with
  | nil => exact ⟨fun _ => Or.inl rfl, fun _ h => absurd h (by simp [filling])⟩
  | append_singleton es e ih =>
    obtain ⟨i1, i2⟩ := ih (fun before hb => hl before (hb.trans (List.prefix_append _ _)))
    have hok := filling_ok w hw es
    rw [filling_append, List.foldl_cons, List.foldl_nil]
    cases e with
    | start =>
      refine ⟨i1, ?_⟩
      intro pc hpc
      rcases List.mem_append.mp hpc with hpc | hpc
      · exact i2 pc hpc
      · rw [List.mem_singleton] at hpc; subst hpc; rfl
    | turn c =>
      cases hc : (filling w es).calls[c]? with
      | none => simpa only [AutofillThreads.step, hc] using ⟨i1, i2⟩
      | some pc =>
        have hmem := List.mem_of_getElem? hc
        rw [step_turn hc]
        obtain ⟨a, b⟩ := turn_exact h2 hok.forms i1 pc (hok.calls pc hmem) (i2 pc hmem) (by
          intro hlook
          by_contra hne
          exact hl es (List.prefix_append _ _) hne pc hmem hlook)
        rw [hok.type]
        refine ⟨fun i => (b i).elim (fun x => by rw [x]; exact i1 i) Or.inr, ?_⟩
        intro pc' hpc'
        rcases List.mem_or_eq_of_mem_set hpc' with hpc' | rfl
        · exact exact_grow b pc' (i2 pc' hpc')
        · exact a

/-- C118: if no call looks which forms are present after another one has begun to fill gaps, then every form is at any time the one the
word had or the one a single call gives it, and when any call has returned, the word is as a single call leaves it. -/
theorem C118_looked_first (w w' : Word) (hw : Accepted w) (h : w.autofillMissedForms = .ok w') (events : List AutofillEvent)
    (hl : LookedFirst w events) :
    (∀ i : Nat, (filling w events).forms[i]? = w.forms[i]? ∨ (filling w events).forms[i]? = w'.forms[i]?) ∧
    ∀ call, Returned (filling w events) call → (filling w events).forms = w'.forms := by
  obtain ⟨w'', e, _, _, _, h6⟩ := autofill_spec (accepted_iff.mp hw).2
  rw [h] at e; injection e with e; subst e
  obtain ⟨a, b⟩ := looked_exact w hw events hl
  refine ⟨fun i => by rw [h6]; exact a i, ?_⟩
  intro call hr
  apply List.ext_getElem?
  intro i
  rw [h6]
  exact b _ (List.mem_of_getElem? hr) i

/-- One call alone always looks first. -/
theorem alone_looked (w : Word) (events : List AutofillEvent) (h1 : callsBegun events ≤ 1) : LookedFirst w events := by
  have key : ∀ es : List AutofillEvent, callsBegun es ≤ 1 → ∀ pc ∈ (filling w es).calls, Looking pc → (filling w es).forms = w.forms := by
    intro es
    induction es using List.reverseRecOn with
    | nil => intro _ pc hpc; simp [filling] at hpc
    | append_singleton es e ih =>
      intro hle pc hpc hlook
      have hbe : callsBegun (es ++ [e]) = callsBegun es + callsBegun [e] := by simp [callsBegun]
      have hih := ih (by omega)
      have hlen := calls_begun w es
      rw [filling_append, List.foldl_cons, List.foldl_nil] at hpc ⊢
      cases e with
      | start =>
        have hs : callsBegun [AutofillEvent.start] = 1 := by decide
        have h0 : callsBegun es = 0 := by omega
        show (filling w es).forms = w.forms
        have : ∀ es : List AutofillEvent, callsBegun es = 0 → filling w es = ⟨w.type, w.forms, []⟩ := by
          intro es
          unfold filling
          induction es with
          | nil => intro _; rfl
          | cons e es ih =>
            intro h
            cases e with
            | start => simp [callsBegun] at h
            | turn c => rw [List.foldl_cons]; exact ih (by simpa [callsBegun] using h)
        rw [this es h0]
      | turn c =>
        cases hc : (filling w es).calls[c]? with
        | none =>
          simp only [AutofillThreads.step, hc] at hpc ⊢
          exact hih pc hpc hlook
        | some pc0 =>
          rw [step_turn hc] at hpc ⊢
          have hlt := (List.getElem?_eq_some_iff.mp hc).1
          have hone : (filling w es).calls.length = 1 := by omega
          have hc0 : c = 0 := by omega
          subst hc0
          obtain ⟨x, hx⟩ := List.length_eq_one_iff.mp hone
          rw [hx] at hc hpc
          simp only [List.getElem?_cons_zero, Option.some.injEq] at hc
          subst hc
          simp only [List.set_cons_zero, List.mem_singleton] at hpc
          subst hpc
          have hlx : Looking x ∧ (autofillTurn (filling w es).type (filling w es).forms x).2 = (filling w es).forms := by
            revert hlook
            cases x with
            | scan index av =>
              intro _
              refine ⟨trivial, ?_⟩
              unfold autofillTurn
              dsimp only
              split
              · rfl
              · rfl
              · split <;> rfl
            | test i av =>
              unfold autofillTurn
              dsimp only
              split
              · intro hh; exact hh.elim
              · split
                · intro hh; exact hh.elim
                · split
                  · intro hh; exact hh.elim
                  · split
                    · intro hh; exact hh.elim
                    · split <;> (intro hh; exact hh.elim)
            | read i j av =>
              unfold autofillTurn
              dsimp only
              split <;> (intro hh; exact hh.elim)
            | store i text av => intro hh; exact hh.elim
            | done => intro hh; exact hh.elim
            | failed e => intro hh; exact hh.elim
          show (autofillTurn _ _ x).2 = _
          rw [hlx.2]
          exact hih x (by rw [hx]; simp) hlx.1
  intro before hb hne pc hpc hlook
  refine hne (key before ?_ pc hpc hlook)
  obtain ⟨rest, rfl⟩ := hb
  have : callsBegun (before ++ rest) = callsBegun before + callsBegun rest := by simp [callsBegun]
  omega

/-- C118: one call alone leaves what `autofill_missed_forms` leaves: a reader in another thread sees in every slot the old form or that. -/
theorem C118_alone (w w' : Word) (hw : Accepted w) (h : w.autofillMissedForms = .ok w') (events : List AutofillEvent)
    (h1 : callsBegun events ≤ 1) :
    (∀ i : Nat, (filling w events).forms[i]? = w.forms[i]? ∨ (filling w events).forms[i]? = w'.forms[i]?) ∧
    ∀ call, Returned (filling w events) call → (filling w events).forms = w'.forms :=
  C118_looked_first w w' hw h events (alone_looked w events h1)

/-- A noun of which the two nominatives are known. -/
def exNominatives : Word :=
  ⟨.NOUN, (List.range 18).map (fun i => if i = 0 then str! "книга" else if i = 6 then str! "книги" else []), .new []⟩

theorem exNominatives_accepted : Accepted exNominatives :=
  ⟨exNominatives.type, exNominatives.forms, exNominatives.properties, wf_empty, by decide +kernel⟩

/-- The first call fills the singular, then the second call runs from beginning to end, then the first one ends. -/
def exLate : List AutofillEvent :=
  .start :: List.replicate (19 + 1 + 5 * 3) (.turn 0) ++ .start :: List.replicate 74 (.turn 1) ++ List.replicate 40 (.turn 0)

/-- Without `LookedFirst` two calls can leave the oblique cases of the plural with the text of the singular (книга for книги), which
neither call would do alone: the second took forms that the first had just filled in for forms of the word. -/
theorem C118_torn : ∃ (w w' : Word) (events : List AutofillEvent), Accepted w ∧ w.autofillMissedForms = .ok w' ∧
    Returned (filling w events) 0 ∧ Returned (filling w events) 1 ∧
    w'.forms[7]? = some (str! "книги") ∧ (filling w events).forms[7]? = some (str! "книга") := by
  obtain ⟨w', h, _⟩ := autofill_spec (accepted_iff.mp exNominatives_accepted).2
  have h7 : (exNominatives.autofillMissedForms).map (fun x : Word => x.forms[7]?) = .ok (some (str! "книги")) := by decide +kernel
  rw [h] at h7
  refine ⟨exNominatives, w', exLate, exNominatives_accepted, h, ?_, ?_, ?_, ?_⟩
  · unfold Returned; decide +kernel
  · unfold Returned; decide +kernel
  · injection h7
  · decide +kernel

/-- The first call is about to store the genitive plural when the second one runs. -/
def exOverwritten : List AutofillEvent :=
  .start :: List.replicate (19 + 1 + 5 * 3 + 1 + 2) (.turn 0) ++ .start :: List.replicate 74 (.turn 1)

/-- Also a form can change after a call has returned that filled it. -/
theorem C118_overwritten : ∃ (w : Word) (events : List AutofillEvent), Accepted w ∧ Returned (filling w events) 1 ∧
    (filling w events).forms[7]? = some (str! "книга") ∧ (filling w (events ++ [.turn 0])).forms[7]? = some (str! "книги") := by
  refine ⟨exNominatives, exOverwritten, exNominatives_accepted, ?_, ?_, ?_⟩
  · unfold Returned; decide +kernel
  · decide +kernel
  · decide +kernel

/-- Two calls that take turns all the time. -/
def exInTurn : List AutofillEvent := .start :: .start :: (List.replicate 74 [AutofillEvent.turn 1, .turn 0]).flatten

example : (filling exNominatives exLate).forms.length = 18 ∧ (filling exNominatives exLate).forms[6]? = some (str! "книги") :=
  ⟨(C118_present_kept exNominatives exNominatives_accepted exLate).1,
    (C118_present_kept exNominatives exNominatives_accepted exLate).2.1 6 _ rfl (by decide +kernel)⟩

example : (∃ f ∈ exNominatives.forms, f ≠ []) ∧ Returned (filling exNominatives (exLate.take 111)) 1 ∧
    ¬ Returned (filling exNominatives (exLate.take 111)) 0 := by
  unfold Returned; decide +kernel

example : (filling exNominatives (exLate.take 30)).forms[3]? = some (str! "книга") := by decide +kernel

example : 1 < callsBegun (exInTurn.take 2) ∧ 4 * exNominatives.forms.length + 2 ≤ turnsOfCall 1 (exInTurn.drop 2) ∧
    4 * exNominatives.forms.length + 2 ≤ turnsOfCall 0 (exInTurn.drop 2) := by decide +kernel

instance : DecidablePred Looking
  | .scan _ _ => .isTrue trivial
  | .test _ _ => .isFalse id
  | .read _ _ _ => .isFalse id
  | .store _ _ _ => .isFalse id
  | .done => .isFalse id
  | .failed _ => .isFalse id

/-- In turn both calls look first: they store nothing in the first 42 events, and both have looked then. -/
theorem exInTurn_looked : LookedFirst exNominatives exInTurn := by
  have hb : ∀ n < 151, ((filling exNominatives (exInTurn.take n)).forms ≠ exNominatives.forms →
      ∀ pc ∈ (filling exNominatives (exInTurn.take n)).calls, ¬ Looking pc) := by
    decide +kernel
  intro before hp
  rw [List.prefix_iff_eq_take] at hp
  have hlen := List.length_take_le' before.length exInTurn
  have hn : before.length < 151 := by
    have h150 : exInTurn.length = 150 := by decide +kernel
    rw [← hp] at hlen
    omega
  have := hb before.length hn
  rw [← hp] at this
  exact this

example : LookedFirst exNominatives exInTurn ∧ Returned (filling exNominatives exInTurn) 0 ∧
    (filling exNominatives exInTurn).forms[7]? = some (str! "книги") :=
  ⟨exInTurn_looked, by unfold Returned; decide +kernel, by decide +kernel⟩

example : callsBegun (exLate.take 36) ≤ 1 ∧ (filling exNominatives (exLate.take 36)).forms[5]? = some (str! "книга") ∧
    callsBegun (.start :: List.replicate 74 (.turn 0)) ≤ 1 ∧
    Returned (filling exNominatives (.start :: List.replicate 74 (.turn 0))) 0 := by
  unfold Returned; decide +kernel

end Utg
