import Verif.Spec.Aliasing
import Verif.Props.Autofill
import Verif.Props.EndToEnd
/-! # C94, C95: words, saved data and the lists they share -/

namespace Utg
open Py Spec

/-! ## Basic facts -/

theorem Memory.change_words (m : Memory) (l : Nat) (f : List Str → List Str) : (m.change l f).words = m.words := by
  unfold Memory.change; split <;> rfl

theorem Memory.change_data (m : Memory) (l : Nat) (f : List Str → List Str) : (m.change l f).data = m.data := by
  unfold Memory.change; split <;> rfl

theorem Memory.change_lists (m : Memory) (l k : Nat) (f : List Str → List Str) :
    (m.change l f).lists[k]? = if k = l then (m.lists[k]?).map f else m.lists[k]? := by
  unfold Memory.change
  cases h : m.lists[l]? with
  | none =>
    simp only
    split
    · rename_i e; subst e; rw [h]; rfl
    · rfl
  | some fs =>
    simp only [List.getElem?_set]
    by_cases e : l = k
    · subst e
      obtain ⟨hl, -⟩ := List.getElem?_eq_some_iff.mp h
      simp only [if_true, hl, h, Option.map_some]
    · rw [if_neg e, if_neg (fun h => e h.symm)]

theorem Memory.newWord_lists (m : Memory) (t : WordType) (l : Nat) (p : Properties) : (m.newWord t l p).lists = m.lists := by
  unfold Memory.newWord; split; rfl; split <;> rfl

theorem Memory.newWord_data (m : Memory) (t : WordType) (l : Nat) (p : Properties) : (m.newWord t l p).data = m.data := by
  unfold Memory.newWord; split; rfl; split <;> rfl

theorem Memory.newWord_words (m : Memory) (t : WordType) (l : Nat) (p : Properties) :
    (m.newWord t l p).words = m.words ∨ (m.newWord t l p).words = m.words ++ [⟨t, l, p⟩] ∧ l < m.lists.length := by
  unfold Memory.newWord
  split
  · exact .inl rfl
  · rename_i fs h
    obtain ⟨hl, -⟩ := List.getElem?_eq_some_iff.mp h
    split
    · exact .inl rfl
    · exact .inr ⟨rfl, hl⟩

theorem Memory.newLoaded_lists (m : Memory) (l : Nat) (d : WordData) : (m.newLoaded l d).lists = m.lists := by
  unfold Memory.newLoaded; split <;> rfl

theorem Memory.newLoaded_data (m : Memory) (l : Nat) (d : WordData) : (m.newLoaded l d).data = m.data := by
  unfold Memory.newLoaded; split <;> rfl

theorem Memory.newLoaded_words (m : Memory) (l : Nat) (d : WordData) :
    (m.newLoaded l d).words = m.words ∨ ∃ t p, (m.newLoaded l d).words = m.words ++ [⟨t, l, p⟩] := by
  unfold Memory.newLoaded
  split
  · exact .inl rfl
  · exact .inr ⟨_, _, rfl⟩

/-- The list a word or data refer to. -/
def Memory.ref (m : Memory) : Nat ⊕ Nat → Option Nat
  | .inl w => (m.words[w]?).map WordRef.forms
  | .inr d => (m.data[d]?).map DataRef.forms

/-- Nothing refers to a list that does not exist. -/
def Memory.Sound (m : Memory) : Prop := ∀ x l, m.ref x = some l → l < m.lists.length

theorem Memory.step_lists_le (m : Memory) (op : MOp) : m.lists.length ≤ (m.step op).lists.length := by
  have hc : ∀ l f, (m.change l f).lists.length = m.lists.length := by
    intro l f; unfold Memory.change; split <;> simp
  cases op <;> simp only [Memory.step] <;> grind [Memory.newWord_lists, Memory.newLoaded_lists]

/-- A word keeps its list unless it is given another one. -/
theorem Memory.step_ref_word {m : Memory} {op : MOp} {w : Nat} {r : WordRef} (h : m.words[w]? = some r) (hr : ¬ ReplacesForms w op) :
    (m.step op).words[w]? = some r := by
  have hw : w < m.words.length := (List.getElem?_eq_some_iff.mp h).1
  cases op <;> simp only [Memory.step, ReplacesForms] at hr ⊢ <;>
    grind [Memory.change_words, Memory.newWord_words, Memory.newLoaded_words]

/-- Data keep their list unless they are given another one. -/
theorem Memory.step_ref_data {m : Memory} {op : MOp} {d : Nat} {r : DataRef} (h : m.data[d]? = some r) (hr : ¬ ReplacesData d op) :
    ∃ r', (m.step op).data[d]? = some r' ∧ r'.forms = r.forms := by
  have hw : d < m.data.length := (List.getElem?_eq_some_iff.mp h).1
  cases op with
  | migrate k e =>
    simp only [Memory.step]
    cases k <;> simp only [ReplacesData, Migration.newList] at hr ⊢ <;> grind [Memory.change_data]
  | _ =>
    simp only [Memory.step, ReplacesData] at hr ⊢
    grind [Memory.change_data, Memory.newWord_data, Memory.newLoaded_data]

theorem Memory.step_sound {m : Memory} (h : m.Sound) (op : MOp) : (m.step op).Sound := by
  have hle := m.step_lists_le op
  have hw : ∀ (w : Nat) (r : WordRef), m.words[w]? = some r → r.forms < m.lists.length := fun w r e => h (.inl w) _ (by simp [Memory.ref, e])
  have hd : ∀ (d : Nat) (r : DataRef), m.data[d]? = some r → r.forms < m.lists.length := fun d r e => h (.inr d) _ (by simp [Memory.ref, e])
  suffices (∀ (w : Nat) (r : WordRef), (m.step op).words[w]? = some r → r.forms < (m.step op).lists.length) ∧
      ∀ (d : Nat) (r : DataRef), (m.step op).data[d]? = some r → r.forms < (m.step op).lists.length by
    intro x l hx
    cases x with
    | inl w =>
      simp only [Memory.ref, Option.map_eq_some_iff] at hx
      obtain ⟨r, e, rfl⟩ := hx
      exact this.1 w r e
    | inr d =>
      simp only [Memory.ref, Option.map_eq_some_iff] at hx
      obtain ⟨r, e, rfl⟩ := hx
      exact this.2 d r e
  have hc : ∀ l f, (m.change l f).lists.length = m.lists.length := by
    intro l f; unfold Memory.change; split <;> simp
  cases op <;> simp only [Memory.step] at hle ⊢ <;>
    grind [Memory.change_words, Memory.change_data, Memory.newWord_words, Memory.newLoaded_words, Memory.newWord_lists,
      Memory.newWord_data, Memory.newLoaded_lists, Memory.newLoaded_data]

theorem Memory.foldl_sound {m : Memory} (h : m.Sound) (ops : List MOp) : (ops.foldl Memory.step m).Sound := by
  induction ops generalizing m with
  | nil => exact h
  | cons op ops ih => exact ih (Memory.step_sound h op)

theorem Memory.after_sound (ops : List MOp) : (Memory.after ops).Sound :=
  Memory.foldl_sound (by intro x l hx; cases x <;> simp [Memory.ref] at hx) ops

/-! ## C94: saved data -/

theorem Memory.word_of {m : Memory} (h : m.Sound) {w : Nat} {r : WordRef} (e : m.words[w]? = some r) :
    ∃ fs, m.lists[r.forms]? = some fs ∧ m.word w = some ⟨r.type, fs, r.properties⟩ := by
  have hl : r.forms < m.lists.length := h (.inl w) _ (by simp [Memory.ref, e])
  exact ⟨_, List.getElem?_eq_getElem hl, by simp [Memory.word, e, hl]⟩

theorem Memory.saved_of {m : Memory} (h : m.Sound) {d : Nat} {r : DataRef} (e : m.data[d]? = some r) :
    ∃ fs, m.lists[r.forms]? = some fs ∧ m.saved d = some ⟨r.type, fs, r.properties⟩ := by
  have hl : r.forms < m.lists.length := h (.inr d) _ (by simp [Memory.ref, e])
  exact ⟨_, List.getElem?_eq_getElem hl, by simp [Memory.saved, e, hl]⟩

/-- C94: saved data are a live view of the word: whatever is done later through the word, the data or any other name, the two have
the same forms, as long as neither is given another list. -/
theorem C94_live_view (before later : List MOp) (w : Nat) (v : Word) (hw : (Memory.after before).word w = some v)
    (h1 : ∀ op ∈ later, ¬ ReplacesForms w op) (h2 : ∀ op ∈ later, ¬ ReplacesData (Memory.after before).data.length op) :
    ∃ v' data, (Memory.after (before ++ .serialize w :: later)).word w = some v' ∧
      (Memory.after (before ++ .serialize w :: later)).saved (Memory.after before).data.length = some data ∧ data.forms = v'.forms := by
  have hs := Memory.after_sound (before ++ .serialize w :: later)
  revert hs
  rw [Memory.after, List.foldl_append, List.foldl_cons, ← Memory.after]
  have hr : ∃ r, (Memory.after before).words[w]? = some r := by
    unfold Memory.word at hw
    split at hw
    · cases hw
    · exact ⟨_, by assumption⟩
  obtain ⟨r, hr⟩ := hr
  generalize Memory.after before = m at *
  intro hs
  have key : ∀ (ops : List MOp) (m' : Memory) (r' : DataRef), m'.words[w]? = some r → m'.data[m.data.length]? = some r' → r'.forms = r.forms →
      (∀ op ∈ ops, ¬ ReplacesForms w op) → (∀ op ∈ ops, ¬ ReplacesData m.data.length op) →
      ∃ r', (ops.foldl Memory.step m').words[w]? = some r ∧ (ops.foldl Memory.step m').data[m.data.length]? = some r' ∧ r'.forms = r.forms := by
    intro ops
    induction ops with
    | nil => intro m' r' a b c _ _; exact ⟨r', a, b, c⟩
    | cons op ops ih =>
      intro m' r' a b c e1 e2
      obtain ⟨q, b', c'⟩ := Memory.step_ref_data b (e2 op (by simp))
      exact ih _ q (Memory.step_ref_word a (e1 op (by simp))) b' (c'.trans c) (fun o ho => e1 o (by simp [ho])) (fun o ho => e2 o (by simp [ho]))
  have hstep : (m.step (.serialize w)) = { m with data := m.data ++ [⟨r.type.value, r.forms, r.properties.serialize⟩] } := by
    simp only [Memory.step, hr]
  obtain ⟨r', a, b, c⟩ := key later (m.step (.serialize w)) ⟨r.type.value, r.forms, r.properties.serialize⟩
    (by rw [hstep]; exact hr) (by rw [hstep]; simp) rfl h1 h2
  obtain ⟨fs, e1, e2⟩ := Memory.word_of hs a
  obtain ⟨gs, e3, e4⟩ := Memory.saved_of hs b
  refine ⟨_, _, e2, e4, ?_⟩
  rw [c, e1] at e3
  injection e3 with e3
  exact e3.symm

/-- The data named `d` own the list `l` and nobody else knows it. -/
def Memory.Owns (m : Memory) (d l : Nat) (r : DataRef) (fs : List Str) : Prop :=
  m.data[d]? = some r ∧ r.forms = l ∧ m.lists[l]? = some fs ∧ (∀ (w : Nat) (q : WordRef), m.words[w]? = some q → q.forms ≠ l) ∧
  ∀ (e : Nat) (q : DataRef), m.data[e]? = some q → q.forms = l → e = d

theorem Memory.step_owns {m : Memory} {d l : Nat} {r : DataRef} {fs : List Str} (h : m.Owns d l r fs) {op : MOp} (h1 : ¬ UsesList l op)
    (h2 : ¬ UsesData d op) : (m.step op).Owns d l r fs := by
  obtain ⟨e1, e2, e3, e4, e5⟩ := h
  have hl : l < m.lists.length := (List.getElem?_eq_some_iff.mp e3).1
  have hd : d < m.data.length := (List.getElem?_eq_some_iff.mp e1).1
  refine ⟨?_, e2, ?_, ?_, ?_⟩ <;> cases op <;> simp only [Memory.step, UsesList, UsesData] at h1 h2 ⊢ <;>
    grind [Memory.change_words, Memory.change_data, Memory.newWord_words, Memory.newLoaded_words, Memory.newWord_lists,
      Memory.newWord_data, Memory.newLoaded_lists, Memory.newLoaded_data, Memory.change_lists]

theorem viaJson_eq (d : WordData) : viaJson d = throughJson d := by
  unfold viaJson throughJson
  congr 1
  apply List.map_congr_left
  intro kv _
  obtain ⟨k, v⟩ := kv
  cases k <;> rfl

theorem apply_eq (k : Migration) (d : WordData) : k.apply d = migrationNamed k d := by cases k <;> rfl

/-- C94 (partial): data that went through JSON are a snapshot: nothing done later changes them, unless it uses these very data or
names their list. Missing: data as returned by `serialize`, for which the claim is false (`C94_violated`). -/
theorem C94_json_snapshot_partial (before later : List MOp) (w : Nat) (v : Word) (hw : (Memory.after before).word w = some v)
    (h1 : ∀ op ∈ later, ¬ UsesList (Memory.after before).lists.length op)
    (h2 : ∀ op ∈ later, ¬ UsesData (Memory.after before).data.length op) :
    (Memory.after (before ++ .saveJson w :: later)).saved (Memory.after before).data.length = some (throughJson v.serialize) := by
  rw [← viaJson_eq]
  rw [Memory.after, List.foldl_append, List.foldl_cons, ← Memory.after]
  have hs := Memory.after_sound before
  generalize Memory.after before = m at *
  have key : ∀ (ops : List MOp) (m' : Memory) (r : DataRef) (fs : List Str), m'.Owns m.data.length m.lists.length r fs →
      (∀ op ∈ ops, ¬ UsesList m.lists.length op) → (∀ op ∈ ops, ¬ UsesData m.data.length op) →
      (ops.foldl Memory.step m').Owns m.data.length m.lists.length r fs := by
    intro ops
    induction ops with
    | nil => intro m' r fs a _ _; exact a
    | cons op ops ih =>
      intro m' r fs a e1 e2
      exact ih _ r fs (Memory.step_owns a (e1 op (by simp)) (e2 op (by simp))) (fun o ho => e1 o (by simp [ho])) (fun o ho => e2 o (by simp [ho]))
  have hstep : m.step (.saveJson w) = { m with
      lists := m.lists ++ [(viaJson v.serialize).forms]
      data := m.data ++ [⟨(viaJson v.serialize).type, m.lists.length, (viaJson v.serialize).properties⟩] } := by
    simp only [Memory.step, hw]
  have ho : (m.step (.saveJson w)).Owns m.data.length m.lists.length
      ⟨(viaJson v.serialize).type, m.lists.length, (viaJson v.serialize).properties⟩ (viaJson v.serialize).forms := by
    rw [hstep]
    refine ⟨by simp, rfl, by simp, ?_, ?_⟩
    · intro x q e
      have : q.forms < m.lists.length := hs (.inl x) _ (by simp [Memory.ref, e])
      omega
    · intro x q e hq
      by_cases hx : x < m.data.length
      · rw [List.getElem?_append_left hx] at e
        have : q.forms < m.lists.length := hs (.inr x) _ (by simp [Memory.ref, e])
        omega
      · have := (List.getElem?_eq_some_iff.mp e).1
        simp at this
        omega
  obtain ⟨a, b, c, -, -⟩ := key later _ _ _ ho h1 h2
  simp only [Memory.saved, a, c, Option.map_some]

/-- A preposition with two missing forms, saved. -/
def exShared : List MOp := [.createFrom .PREPOSITION [str! "a", str! "", str! ""] (.new []), .serialize 0]

/-- The hypotheses of C94 are met: the word exists, and filling its forms, loading the data and migrating them in place replace no
list. -/
example : (Memory.after exShared).word 0 = some ⟨.PREPOSITION, [str! "a", str! "", str! ""], .new []⟩ ∧
    (∀ op ∈ [MOp.autofill 0, .deserialize 0, .migrate .m4 0, .saveJson 0, .setForm 0 1 (str! "b")], ¬ ReplacesForms 0 op ∧ ¬ ReplacesData 1 op) ∧
    ∀ op ∈ [MOp.autofill 0, .deserialize 0, .migrate .m4 0, .setForm 0 1 (str! "b")], ¬ UsesList 1 op ∧ ¬ UsesData 1 op := by
  refine ⟨by decide +kernel, ?_, ?_⟩ <;> simp [ReplacesForms, ReplacesData, UsesList, UsesData]

/-- C94 is false of the code: data returned by `serialize` change when the forms of the word are filled afterwards, though
nobody touches the data or their list. -/
theorem C94_violated : ∃ (before : List MOp) (data data' : WordData), (Memory.after before).saved 0 = some data ∧
    (Memory.after (before ++ [.autofill 0])).saved 0 = some data' ∧ data ≠ data' :=
  ⟨exShared, ⟨10, [str! "a", str! "", str! ""], []⟩, ⟨10, [str! "a", str! "a", str! "a"], []⟩, by decide +kernel, by decide +kernel, by decide⟩

/-- C94 is false of the code: words loaded from the same data are not independent. -/
theorem C94_twins_violated : ∃ (before : List MOp) (v v' : Word), (Memory.after before).word 1 = some v ∧
    (Memory.after (before ++ [.setForm 2 1 (str! "b")])).word 1 = some v' ∧ v ≠ v' :=
  ⟨exShared ++ [.deserialize 0, .deserialize 0], ⟨.PREPOSITION, [str! "a", str! "", str! ""], .new []⟩,
    ⟨.PREPOSITION, [str! "a", str! "b", str! ""], .new []⟩, by decide +kernel, by decide +kernel, by decide⟩

/-- C94: of the migrations only m_0004 can change a word through the data saved from it (`C94_migrated_violated`): the others
leave every word as it is, also if the data share its list. -/
theorem C94_migrations_keep_words (before : List MOp) (k : Migration) (hk : k ≠ .m4) (d w : Nat) :
    (Memory.after (before ++ [.migrate k d])).word w = (Memory.after before).word w := by
  have hs := Memory.after_sound before
  rw [Memory.after, List.foldl_append, List.foldl_cons, List.foldl_nil, ← Memory.after]
  generalize Memory.after before = m at *
  simp only [Memory.step]
  cases hr : m.data[d]? with
  | none => rfl
  | some r =>
    cases hd : m.saved d with
    | none => rfl
    | some data =>
      cases ha : k.apply data with
      | error e => simp only [ha]
      | ok new =>
        simp only [ha]
        split
        · unfold Memory.word
          simp only
          cases hw : m.words[w]? with
          | none => rfl
          | some rw =>
            obtain ⟨fs, hf, -⟩ := Memory.word_of hs hw
            simp only [List.getElem?_append_left (List.getElem?_eq_some_iff.mp hf).1]
        · rename_i hn
          have hsame : new.forms = data.forms := by
            cases k <;> simp [Migration.newList] at hn hk
            · simp only [Migration.apply, M0001.migrate, if_neg hn.1, if_neg hn.2] at ha
              cases ha; rfl
            · simp only [Migration.apply, M0005.migrate] at ha
              cases ha
              split <;> rfl
          have hf : m.lists[r.forms]? = some data.forms := by
            simp only [Memory.saved, hr, Option.map_eq_some_iff] at hd
            obtain ⟨fs, hf, rfl⟩ := hd
            exact hf
          unfold Memory.word
          simp only [Memory.change_words, Memory.change_lists]
          cases hw : m.words[w]? with
          | none => rfl
          | some rw =>
            simp only
            split
            · rename_i he; rw [he, hf, hsame]; rfl
            · rfl

theorem addForms_error {U : PyUni} {w : Word} {i : Nat} {e : PyErr} (h : w.nthForm i = .error e) {is : List Nat} (hi : i ∈ is) (d : Dictionary) :
    (Dictionary.addForms U w d is).2 ≠ none := by
  induction is generalizing d with
  | nil => simp at hi
  | cons j is ih =>
    unfold Dictionary.addForms
    rcases List.mem_cons.mp hi with rfl | hi
    · rw [h]; simp
    · cases w.nthForm j with
      | error e => simp
      | ok f =>
        simp only
        cases f.form U with
        | error e => simp
        | ok t => exact ih hi _

/-- C94 is false of the code: migrating the saved data of a preposition adds a form to the word itself, which then has more
forms than slots and cannot be added to any dictionary. -/
theorem C94_migrated_violated (U : PyUni) : ∃ (before : List MOp) (v v' : Word), (Memory.after before).word 0 = some v ∧ Accepted v ∧
    (Memory.after (before ++ [.migrate .m4 0])).word 0 = some v' ∧ v'.forms.length = slotCount v'.type + 1 ∧
    ∀ d : Dictionary, (d.addWord U v').2 ≠ none := by
  refine ⟨exShared, ⟨.PREPOSITION, [str! "a", str! "", str! ""], .new []⟩,
    ⟨.PREPOSITION, [str! "a", str! "", str! "", str! ""], .new []⟩, by decide +kernel, ?_, by decide +kernel, by decide +kernel, ?_⟩
  · exact ⟨.PREPOSITION, [str! "a", str! "", str! ""], .new [], wf_new (by intro p hp; simp at hp), by decide +kernel⟩
  · intro d
    exact addForms_error (i := 3) (e := .IndexError) (by decide +kernel) (by decide) d

/-! ## C95: careful use -/

theorem autofillRun_ok {t : WordType} {av : List Key} {is : List Nat} {fs gs : List Str}
    (h : is.foldlM (autofillStep t av) fs = .ok gs) : autofillRun t av is fs = (gs, none) := by
  induction is generalizing fs with
  | nil => injection h with h; subst h; rfl
  | cons i is ih =>
    rw [List.foldlM_cons] at h
    unfold autofillRun
    cases e : autofillStep t av fs i with
    | error x => rw [e] at h; cases h
    | ok f => rw [e] at h; exact ih h

theorem autofillList_ok {w w' : Word} (h : w.autofillMissedForms = .ok w') : (autofillList w.type w.forms).1 = w'.forms := by
  unfold Word.autofillMissedForms at h
  unfold autofillList
  cases e : availableKeys w.type w.forms with
  | error x => rw [e] at h; cases h
  | ok av =>
    rw [e] at h
    simp only [bind, Except.bind] at h
    cases e2 : (List.range w.forms.length).foldlM (autofillStep w.type av) w.forms with
    | error x => rw [e2] at h; cases h
    | ok gs =>
      rw [e2] at h
      injection h with h; subst h
      simp only [autofillRun_ok e2]

theorem Migration.apply_type {k : Migration} {d new : WordData} (h : k.apply d = .ok new) : new.type = d.type := by
  have hw : ∀ o n, migrateWith o n d = .ok new → new.type = d.type := by
    intro o n h
    unfold migrateWith at h
    split at h
    · cases h
    · simp only [bind, Except.bind] at h
      split at h
      · cases h
      · injection h with h; subst h; rfl
  cases k with
  | m7 => exact hw _ _ h
  | m8 => exact hw _ _ h
  | m9 => exact hw _ _ h
  | m5 =>
    simp only [Migration.apply, Except.ok.injEq] at h
    subst h; unfold M0005.migrate; split <;> rfl
  | m4 =>
    simp only [Migration.apply, M0004.migrate] at h
    split at h
    · injection h with h; subst h; rfl
    · split at h
      · cases h
      · injection h with h; subst h; rfl
  | m1 =>
    simp only [Migration.apply, M0001.migrate, bind, Except.bind] at h
    split at h
    · split at h
      · cases h
      · injection h with h; subst h; rfl
    · split at h
      · split at h
        · cases h
        · injection h with h; subst h; rfl
      · injection h with h; subst h; rfl

/-- Every list belongs to one word or one saved word, which are the given values. -/
structure Memory.Rep (m : Memory) (V : Values) : Prop where
  ww : ∀ (w w' : Nat) (r r' : WordRef), m.words[w]? = some r → m.words[w']? = some r' → r.forms = r'.forms → w = w'
  dd : ∀ (d d' : Nat) (r r' : DataRef), m.data[d]? = some r → m.data[d']? = some r' → r.forms = r'.forms → d = d'
  wd : ∀ (w d : Nat) (r : WordRef) (r' : DataRef), m.words[w]? = some r → m.data[d]? = some r' → r.forms ≠ r'.forms
  lw : m.words.length = V.words.length
  ld : m.data.length = V.data.length
  vw : ∀ (w : Nat) (r : WordRef), m.words[w]? = some r → ∃ fs, m.lists[r.forms]? = some fs ∧ V.words[w]? = some ⟨r.type, fs, r.properties⟩
  vd : ∀ (d : Nat) (r : DataRef), m.data[d]? = some r → ∃ fs, m.lists[r.forms]? = some fs ∧ V.data[d]? = some ⟨r.type, fs, r.properties⟩
  full : ∀ v ∈ V.words, v.forms.length = (wordsCache v.type).length

theorem Memory.Rep.word {m : Memory} {V : Values} (h : m.Rep V) (w : Nat) : m.word w = V.words[w]? := by
  unfold Memory.word
  cases e : m.words[w]? with
  | none =>
    have : V.words.length ≤ w := by rw [← h.lw]; exact List.getElem?_eq_none_iff.mp e
    simp [this]
  | some r =>
    obtain ⟨fs, h1, h2⟩ := h.vw w r e
    simp [h1, h2]

theorem Memory.Rep.saved {m : Memory} {V : Values} (h : m.Rep V) (d : Nat) : m.saved d = V.data[d]? := by
  unfold Memory.saved
  cases e : m.data[d]? with
  | none =>
    have : V.data.length ≤ d := by rw [← h.ld]; exact List.getElem?_eq_none_iff.mp e
    simp [this]
  | some r =>
    obtain ⟨fs, h1, h2⟩ := h.vd d r e
    simp [h1, h2]

theorem getElem?_snoc {α : Type} (l : List α) (a : α) (i : Nat) :
    (l ++ [a])[i]? = if i < l.length then l[i]? else if i = l.length then some a else none := by
  rcases Nat.lt_trichotomy i l.length with h | h | h
  · rw [List.getElem?_append_left h, if_pos h]
  · subst h; simp
  · rw [if_neg (by omega), if_neg (by omega)]
    exact List.getElem?_eq_none (by simp; omega)

/-- A new word with its own new list. -/
theorem Memory.Rep.addWord {m : Memory} {V : Values} (h : m.Rep V) (v : Word) (hv : v.forms.length = (wordsCache v.type).length) :
    Memory.Rep { m with lists := m.lists ++ [v.forms], words := m.words ++ [⟨v.type, m.lists.length, v.properties⟩] }
      { V with words := V.words ++ [v] } := by
  obtain ⟨ww, dd, wd, lw, ld, vw, vd, full⟩ := h
  have hnew : ∀ (i : Nat) (r : WordRef), (m.words ++ [⟨v.type, m.lists.length, v.properties⟩])[i]? = some r →
      ∃ fs, (m.lists ++ [v.forms])[r.forms]? = some fs ∧ (V.words ++ [v])[i]? = some ⟨r.type, fs, r.properties⟩ := by
    intro i r hi
    rw [getElem?_snoc] at hi
    split at hi
    · rename_i hlt
      obtain ⟨fs, e1, e2⟩ := vw i r hi
      have := (List.getElem?_eq_some_iff.mp e1).1
      exact ⟨fs, by rw [List.getElem?_append_left this, e1], by rw [List.getElem?_append_left (lw ▸ hlt), e2]⟩
    · split at hi
      · rename_i he
        injection hi with hi; subst hi
        exact ⟨v.forms, by simp, by rw [getElem?_snoc, if_neg (by omega), if_pos (by omega)]⟩
      · cases hi
  refine ⟨?_, ?_, ?_, ?_, ?_, hnew, ?_, ?_⟩ <;> simp only [getElem?_snoc] <;> grind

theorem Memory.Rep.addData {m : Memory} {V : Values} (h : m.Rep V) (x : WordData) :
    Memory.Rep { m with lists := m.lists ++ [x.forms], data := m.data ++ [⟨x.type, m.lists.length, x.properties⟩] }
      { V with data := V.data ++ [x] } := by
  obtain ⟨ww, dd, wd, lw, ld, vw, vd, full⟩ := h
  have hnew : ∀ (i : Nat) (r : DataRef), (m.data ++ [⟨x.type, m.lists.length, x.properties⟩])[i]? = some r →
      ∃ fs, (m.lists ++ [x.forms])[r.forms]? = some fs ∧ (V.data ++ [x])[i]? = some ⟨r.type, fs, r.properties⟩ := by
    intro i r hi
    rw [getElem?_snoc] at hi
    split at hi
    · rename_i hlt
      obtain ⟨fs, e1, e2⟩ := vd i r hi
      have := (List.getElem?_eq_some_iff.mp e1).1
      exact ⟨fs, by rw [List.getElem?_append_left this, e1], by rw [List.getElem?_append_left (ld ▸ hlt), e2]⟩
    · split at hi
      · rename_i he
        injection hi with hi; subst hi
        exact ⟨x.forms, by simp, by rw [getElem?_snoc, if_neg (by omega), if_pos (by omega)]⟩
      · cases hi
  refine ⟨?_, ?_, ?_, ?_, ?_, ?_, hnew, ?_⟩ <;> (try simp only [getElem?_snoc]) <;> grind

/-- A list nobody refers to. -/
theorem Memory.Rep.garbage {m : Memory} {V : Values} (h : m.Rep V) (fs : List Str) : Memory.Rep { m with lists := m.lists ++ [fs] } V := by
  obtain ⟨ww, dd, wd, lw, ld, vw, vd, full⟩ := h
  refine ⟨?_, ?_, ?_, ?_, ?_, ?_, ?_, ?_⟩ <;> (try simp only) <;> grind

/-- Changing the list of a word. -/
theorem Memory.Rep.changeWord {m : Memory} {V : Values} (h : m.Rep V) {w : Nat} {r : WordRef} {fs : List Str} (hr : m.words[w]? = some r)
    (hf : m.lists[r.forms]? = some fs) (f : List Str → List Str) (hlen : (f fs).length = fs.length) :
    (m.change r.forms f).Rep { V with words := V.words.set w ⟨r.type, f fs, r.properties⟩ } := by
  obtain ⟨ww, dd, wd, lw, ld, vw, vd, full⟩ := h
  obtain ⟨gs, e1, e2⟩ := vw w r hr
  have hw : w < V.words.length := (List.getElem?_eq_some_iff.mp e2).1
  have hgs : gs.length = (wordsCache r.type).length := full _ (List.mem_of_getElem? e2)
  refine ⟨?_, ?_, ?_, ?_, ?_, ?_, ?_, ?_⟩
  iterate 7 simp only [Memory.change_words, Memory.change_data, Memory.change_lists]; grind
  intro v hv
  rcases List.mem_or_eq_of_mem_set hv with hv | rfl
  · exact full v hv
  · rw [e1] at hf; injection hf with hf; subst hf
    exact hlen.trans hgs

/-- Changing the list of data, and their properties. -/
theorem Memory.Rep.changeData {m : Memory} {V : Values} (h : m.Rep V) {d : Nat} {r : DataRef} {fs : List Str} (hr : m.data[d]? = some r)
    (hf : m.lists[r.forms]? = some fs) (gs : List Str) (p : Dict JKey Int) :
    Memory.Rep { m.change r.forms (fun _ => gs) with data := m.data.set d { r with properties := p } }
      { V with data := V.data.set d ⟨r.type, gs, p⟩ } := by
  obtain ⟨ww, dd, wd, lw, ld, vw, vd, full⟩ := h
  have hd : d < m.data.length := (List.getElem?_eq_some_iff.mp hr).1
  refine ⟨?_, ?_, ?_, ?_, ?_, ?_, ?_, ?_⟩ <;> simp only [Memory.change_words, Memory.change_data, Memory.change_lists] <;> grind

/-- Giving data a new list. -/
theorem Memory.Rep.replaceData {m : Memory} {V : Values} (h : m.Rep V) {d : Nat} {r : DataRef} (hr : m.data[d]? = some r)
    (gs : List Str) (p : Dict JKey Int) :
    Memory.Rep { m with lists := m.lists ++ [gs], data := m.data.set d { r with forms := m.lists.length, properties := p } }
      { V with data := V.data.set d ⟨r.type, gs, p⟩ } := by
  obtain ⟨ww, dd, wd, lw, ld, vw, vd, full⟩ := h
  have hd : d < m.data.length := (List.getElem?_eq_some_iff.mp hr).1
  refine ⟨?_, ?_, ?_, ?_, ?_, ?_, ?_, ?_⟩ <;> simp only <;> grind

theorem Word.new_ok {t : WordType} {fs : List Str} {p : Properties} {w : Word} (h : Word.new t fs p = .ok w) :
    w = ⟨t, fs, p⟩ ∧ fs.length = (wordsCache t).length := by
  unfold Word.new at h
  split at h
  · cases h
  · injection h with h
    exact ⟨h.symm, by omega⟩

theorem Word.deserialize_ok {d : WordData} {w : Word} (h : Word.deserialize d = .ok w) :
    w.forms = d.forms ∧ w.forms.length = (wordsCache w.type).length := by
  unfold Word.deserialize at h
  split at h
  · cases h
  · simp only [bind, Except.bind] at h
    split at h
    · cases h
    · obtain ⟨rfl, hl⟩ := Word.new_ok h
      exact ⟨rfl, hl⟩

/-- One careful step. -/
theorem Memory.Rep.step {m : Memory} {V : Values} (h : m.Rep V) (op : Careful) : (m.step op.op).Rep (V.step op) := by
  cases op with
  | create t texts p =>
    simp only [Careful.op, Memory.step, Values.step, Memory.newWord]
    rw [getElem?_snoc, if_neg (by omega), if_pos rfl]
    simp only
    cases e : Word.new t texts p with
    | error x => exact h.garbage texts
    | ok w =>
      obtain ⟨rfl, hl⟩ := Word.new_ok e
      exact h.addWord ⟨t, texts, p⟩ hl
  | save w =>
    simp only [Careful.op, Memory.step, Values.step, h.word w, ← viaJson_eq]
    cases V.words[w]? with
    | none => exact h
    | some v => exact h.addData (viaJson v.serialize)
  | load d =>
    simp only [Careful.op, Memory.step, Values.step, h.saved d, ← viaJson_eq]
    cases V.data[d]? with
    | none => exact h
    | some x =>
      simp only [Memory.newLoaded]
      cases e : Word.deserialize (viaJson x) with
      | error x => exact h.garbage _
      | ok w =>
        obtain ⟨hf, hl⟩ := Word.deserialize_ok e
        simp only
        rw [← hf]
        exact h.addWord w hl
  | setForm w i text =>
    simp only [Careful.op, Memory.step, Values.step]
    cases e : m.words[w]? with
    | none =>
      have : V.words[w]? = none := by rw [List.getElem?_eq_none_iff, ← h.lw]; exact List.getElem?_eq_none_iff.mp e
      simp only [this]; exact h
    | some r =>
      obtain ⟨fs, h1, h2⟩ := h.vw w r e
      simp only [h2]
      exact h.changeWord e h1 (fun fs => fs.set i text) (by simp)
  | autofill w =>
    simp only [Careful.op, Memory.step, Values.step]
    cases e : m.words[w]? with
    | none =>
      have : V.words[w]? = none := by rw [List.getElem?_eq_none_iff, ← h.lw]; exact List.getElem?_eq_none_iff.mp e
      simp only [this]; exact h
    | some r =>
      obtain ⟨fs, h1, h2⟩ := h.vw w r e
      simp only [h2]
      have hl := h.full _ (List.mem_of_getElem? h2)
      obtain ⟨w', e1, e2, e3, e4, -⟩ := autofill_spec (w := ⟨r.type, fs, r.properties⟩) (by rw [hl, wordsCache_length])
      rw [e1]
      simp only
      have e5 := autofillList_ok e1
      have hc := h.changeWord e h1 (fun fs => (autofillList r.type fs).1) (by
        show (autofillList r.type fs).1.length = fs.length
        rw [show (autofillList r.type fs).1 = w'.forms from e5]; exact e4)
      have ew : w' = ⟨r.type, (autofillList r.type fs).1, r.properties⟩ := by
        obtain ⟨t, f, p⟩ := w'
        simp only at e2 e3 e5
        rw [e2, e3, ← e5]
      rw [ew]
      exact hc
  | migrate k d =>
    simp only [Careful.op, Memory.step, Values.step, ← apply_eq]
    cases e : m.data[d]? with
    | none =>
      have : V.data[d]? = none := by rw [List.getElem?_eq_none_iff, ← h.ld]; exact List.getElem?_eq_none_iff.mp e
      simp only [this]; exact h
    | some r =>
      obtain ⟨fs, h1, h2⟩ := h.vd d r e
      simp only [h.saved d, h2]
      cases e1 : k.apply ⟨r.type, fs, r.properties⟩ with
      | error x => exact h
      | ok new =>
        have ht := Migration.apply_type e1
        obtain ⟨t, f, p⟩ := new
        simp only at ht ⊢
        subst ht
        split
        · exact h.replaceData e f p
        · exact h.changeData e h1 f p

/-- C95: if every word is built from its own list and data go through JSON whenever a word is saved or loaded, words and saved data
behave as plain values, whatever is created, changed, filled, saved, loaded and migrated in whatever order. -/
theorem C95_values (ops : List Careful) (w d : Nat) :
    (Memory.after (ops.map Careful.op)).word w = (ops.foldl Values.step ⟨[], []⟩).words[w]? ∧
    (Memory.after (ops.map Careful.op)).saved d = (ops.foldl Values.step ⟨[], []⟩).data[d]? := by
  have key : ∀ (ops : List Careful) (m : Memory) (V : Values), m.Rep V →
      ((ops.map Careful.op).foldl Memory.step m).Rep (ops.foldl Values.step V) := by
    intro ops
    induction ops with
    | nil => intro m V h; exact h
    | cons op ops ih => intro m V h; exact ih _ _ (h.step op)
  have h0 : Memory.Rep ⟨[], [], []⟩ ⟨[], []⟩ := by
    refine ⟨?_, ?_, ?_, rfl, rfl, ?_, ?_, ?_⟩ <;> simp
  have h := key ops _ _ h0
  exact ⟨h.word w, h.saved d⟩

/-- C95: then every word always has one form for each slot. -/
theorem C95_full (ops : List Careful) (w : Nat) (v : Word) (h : (Memory.after (ops.map Careful.op)).word w = some v) :
    v.forms.length = slotCount v.type := by
  have key : ∀ (ops : List Careful) (m : Memory) (V : Values), m.Rep V →
      ((ops.map Careful.op).foldl Memory.step m).Rep (ops.foldl Values.step V) := by
    intro ops
    induction ops with
    | nil => intro m V h; exact h
    | cons op ops ih => intro m V h; exact ih _ _ (h.step op)
  have h0 : Memory.Rep ⟨[], [], []⟩ ⟨[], []⟩ := by
    refine ⟨?_, ?_, ?_, rfl, rfl, ?_, ?_, ?_⟩ <;> simp
  have hr := key ops _ _ h0
  have := hr.full v (List.mem_of_getElem? ((hr.word w).symm.trans h))
  rw [this]
  cases v.type <;> decide +kernel

/-- C95 at work: a word is built, saved, filled and its saved data migrated and loaded again; the saved data keep the gaps, the word does
not, and a second word appears. -/
example : let m := Memory.after ([Careful.create .PREPOSITION [str! "a", str! "", str! ""] (.new []), .save 0, .autofill 0, .load 0].map Careful.op)
    m.word 0 = some ⟨.PREPOSITION, [str! "a", str! "a", str! "a"], .new []⟩ ∧ m.saved 0 = some ⟨10, [str! "a", str! "", str! ""], []⟩ ∧
    m.word 1 = some ⟨.PREPOSITION, [str! "a", str! "", str! ""], .new []⟩ := by decide +kernel

end Utg
