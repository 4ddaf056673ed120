import Verif.Props.Aliasing
/-! # C94: the list a word was made from -/

namespace Utg
open Py Spec

theorem Memory.foldl_ref_word {w : Nat} {r : WordRef} (ops : List MOp) : ∀ (m : Memory), m.words[w]? = some r →
    (∀ op ∈ ops, ¬ ReplacesForms w op) → (ops.foldl Memory.step m).words[w]? = some r := by
  induction ops with
  | nil => intro m h _; exact h
  | cons op ops ih =>
    intro m h h'
    exact ih _ (Memory.step_ref_word h (h' op (by simp))) (fun o ho => h' o (by simp [ho]))

theorem Memory.step_create {m : Memory} {t : WordType} {l : Nat} {p : Properties} {texts : List Str} {v : Word}
    (hl : m.lists[l]? = some texts) (hv : Word.new t texts p = .ok v) :
    m.step (.create t l p) = { m with words := m.words ++ [⟨t, l, p⟩] } := by
  simp only [Memory.step, Memory.newWord, hl, hv]

/-- C94: a word made from a list of the caller shares that list: whatever is done later, the word has the forms that the list has
then, as long as the word is not given another list. -/
theorem C94_caller_list (before later : List MOp) (t : WordType) (l : Nat) (p : Properties) (texts : List Str) (v : Word)
    (hl : (Memory.after before).lists[l]? = some texts) (hv : Word.new t texts p = .ok v)
    (h : ∀ op ∈ later, ¬ ReplacesForms (Memory.after before).words.length op) :
    ∃ now, (Memory.after (before ++ .create t l p :: later)).lists[l]? = some now ∧
      (Memory.after (before ++ .create t l p :: later)).word (Memory.after before).words.length = some ⟨t, now, p⟩ := by
  have hs := Memory.after_sound (before ++ .create t l p :: later)
  revert hs
  rw [Memory.after, List.foldl_append, List.foldl_cons, ← Memory.after]
  intro hs
  have hr := Memory.foldl_ref_word (r := ⟨t, l, p⟩) later ((Memory.after before).step (.create t l p))
    (by rw [Memory.step_create hl hv]; simp) h
  obtain ⟨fs, e1, e2⟩ := Memory.word_of hs hr
  exact ⟨fs, e1, e2⟩

/-- C94: so a text that the caller appends to the list becomes the last form of the word, and one put into the list its form at
that place. -/
theorem C94_caller_changes (before : List MOp) (t : WordType) (l i : Nat) (p : Properties) (texts : List Str) (v : Word) (text : Str)
    (hl : (Memory.after before).lists[l]? = some texts) (hv : Word.new t texts p = .ok v) :
    (Memory.after (before ++ [.create t l p, .append l text])).word (Memory.after before).words.length =
      some ⟨t, texts ++ [text], p⟩ ∧
    (Memory.after (before ++ [.create t l p, .setItem l i text])).word (Memory.after before).words.length =
      some ⟨t, texts.set i text, p⟩ := by
  obtain ⟨hb, hbe⟩ := List.getElem?_eq_some_iff.mp hl
  have hlist : ∀ op : MOp, Memory.after (before ++ [.create t l p, op]) =
      Memory.step { Memory.after before with words := (Memory.after before).words ++ [⟨t, l, p⟩] } op := by
    intro op
    rw [Memory.after, List.foldl_append, List.foldl_cons, ← Memory.after, Memory.step_create hl hv]
    rfl
  constructor
  · rw [hlist]
    simp [Memory.step, Memory.change, Memory.word, hb, hbe]
  · rw [hlist]
    simp [Memory.step, Memory.change, Memory.word, hb, hbe]

/-- C94: a word whose caller appends to the list has one form too many, and no dictionary takes it. -/
theorem C94_caller_append_violated (U : PyUni) : ∃ (before : List MOp) (v v' : Word), (Memory.after before).word 0 = some v ∧ Accepted v ∧
    (Memory.after (before ++ [.append 0 (str! "b")])).word 0 = some v' ∧ v'.forms.length = slotCount v'.type + 1 ∧
    ∀ d : Dictionary, (d.addWord U v').2 ≠ none := by
  refine ⟨[.list [str! "a", str! "", str! ""], .create .PREPOSITION 0 (.new [])], ⟨.PREPOSITION, [str! "a", str! "", str! ""], .new []⟩,
    ⟨.PREPOSITION, [str! "a", str! "", str! "", str! "b"], .new []⟩, by decide +kernel, ?_, by decide +kernel, by decide +kernel, ?_⟩
  · exact ⟨.PREPOSITION, [str! "a", str! "", str! ""], .new [], wf_new (by intro p hp; simp at hp), by decide +kernel⟩
  · intro d
    exact addForms_error (i := 3) (e := .IndexError) (by decide +kernel) (by decide) d

/-- The hypotheses are met: the list exists and is accepted, and later operations use it in many ways. -/
example : (Memory.after [.list [str! "a", str! "", str! ""]]).lists[0]? = some [str! "a", str! "", str! ""] ∧
    Word.new .PREPOSITION [str! "a", str! "", str! ""] (.new []) = .ok ⟨.PREPOSITION, [str! "a", str! "", str! ""], .new []⟩ ∧
    ∀ op ∈ [MOp.autofill 0, .append 0 (str! "b"), .setItem 0 1 (str! "c"), .serialize 0, .deserialize 0], ¬ ReplacesForms 0 op := by
  refine ⟨by decide +kernel, by decide +kernel, ?_⟩
  simp [ReplacesForms]

end Utg
