import Verif.Spec.PlainNumber
import Verif.Props.Classes
import Verif.Props.Exact
import Verif.Props.Templates
import Verif.Props.BareWords
/-! # C161: numbers in a template -/

namespace Utg
open Py Spec

theorem pyStr_chars (n : Int) : pyStr n ≠ [] ∧ ∀ c ∈ pyStr n, c.isDigit = true ∨ c = '-' := by
  unfold pyStr
  obtain ⟨h1, h2⟩ := natDigits_digits n.natAbs
  split
  · refine ⟨by simp, fun c hc => ?_⟩
    rcases List.mem_cons.mp hc with rfl | hc
    · exact .inr rfl
    · exact .inl (h2 c hc)
  · exact ⟨h1, fun c hc => .inl (h2 c hc)⟩

theorem agreeAll_number {U : PyUni} {w : Word} (h : w.type = .INTEGER) (ρ : Reading) (fs : List WordForm) : agreeAll U w ρ fs = .ok ρ := by
  induction fs with
  | nil => rfl
  | cons f fs ih =>
    have : demand U w ρ f = .ok [] := by simp [demand, h]
    simp only [agreeAll, this, bind, Except.bind]
    exact ih

theorem spoken_number {U : PyUni} (hU : DigitsPlain U) {w : Word} {n : Int} (h : SpellsNumber w n) (ρ : Reading) : spoken U w ρ = .ok (pyStr n) := by
  obtain ⟨hne, hch⟩ := pyStr_chars n
  have hf : formIn w ρ = pyStr n := by
    unfold formIn
    rw [h.1, h.2, show slotOf .INTEGER ρ = 0 from by simp [slotOf, show layoutNow .INTEGER = [[]] from by decide +kernel, Fits]]
    rfl
  unfold spoken
  rw [hf]
  split
  · cases hs : pyStr n with
    | nil => exact absurd hs hne
    | cons c cs => simp [hU.upper c (hch c (by rw [hs]; exact List.mem_cons_self))]
  · rfl

/-- C161: a number is printed in decimal notation, whatever is said about it. -/
theorem C161_digits (U : PyUni) (hU : DigitsPlain U) (ext : Externals) (d : Dictionary) (s : Substitution) (base : WordForm) (n : Int)
    (he : GoodExternals ext) (hd : GoodDictionary d) (hs : GoodSubstitution s) (hr : Resolves ext d s.id base) (hn : SpellsNumber base.word n)
    (hm : ∀ x, Dep.ext x ∈ s.dependencies → ∃ f, ext.get? x = some f) : s.getText U ext d = .ok (pyStr n) := by
  rw [getText_reading he hd hs hr, masters_ok hm]
  simp only [Except.bind, agreeAll_number hn.1]
  exact spoken_number hU hn _

/-- C161: an external that is not given is still missed. -/
theorem C161_missing (U : PyUni) (ext : Externals) (d : Dictionary) (id x : Str) (pre post : List Dep) (base : WordForm) (n : Int)
    (he : GoodExternals ext) (hd : GoodDictionary d) (hs : GoodSubstitution ⟨id, pre ++ .ext x :: post⟩) (hr : Resolves ext d id base)
    (_hn : SpellsNumber base.word n) (hp : ∀ y, Dep.ext y ∈ pre → ∃ f, ext.get? y = some f) (hx : ext.get? x = none) :
    Substitution.getText U ⟨id, pre ++ .ext x :: post⟩ ext d = .error (.ExternalDependecyNotFoundError x) := by
  rw [getText_reading he hd hs (s := ⟨id, _⟩) hr, masters_missing hp hx]
  rfl

/-- C161: a number made by `construct_integer` is such a number. -/
theorem C161_constructed (n : Int) : ∃ f, constructIntegerFresh n = .ok f ∧ SpellsNumber f.word n := ⟨_, constructIntegerFresh_eq n, rfl, rfl⟩

/-- C161: a dictionary to which a number was added gives the number for its digits. -/
theorem C161_known (U : PyUni) (ws : List Word) (hws : ∀ w ∈ ws, Accepted w) (n : Int) (w : Word) (hw : w ∈ ws)
    (hn : SpellsNumber w n) (hlow : w.properties.get .WORD_CASE = some .WORD_CASE_LOWER) (ext : Externals) (hx : ext.get? (pyStr n) = none) :
    Substitution.getText U ⟨pyStr n, []⟩ ext (history U ws) = .ok (pyStr n) := by
  apply C73_bare_word U ws hws _ ext _ hx
  refine (C26_known_texts U ws hws _).2.1.mpr ⟨w, hw, ?_⟩
  refine (C26_texts_are_forms U w (hws w hw) ?_ hlow _).mpr (by rw [hn.2]; simp)
  rw [hn.1]
  intro g hg
  exact absurd hg (by revert g; decide)

/-- C161: a number is no property: `[монета|5]` is refused unless a variable 5 is announced. -/
theorem C161_constant (U : PyUni) (hU : DigitsPlain U) (names : List Str) (head : Str) (pre post : List Str) (deps : List Dep) (n : Int)
    (hh : head ≠ []) (hb : '|' ∉ head) (hs : ∀ s ∈ pre ++ post, '|' ∉ s) (hd : List.Forall₂ (Reads U names) pre deps)
    (hn : pyStr n ∉ names) :
    Substitution.parse U (bracketed head (pre ++ pyStr n :: post)) names = .error (.UnknownVerboseIdError (pyStr n)) := by
  obtain ⟨hne, hch⟩ := pyStr_chars n
  have hno : ∀ x : Char, x.isDigit = false → x ≠ '-' → x ∉ pyStr n := by
    intro x h1 h2 hx
    rcases hch x hx with h | h
    · rw [h1] at h; cases h
    · exact h2 h
  refine C46_unknown_id U names head _ _ pre post deps hb ?_ hh hd ⟨pyStr n, ⟨[], [], by simp [hU.lower _ hch], by simp, by simp, ?_, ?_⟩, hn, [], [], ?_, ?_, by simp,
    hne, ?_⟩
  · intro s hm
    simp only [List.mem_append, List.mem_cons] at hm
    rcases hm with hm | rfl | hm
    · exact hs s (by simp [hm])
    · exact hno '|' (by decide) (by decide)
    · exact hs s (by simp [hm])
  · intro c hc; exact hU.space c (hch c (List.mem_of_mem_head? hc))
  · intro c hc; exact hU.space c (hch c (List.mem_of_mem_getLast? hc))
  · simp [List.intercalate]
  · intro id hid
    simp at hid; subst hid
    exact hno ',' (by decide) (by decide)
  · intro r hr
    have key : ∀ g : Group, ∀ r ∈ g.records, ¬ (r.verboseId ≠ [] ∧ ∀ c ∈ r.verboseId, c.isDigit = true ∨ c = '-') := by
      intro g; cases g <;> decide +kernel
    exact key r.group r (mem_records_iff.mpr rfl) (by rw [hr]; exact ⟨hne, hch⟩)

theorem exPy_digits : DigitsPlain exPy := by
  have h : ∀ c : Char, c.isDigit = true ∨ c = '-' → exPy.upperC c = [c] ∧ exPy.lower [c] = [c] ∧ exPy.isSpace c = false := by
    intro c hc
    have hm : c ∈ str! "-0123456789" := by
      rcases hc with hc | rfl
      · simp only [Char.isDigit, Bool.and_eq_true, decide_eq_true_eq] at hc
        have h1 : 48 ≤ c.toNat := hc.1
        have h2 : c.toNat ≤ 57 := hc.2
        have h3 : Char.ofNat c.toNat = c := Char.ofNat_toNat c
        generalize c.toNat = k at h1 h2 h3
        subst h3
        exact (show ∀ k < 58, 48 ≤ k → Char.ofNat k ∈ str! "-0123456789" by decide) k (by omega) h1
      · decide
    have : ∀ c ∈ str! "-0123456789", exPy.upperC c = [c] ∧ exPy.lower [c] = [c] ∧ exPy.isSpace c = false := by decide +kernel
    exact this c hm
  refine ⟨fun c hc => (h c hc).1, fun s hs => ?_, fun c hc => (h c hc).2.2⟩
  show s.map _ = s
  conv_rhs => rw [← List.map_id s]
  apply List.map_congr_left
  intro c hc
  have := (h c (hs c hc)).2.1
  simpa [exPy] using this

/-- `[n|мн,тв|б]` with n = -3, and the dictionary that knows 5 as a word; `[монета|5]` without a variable 5. -/
example : DigitsPlain exPy ∧ SpellsNumber (integerForm (-3)).word (-3) ∧
    GoodSubstitution ⟨str! "n", [.props (.new [.record .NUMBER_PLURAL, .record .CASE_INSTRUMENTAL, .record .WORD_CASE_UPPER]), .ext (str! "n")]⟩ ∧
    GoodExternals [(str! "n", integerForm (-3))] ∧ Accepted (integerForm 5).word ∧
    (integerForm 5).word.properties.get .WORD_CASE = some .WORD_CASE_LOWER ∧ pyStr 5 ∉ [str! "n"] := by
  refine ⟨exPy_digits, ⟨rfl, rfl⟩, ?_, ?_, (integerForm_good 5).1, by decide +kernel, by decide +kernel⟩
  · intro p hp
    simp at hp; subst hp
    exact wf_new (wfargs_records [_, _, _])
  · intro x f hf
    simp only [Dict.get?] at hf
    split at hf
    · injection hf with hf; subst hf; exact integerForm_good (-3)
    · cases hf

end Utg
