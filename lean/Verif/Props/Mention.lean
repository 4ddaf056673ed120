import Verif.Spec.Mention
import Verif.Props.Plain
/-!
# C132: which variables can be mentioned
-/

namespace Utg
open Py Spec

theorem mem_of_stripped {U : PyUni} {s t : Str} (h : Stripped U s t) {c : Char} (hc : c ∈ t) : c ∈ s := by
  obtain ⟨a, b, e, -⟩ := h
  rw [e]; simp [hc]

theorem parseDependency_capital {U : PyUni} {names : List Str} {slug name : Str} (hc : HasCapital U name) :
    parseDependency U names slug ≠ .ok (.ext name) := by
  obtain ⟨c, h1, h2⟩ := hc
  unfold parseDependency
  dsimp only
  intro h
  split at h
  · injection h with h
    injection h with h
    exact h2 slug (mem_of_stripped (strip_stripped U _) (h ▸ h1))
  · cases hp : parseProperties (strip U (U.lower slug)) with
    | error e => rw [hp] at h; cases h
    | ok p => rw [hp] at h; simp [bind, Except.bind] at h

theorem parse_capital {U : PyUni} {names : List Str} {v name : Str} {s : Substitution} (hc : HasCapital U name)
    (h : Substitution.parse U v names = .ok s) : ¬ RefersTo s name := by
  unfold Substitution.parse at h
  split at h
  · cases h
  · rename_i head slugs _
    split at h
    · cases h
    · cases e : slugs.mapM (parseDependency U names) with
      | error e' => rw [e] at h; simp [bind, Except.bind] at h
      | ok deps =>
        simp only [e, bind, Except.bind] at h
        cases e2 : Py.first (strip U head) with
        | error e' => rw [e2] at h; cases h
        | ok c =>
          rw [e2] at h
          simp only at h
          injection h with h
          subst h
          rintro (h | h)
          · obtain ⟨d, h1, h2⟩ := hc
            exact h2 _ (h ▸ h1)
          · have hd : Dep.ext name ∉ deps := by
              intro hm
              obtain ⟨i, hi, he⟩ := List.mem_iff_getElem.mp hm
              have hf := List.forall₂_iff_get.mp (forall₂_of_mapM e)
              have := hf.2 i (by rw [hf.1]; exact hi) hi
              simp only [List.get_eq_getElem] at this
              rw [he] at this
              exact parseDependency_capital hc this
            simp only at h
            split at h
            · simp at h; exact hd h
            · exact hd h

/-- C132: a variable whose name has a capital letter is never mentioned, whatever is written in a template; it has no influence on the
text. -/
theorem C132_capital (U : PyUni) (names : List Str) (text name : Str) (t : Template) (hc : HasCapital U name)
    (ht : Template.empty.parse U text names = .ok t) :
    (∀ s ∈ t.substitutions, ¬ RefersTo s name) ∧
    ∀ (ext ext' : Externals) (d : Dictionary), (∀ n, n ≠ name → ext.get? n = ext'.get? n) → t.substitute U ext d = t.substitute U ext' d := by
  obtain ⟨l, ps, hp, -⟩ := C45_pieces_unique text
  obtain ⟨h1, h2⟩ := (C45_parse U names text l ps t hp).mp ht
  have key : ∀ s ∈ t.substitutions, ¬ RefersTo s name := by
    intro s hs
    obtain ⟨i, hi, rfl⟩ := List.mem_iff_getElem.mp hs
    have := List.forall₂_iff_get.mp h1
    exact parse_capital hc (this.2 i (by rw [this.1]; exact hi) hi)
  refine ⟨key, fun ext ext' d h => ?_⟩
  refine C48_template U ext ext' d d t (fun s hs => h _ fun e => key s hs (.inl e)) (fun s hs n hn => h n ?_) fun _ _ _ => rfl
  rintro rfl
  exact key s hs (.inr hn)

/-- C132: a variable whose name is written in lower case, without marks and blanks around it, can be mentioned, alone and as a
dependency - also if its name is the id of a property. -/
theorem C132_written (U : PyUni) (names : List Str) (name word : Str) (h : Written U name) (hw : Written U word) (hn : name ∈ names) :
    (∃ t, Template.empty.parse U (bracketed name []) names = .ok t ∧ t.substitutions = [⟨name, []⟩]) ∧
    ∃ t, Template.empty.parse U (bracketed word [name]) names = .ok t ∧ t.substitutions = [⟨word, [.ext name]⟩] := by
  have one : ∀ (head : Str) (slugs : List Str) (deps : List Dep), Written U head → (∀ s ∈ slugs, Written U s) →
      List.Forall₂ (Reads U names) slugs deps →
      ∃ t, Template.empty.parse U (bracketed head slugs) names = .ok t ∧ t.substitutions = [⟨head, deps⟩] := by
    intro head slugs deps h1 h2 h3
    obtain ⟨v, p⟩ := parse_written h1 h2 h3
    have hp : Pieces (bracketed head slugs) [] [(bracketed head slugs, [])] := by
      have := Pieces.var [] (bracketed head slugs) [] [] [] isLiteral_nil v (.last [] (isFinal_of_isLiteral isLiteral_nil))
      simpa using this
    exact ⟨_, parse_ok_of (subs := [_]) hp (.cons p .nil), rfl⟩
  exact ⟨one _ _ _ h (by simp) .nil, one _ _ _ hw (by simpa using h) (.cons (reads_name h hn) .nil)⟩

/-- The letter `Г` is in no text in lower case. -/
theorem exPy_capital : HasCapital exPy (str! "Герой") := by
  refine ⟨'Г', by decide, ?_⟩
  intro x hx
  obtain ⟨c, -, hc⟩ := List.mem_map.mp hx
  have h0 : 'А'.toNat = 1040 ∧ 'Г'.toNat = 1043 ∧ 'Я'.toNat = 1071 := by decide
  split at hc
  · have h1 : (Char.ofNat (c.toNat + 32)).toNat = 'Г'.toNat := by rw [hc]
    have h2 : (c.toNat + 32).isValidChar := by left; omega
    have h3 : (Char.ofNat (c.toNat + 32)).toNat = c.toNat + 32 := by
      unfold Char.ofNat; rw [dif_pos h2]; rfl
    rw [h3] at h1
    omega
  · rename_i h
    by_cases hu : c.isUpper
    · have h1 : c.toNat ≤ 90 := by
        simp only [Char.isUpper, decide_eq_true_eq] at hu
        exact hu.2
      have h2 : c.toLower.toNat ≤ 122 := by
        have : ∀ n ≤ 90, (Char.ofNat n).toLower.toNat ≤ 122 := by decide
        have := this c.toNat h1
        rwa [Char.ofNat_toNat] at this
      rw [hc] at h2
      omega
    · have : c.toLower = c := by
        unfold Char.toLower
        rw [dif_neg]
        simpa [Char.isUpper] using hu
      rw [this] at hc
      subst hc
      exact h (by decide)

/-- C132 applies: nothing a template can say mentions the variable `Герой`, but a variable `мн` hides the plural. -/
example : HasCapital exPy (str! "Герой") ∧ Written exPy (str! "мн") ∧ Written exPy (str! "герой") ∧ Rec.NUMBER_PLURAL.verboseId = str! "мн" ∧
    (Template.empty.parse exPy (str! "[Герой] [пришёл|герой]") [str! "герой", str! "Герой"]).toBool = true ∧
    (Template.empty.parse exPy (str! "[пришёл|Герой]") [str! "Герой"]).toBool = false :=
  ⟨exPy_capital, by unfold Written; decide +kernel, by unfold Written; decide +kernel, rfl, by decide +kernel, by decide +kernel⟩

end Utg
