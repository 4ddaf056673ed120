import Verif.Props.AnyFilling
/-! # C154: a preposition before a form that does not begin with a letter -/

namespace Utg
open Py Spec

theorem among_odd {y : Json} (h : ¬ IsCompound y) (hc : ∀ c, y ≠ .str [c]) (letters : List Char) : y.among letters = .ok false := by
  cases y with
  | arr items => exact absurd (.arr items) h
  | obj items => exact absurd (.obj items) h
  | str s =>
    match s with
    | [] => rfl
    | [c] => exact absurd rfl (hc c)
    | _ :: _ :: _ => rfl
  | _ => rfl

theorem transformLoaded_odd {U : PyUni} {w : LoadedWord} {f : LoadedExternal} {x own : Json} (hw : w.type = .PREPOSITION)
    (hown : w.form w.properties = .ok own) (hlast : ∀ e, ¬ NoLastLetter own e) (hx : f.form U = .ok x) (ho : OddFirst x) (p : Properties) :
    transformLoaded U w p f = .ok p := by
  obtain ⟨y, ys, rfl, h1, h2⟩ := ho
  have ht : transformLoaded U w p f = prepositionLoaded U w p f := by unfold transformLoaded; rw [hw]
  have hl : ∃ z b, own.lastItem = .ok z ∧ z.among CONSONANTS = .ok b := by
    cases own with
    | null => exact absurd .null (hlast _)
    | bool b => exact absurd (.bool b) (hlast _)
    | int n => exact absurd (.int n) (hlast _)
    | float s n => exact absurd (.float s n) (hlast _)
    | obj items => exact absurd (.object items) (hlast _)
    | str s =>
      rcases s.eq_nil_or_concat with rfl | ⟨s', c, rfl⟩
      · exact absurd .emptyText (hlast _)
      · exact ⟨.str [c], CONSONANTS.contains c, by simp [Json.lastItem], rfl⟩
    | arr items =>
      rcases items.eq_nil_or_concat with rfl | ⟨ys, z, rfl⟩
      · exact absurd .emptyList (hlast _)
      · rw [List.concat_eq_append] at *
        by_cases hz : IsCompound z
        · exact absurd (.list ys z hz) (hlast _)
        · refine ⟨z, ?_⟩
          have : (Json.arr (ys ++ [z])).lastItem = .ok z := by simp [Json.lastItem]
          by_cases hc : ∀ c, z ≠ .str [c]
          · exact ⟨false, this, among_odd hz hc _⟩
          · simp only [not_forall, ne_eq, not_not] at hc
            obtain ⟨c, rfl⟩ := hc
            exact ⟨CONSONANTS.contains c, this, rfl⟩
  obtain ⟨z, b, hz, hb⟩ := hl
  have hcl : f.startsWithConsonantCluster U = .ok false := by
    unfold LoadedExternal.startsWithConsonantCluster
    rw [hx]
    simp only [bind, Except.bind, Json.nth, List.getElem?_cons_zero, among_odd h1 h2]
    rfl
  rw [ht]
  unfold prepositionLoaded
  rw [hown]
  simp only [bind, Except.bind, hz, hb]
  cases b with
  | true =>
    simp only [if_true, consonantPrepositionLoaded, hx, hcl, bind, Except.bind, Json.nth, List.getElem?_cons_zero, Bool.false_eq_true, if_false]
    split
    · split <;> rfl
    · rfl
  | false =>
    simp only [Bool.false_eq_true, if_false, vowelsPrepositionLoaded, hx, bind, Except.bind, Json.nth, List.getElem?_cons_zero, among_odd h1 h2,
      Json.isOneOf, Bool.and_false]
    rfl

/-- C154: a preposition before a form that is a list and does not begin with a letter: the variable gives its properties, and has no other
effect. -/
theorem C154_no_letter (U : PyUni) (s : Substitution) (ext : LoadedExternals) (d : LoadedDictionary) (base : LoadedForm) (own : Json)
    (hr : ResolvesLoaded ext d s.id base) (hb : base.word.type = .PREPOSITION) (hown : base.word.form base.word.properties = .ok own)
    (hlast : ∀ e, ¬ NoLastLetter own e)
    (hall : ∀ n, .ext n ∈ s.dependencies → ∃ f x, ext.get? n = some f ∧ f.form U = .ok x ∧ OddFirst x) :
    s.getLoaded U ext d = Substitution.getLoaded U ⟨s.id, s.dependencies.map (asProperties ext)⟩ ext d := by
  have hbase : s.baseLoaded ext d = .ok base := by
    unfold Substitution.baseLoaded
    rcases hr with ⟨_, h, rfl⟩ | ⟨h, h'⟩
    · rw [h]
    · rw [h]; exact h'
  have hbase' : Substitution.baseLoaded ⟨s.id, s.dependencies.map (asProperties ext)⟩ ext d = .ok base := hbase
  have hlist : ∀ deps : List Dep, (∀ n, .ext n ∈ deps → ∃ f x, ext.get? n = some f ∧ f.form U = .ok x ∧ OddFirst x) →
      ∃ ps fs, listPropertiesLoaded ext deps = .ok (ps, fs) ∧ listPropertiesLoaded ext (deps.map (asProperties ext)) = .ok (ps, []) ∧
        ∀ f ∈ fs, ∃ x, f.form U = .ok x ∧ OddFirst x := by
    intro deps
    induction deps with
    | nil => exact fun _ => ⟨[], [], rfl, rfl, by simp⟩
    | cons a deps ih =>
      intro ha
      obtain ⟨ps, fs, h1, h2, h3⟩ := ih fun n hn => ha n (List.mem_cons_of_mem _ hn)
      cases a with
      | props p =>
        refine ⟨p :: ps, fs, ?_, ?_, h3⟩
        · simp only [listPropertiesLoaded, h1, bind, Except.bind]
        · simp only [List.map_cons, asProperties, listPropertiesLoaded, h2, bind, Except.bind]
      | ext n =>
        obtain ⟨f, x, hf, hx, ho⟩ := ha n (List.mem_cons_self ..)
        refine ⟨f.properties :: ps, f :: fs, ?_, ?_, ?_⟩
        · simp only [listPropertiesLoaded, hf, h1, bind, Except.bind]
        · simp only [List.map_cons, asProperties, hf, listPropertiesLoaded, h2, bind, Except.bind]
        · intro g hg
          rcases List.mem_cons.mp hg with rfl | hg
          · exact ⟨x, hx, ho⟩
          · exact h3 g hg
  obtain ⟨ps, fs, h1, h2, h3⟩ := hlist s.dependencies hall
  have hfold : ∀ p, fs.foldlM (transformLoaded U base.word) p = .ok p := by
    intro p
    clear h1
    induction fs with
    | nil => rfl
    | cons f fs ih =>
      obtain ⟨x, hx, ho⟩ := h3 f (List.mem_cons_self ..)
      rw [List.foldlM_cons, transformLoaded_odd hb hown hlast hx ho]
      exact ih fun g hg => h3 g (List.mem_cons_of_mem _ hg)
  unfold Substitution.getLoaded
  rw [hbase, hbase']
  simp only [h1, h2, bind, Except.bind, hfold, List.foldlM_nil, pure, Except.pure]

/-- A list whose first item is a number, one whose first item is a text of two letters. -/
example : OddFirst (.arr [.int 7, .str (str! "a")]) ∧ OddFirst (.arr [.str (str! "ab")]) :=
  ⟨⟨_, _, rfl, (fun h => (by cases h)), (fun _ h => (by cases h))⟩, ⟨_, _, rfl, (fun h => (by cases h)), (fun _ h => (by cases h))⟩⟩

/-- The hypotheses are met: before such a word `в` stays `в`. -/
example (U : PyUni) : Substitution.getLoaded U ⟨str! "в", [.ext (str! "z")]⟩
    [(str! "z", ⟨⟨⟨.TEXT, .arr [.arr [.int 7]], .new []⟩, .new []⟩, .new []⟩)] exOddDictionary = .ok (.str (str! "в")) := by
  rw [C154_no_letter U _ _ _ ⟨exNumberForm, .new []⟩ (.str (str! "в")) (.inr ⟨rfl, rfl⟩) rfl rfl (fun e h => (by
    generalize hq : (Json.str (str! "в")) = q at h
    cases h <;> simp at hq))
    (fun n hn => by
      simp only [List.mem_singleton, Dep.ext.injEq] at hn
      subst hn
      exact ⟨_, .arr [.int 7], rfl, rfl, _, _, rfl, (fun h => (by cases h)), (fun _ h => (by cases h))⟩)]
  rfl

end Utg
