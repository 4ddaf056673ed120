import Verif.Spec.Plain
import Verif.Props.Phrase
import Verif.Props.Writing
/-!
# C130: texts given by users
-/

namespace Utg
open Py Spec

theorem plain_good (x : Str) : GoodForm (plain x) :=
  goodForm_new (exText_accepted x (.new []) (wf_new (by intro p hp; simp at hp))) (by simp) (by simp)

theorem plain_says (x : Str) (g : Group) : (plain x).properties.isSpecified g = false := by
  cases g <;> rfl

theorem agreeAll_text {U : PyUni} {w : Word} (ht : w.type = .TEXT) (fs : List WordForm) (ρ : Reading) : agreeAll U w ρ fs = .ok ρ := by
  induction fs generalizing ρ with
  | nil => rfl
  | cons f fs ih =>
    simp only [agreeAll, demand, ht]
    exact ih ρ

theorem formIn_text (x : Str) (ρ : Reading) : formIn ⟨.TEXT, [x], .new []⟩ ρ = x := by
  have : slotOf .TEXT ρ = 0 := by
    unfold slotOf
    rw [show layoutNow .TEXT = [[]] from by decide]
    rfl
  simp [formIn, this]

theorem plain_getText (U : PyUni) (ext : Externals) (d : Dictionary) (s : Substitution) (x : Str) (he : GoodExternals ext) (hd : GoodDictionary d)
    (hs : GoodSubstitution s) (hr : Resolves ext d s.id (plain x)) (hm : ∀ n, Dep.ext n ∈ s.dependencies → ext.get? n ≠ none) :
    s.getText U ext d = inCase U (asksCapital ext s.dependencies) x := by
  rw [getText_reading he hd hs hr]
  have hmas : ∀ deps : List Dep, (∀ n, Dep.ext n ∈ deps → ext.get? n ≠ none) → ∃ fs, masters ext deps = .ok fs := by
    intro deps
    induction deps with
    | nil => intro _; exact ⟨_, rfl⟩
    | cons a deps ih =>
      intro h
      obtain ⟨fs, hf⟩ := ih fun n hn => h n (List.mem_cons_of_mem _ hn)
      cases a with
      | props p => exact ⟨fs, hf⟩
      | ext n =>
        simp only [masters, hf]
        cases hn : ext.get? n with
        | none => exact absurd hn (h n List.mem_cons_self)
        | some f => exact ⟨_, rfl⟩
  obtain ⟨fs, hfs⟩ := hmas _ hm
  rw [hfs]
  show (agreeAll U (plain x).word _ fs).bind _ = _
  rw [agreeAll_text rfl]
  show spoken U (plain x).word _ = _
  have h1 : initialReading ext (plain x) s.dependencies .WORD_CASE =
      (lastSay ext .WORD_CASE s.dependencies).or (some .WORD_CASE_LOWER) := by
    unfold initialReading
    rw [show (plain x).word.properties.isSpecified .WORD_CASE = false from rfl]
    simp only [Bool.false_eq_true, if_false]
    cases lastSay ext .WORD_CASE s.dependencies <;> rfl
  unfold spoken
  rw [h1, show formIn (plain x).word _ = x from formIn_text x _]
  unfold asksCapital
  by_cases h : lastSay ext .WORD_CASE s.dependencies = some .WORD_CASE_UPPER
  · rw [h]; simp only [Option.or_some, if_true, decide_true]
    cases x <;> rfl
  · have : (lastSay ext .WORD_CASE s.dependencies).or (some .WORD_CASE_LOWER) ≠ some .WORD_CASE_UPPER := by
      cases hl : lastSay ext .WORD_CASE s.dependencies with
      | none => simp
      | some r => rw [hl] at h; simpa using h
    simp only [this, h, if_false, decide_false]
    cases x <;> rfl

/-- C130: a plain text stands where its name is mentioned, letter by letter, whatever is asked of it; if a capital letter is asked for, its
first letter becomes one. -/
theorem C130_text (U : PyUni) (ext : Externals) (d : Dictionary) (s : Substitution) (x : Str) (he : GoodExternals ext) (hd : GoodDictionary d)
    (hs : GoodSubstitution s) (hx : ext.get? s.id = some (plain x)) (hm : ∀ n, Dep.ext n ∈ s.dependencies → ext.get? n ≠ none) :
    s.getText U ext d = inCase U (asksCapital ext s.dependencies) x :=
  plain_getText U ext d s x he hd hs (.inl hx) hm

theorem demand_text {U : PyUni} {w : Word} {ρ : Reading} {x : Str} (hp : w.type ≠ .PREPOSITION) : demand U w ρ (plain x) = .ok [] := by
  unfold demand
  cases ht : w.type <;> simp_all [plain, WordForm.new]

theorem masters_append (ext : Externals) (a b : List Dep) :
    masters ext (a ++ b) = (masters ext a).bind fun fs => (masters ext b).map (fs ++ ·) := by
  induction a with
  | nil => simp only [List.nil_append, masters, Except.bind]; cases masters ext b <;> rfl
  | cons x a ih =>
    cases x with
    | props p => simpa only [List.cons_append, masters] using ih
    | ext n =>
      simp only [List.cons_append, masters]
      cases ext.get? n with
      | none => rfl
      | some f =>
        simp only [ih]
        cases masters ext a <;> cases masters ext b <;> rfl

theorem agreeAll_append {U : PyUni} {w : Word} (a b : List WordForm) (ρ : Reading) :
    agreeAll U w ρ (a ++ b) = (agreeAll U w ρ a).bind fun σ => agreeAll U w σ b := by
  induction a generalizing ρ with
  | nil => rfl
  | cons f a ih =>
    simp only [List.cons_append, agreeAll]
    cases demand U w ρ f with
    | error e => rfl
    | ok rs => exact ih _

/-- C130: words that depend on a plain text are what they are without it; only prepositions look at it. -/
theorem C130_others (U : PyUni) (ext : Externals) (d : Dictionary) (id name x : Str) (pre post : List Dep) (base : WordForm)
    (he : GoodExternals ext) (hd : GoodDictionary d) (hs : GoodSubstitution ⟨id, pre ++ post⟩) (hx : ext.get? name = some (plain x))
    (hb : Resolves ext d id base) (hp : base.word.type ≠ .PREPOSITION) :
    Substitution.getText U ⟨id, pre ++ .ext name :: post⟩ ext d = Substitution.getText U ⟨id, pre ++ post⟩ ext d := by
  have hs' : GoodSubstitution ⟨id, pre ++ .ext name :: post⟩ := by
    intro p hp
    apply hs p
    simp only [List.mem_append, List.mem_cons, reduceCtorEq, false_or] at hp ⊢
    exact hp
  rw [getText_reading he hd hs' hb, getText_reading he hd hs hb]
  have hi : initialReading ext base (pre ++ .ext name :: post) = initialReading ext base (pre ++ post) := by
    funext g
    unfold initialReading
    have : depSays ext (.ext name) g = none := by simp only [depSays, hx, plain_says]; rfl
    simp only [lastSay_append, lastSay, this]
    cases lastSay ext g post <;> rfl
  simp only [hi, masters_append]
  cases masters ext pre with
  | error e => rfl
  | ok fs =>
    simp only [masters, hx]
    cases masters ext post with
    | error e => rfl
    | ok gs =>
      simp only [Except.bind, bind, Except.map, agreeAll_append]
      cases agreeAll U base.word (initialReading ext base (pre ++ post)) fs with
      | error e => rfl
      | ok σ =>
        simp only [Except.bind, agreeAll, demand_text hp]
        rfl

/-- C130: in a text with any number of variables each plain text is inserted letter by letter; brackets and percent signs in it are not
read as marks of the template language. -/
theorem C130_names (U : PyUni) (names : List Str) (ext : Externals) (d : Dictionary) (text l : Str) (ps : List (Str × Str)) (texts : List Str)
    (he : GoodExternals ext) (hd : GoodDictionary d) (hp : Pieces text l (ps.map fun p => (bracketed p.1 [], p.2)))
    (hw : ∀ p ∈ ps, Written U p.1) (hx : List.Forall₂ (fun p x => ext.get? p.1 = some (plain x)) ps texts) :
    ∃ t, Template.empty.parse U text names = .ok t ∧ t.substitute U ext d = .ok (filled l texts (ps.map Prod.snd)) := by
  have key : List.Forall₂ (fun (p : Str × Str) x => ∃ s, Substitution.parse U (doubled p.1) names = .ok s ∧ s.getText U ext d = .ok x)
      (ps.map fun p => (bracketed p.1 [], p.2)) texts := by
    clear hp
    induction hx with
    | nil => exact .nil
    | cons h _ ih =>
      refine .cons ⟨_, (parse_written (hw _ List.mem_cons_self) (by simp) .nil).2, ?_⟩ (ih fun p hp => hw p (List.mem_cons_of_mem _ hp))
      rw [C130_text U ext d _ _ he hd (by intro p hp; simp at hp) h (by simp)]
      rfl
  have := C44_literal_text U names ext d text l _ texts hp key
  rw [List.map_map] at this
  exact this

/-- C130 applies to `Это [герой], 100%` and a name that looks like a template. -/
example : ∃ t, Template.empty.parse exPy (str! "Это [герой], 100%") [str! "герой"] = .ok t ∧
    t.substitute exPy [(str! "герой", plain (str! "[герой] %s %"))] (history exPy []) = .ok (str! "Это [герой] %s %, 100%") := by
  have h := C130_names exPy [str! "герой"] [(str! "герой", plain (str! "[герой] %s %"))] (history exPy []) (str! "Это [герой], 100%") (str! "Это ")
    [(str! "герой", str! ", 100%")] [str! "[герой] %s %"] ?_ (goodDictionary_history exPy [] (by simp)) ?_ ?_ (.cons rfl .nil)
  · exact h
  · intro n f h
    simp only [Dict.get?] at h
    split at h
    · injection h with h; subst h; exact plain_good _
    · cases h
  · have v := (parse_written (U := exPy) (names := []) (head := str! "герой") (slugs := []) (deps := []) (by unfold Written; decide +kernel)
      (by simp) .nil).1
    have hl : IsLiteral (str! "Это ") := by
      refine isLiteral_cons.mpr ⟨?_, isLiteral_cons.mpr ⟨?_, isLiteral_cons.mpr ⟨?_, isLiteral_cons.mpr ⟨?_, isLiteral_nil⟩⟩⟩⟩ <;>
        exact fun h => absurd h (by decide)
    have hf : IsFinalLiteral (str! ", 100%") := by
      refine isFinal_of_isLiteral (isLiteral_cons.mpr ⟨?_, isLiteral_cons.mpr ⟨?_, isLiteral_cons.mpr ⟨?_, isLiteral_cons.mpr ⟨?_,
        isLiteral_cons.mpr ⟨?_, isLiteral_cons.mpr ⟨?_, isLiteral_nil⟩⟩⟩⟩⟩⟩) <;> exact fun h => absurd h (by decide)
    exact Pieces.var _ _ _ _ _ hl v (.last _ hf)
  · unfold Written; decide +kernel

/-- An adjective that depends on a plain text and on a number: the hypotheses are met, and it is no preposition. -/
example : Resolves [(str! "герой", plain (str! "x")), (str! "aa", WordForm.new exAdjective)] (history exPy []) (str! "aa") (WordForm.new exAdjective) ∧
    (WordForm.new exAdjective).word.type ≠ .PREPOSITION := ⟨.inl rfl, by decide⟩

end Utg
