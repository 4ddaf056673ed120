import Verif.Spec.Failures
import Verif.Props.Plain
import Verif.Props.Capital
/-!
# C131: when a template cannot be filled
-/

namespace Utg
open Py Spec

theorem spoken_error {U : PyUni} {w : Word} {ρ : Reading} {e : PyErr} (h : spoken U w ρ = .error e) :
    e = .IndexError ∧ ρ .WORD_CASE = some .WORD_CASE_UPPER ∧ formIn w ρ = [] := by
  unfold spoken at h
  split at h
  · split at h
    · injection h with h; rename_i h1 _ h2; exact ⟨h.symm, h1, h2⟩
    · cases h
  · cases h

/-- What can go wrong with one dependency. -/
theorem demand_outcome {U : PyUni} {w : Word} {ρ : Reading} {f : WordForm} (hw : Accepted w) (hp : Proper ρ) (hf : GoodForm f) :
    (w.type = .PREPOSITION ∧ (w.normalForm = .ok [] ∨ f.form U = .ok [] ∨ f.form U = .error .IndexError) ∧ demand U w ρ f = .error .IndexError) ∨
    (¬ (w.type = .PREPOSITION ∧ (w.normalForm = .ok [] ∨ f.form U = .ok [] ∨ f.form U = .error .IndexError)) ∧ ∃ rs, demand U w ρ f = .ok rs) := by
  rw [C86_word_form U f hf, normalForm_formIn hw]
  have hg : ∀ g, g ≠ .WORD_TYPE → ∃ r, ρ g = some r := fun g hg => by obtain ⟨r, -, h⟩ := hp g hg; exact ⟨r, h⟩
  obtain ⟨m, hm⟩ := hg .DEPENDENCY_MODE (by decide)
  obtain ⟨i, hi⟩ := hg .INTEGER_FORM (by decide)
  obtain ⟨c, hc⟩ := hg .CASE (by decide)
  obtain ⟨a, ha⟩ := hg .ANIMALITY (by decide)
  obtain ⟨g, hge⟩ := hg .GENDER (by decide)
  unfold demand
  simp only [hm, hi, hc, ha, hge]
  by_cases ht : w.type = .PREPOSITION
  · simp only [ht, true_and]
    by_cases h0 : formIn w w.properties.get = []
    · left; simp [h0]
    · rw [if_neg h0]
      cases hs : spoken U f.word f.formProperties.get with
      | error e =>
        obtain ⟨rfl, -⟩ := spoken_error hs
        left; exact ⟨.inr (.inr rfl), rfl⟩
      | ok next =>
        by_cases hn : next = []
        · subst hn; left; exact ⟨.inr (.inl rfl), rfl⟩
        · right
          refine ⟨by simp [h0, hn], prepositionDemand (formIn w w.properties.get) next f.word, ?_⟩
          show (if next = [] then _ else _) = _
          rw [if_neg hn]
  · right
    refine ⟨fun h => ht h.1, ?_⟩
    split
    · contradiction
    all_goals first
      | exact ⟨_, rfl⟩
      | (split <;> exact ⟨_, rfl⟩)

theorem agreeAll_outcome {U : PyUni} {w : Word} (hw : Accepted w) (fs : List WordForm) (hfs : ∀ f ∈ fs, GoodForm f) (ρ : Reading) (hp : Proper ρ) :
    ((w.type = .PREPOSITION ∧ ∃ f ∈ fs, w.normalForm = .ok [] ∨ f.form U = .ok [] ∨ f.form U = .error .IndexError) ∧
      agreeAll U w ρ fs = .error .IndexError) ∨
    (¬ (w.type = .PREPOSITION ∧ ∃ f ∈ fs, w.normalForm = .ok [] ∨ f.form U = .ok [] ∨ f.form U = .error .IndexError) ∧
      ∃ σ, agreeAll U w ρ fs = .ok σ) := by
  induction fs generalizing ρ with
  | nil => right; exact ⟨by simp, _, rfl⟩
  | cons f fs ih =>
    rcases demand_outcome (U := U) hw hp (hfs f List.mem_cons_self) with ⟨h1, h2, h3⟩ | ⟨h1, rs, h3⟩
    · left; exact ⟨⟨h1, f, List.mem_cons_self, h2⟩, by simp only [agreeAll, h3]; rfl⟩
    · have e : agreeAll U w ρ (f :: fs) = agreeAll U w (ρ.upd rs) fs := by simp only [agreeAll, h3]; rfl
      rcases ih (fun g hg => hfs g (List.mem_cons_of_mem _ hg)) (ρ.upd rs) (proper_upds hp rs) with ⟨⟨k1, g, k2, k3⟩, k4⟩ | ⟨k1, σ, k4⟩
      · left; exact ⟨⟨k1, g, List.mem_cons_of_mem _ k2, k3⟩, by rw [e, k4]⟩
      · right
        refine ⟨?_, σ, by rw [e, k4]⟩
        rintro ⟨l1, g, l2, l3⟩
        rcases List.mem_cons.mp l2 with rfl | l2
        · exact h1 ⟨l1, l3⟩
        · exact k1 ⟨l1, g, l2, l3⟩

theorem masters_mem {ext : Externals} {deps : List Dep} {fs : List WordForm} (h : masters ext deps = .ok fs) :
    ∀ f, f ∈ fs ↔ ∃ n, Dep.ext n ∈ deps ∧ ext.get? n = some f := by
  induction deps generalizing fs with
  | nil => injection h with h; subst h; simp
  | cons a deps ih =>
    intro f
    cases a with
    | props p =>
      rw [ih (by simpa only [masters] using h)]
      simp
    | ext n =>
      simp only [masters] at h
      cases hn : ext.get? n with
      | none => rw [hn] at h; cases h
      | some g =>
        rw [hn] at h
        cases hm : masters ext deps with
        | error e => rw [hm] at h; cases h
        | ok gs =>
          rw [hm] at h
          injection h with h
          subst h
          rw [List.mem_cons, ih hm f]
          constructor
          · rintro (rfl | ⟨k, h1, h2⟩)
            · exact ⟨n, List.mem_cons_self, hn⟩
            · exact ⟨k, List.mem_cons_of_mem _ h1, h2⟩
          · rintro ⟨k, h1, h2⟩
            rcases List.mem_cons.mp h1 with h1 | h1
            · injection h1 with h1; subst h1; left; rw [hn] at h2; injection h2 with h2; exact h2.symm
            · exact .inr ⟨k, h1, h2⟩

theorem masters_given {ext : Externals} {deps : List Dep} (h : ∀ n, Dep.ext n ∈ deps → ∃ f, ext.get? n = some f) :
    ∃ fs, masters ext deps = .ok fs := by
  induction deps with
  | nil => exact ⟨_, rfl⟩
  | cons a deps ih =>
    obtain ⟨fs, hf⟩ := ih fun n hn => h n (List.mem_cons_of_mem _ hn)
    cases a with
    | props p => exact ⟨fs, hf⟩
    | ext n =>
      obtain ⟨f, hn⟩ := h n List.mem_cons_self
      simp only [masters, hf, hn]
      exact ⟨_, rfl⟩

/-- C131: if the word is known and the externals are given, a variable can fail only for a missing letter, and does so exactly then. -/
theorem C131_index_error (U : PyUni) (ext : Externals) (d : Dictionary) (s : Substitution) (base : WordForm) (he : GoodExternals ext)
    (hd : GoodDictionary d) (hs : GoodSubstitution s) (hr : Resolves ext d s.id base)
    (hg : ∀ n, Dep.ext n ∈ s.dependencies → ∃ f, ext.get? n = some f) :
    (NoLetter U ext base s.dependencies ∨ NoCapital U ext base s.dependencies → s.getText U ext d = .error .IndexError) ∧
    (¬ (NoLetter U ext base s.dependencies ∨ NoCapital U ext base s.dependencies) → ∃ text, s.getText U ext d = .ok text) := by
  have hb := resolves_good he hd hr
  obtain ⟨fs, hfs⟩ := masters_given hg
  have hmem := masters_mem hfs
  have hgood : ∀ f ∈ fs, GoodForm f := fun f hf => by obtain ⟨n, -, h⟩ := (hmem f).mp hf; exact he n f h
  have hnl : NoLetter U ext base s.dependencies ↔
      (base.word.type = .PREPOSITION ∧ ∃ f ∈ fs, base.word.normalForm = .ok [] ∨ f.form U = .ok [] ∨ f.form U = .error .IndexError) := by
    unfold NoLetter
    constructor
    · rintro ⟨h1, n, f, h2, h3, h4⟩; exact ⟨h1, f, (hmem f).mpr ⟨n, h2, h3⟩, h4⟩
    · rintro ⟨h1, f, h2, h4⟩; obtain ⟨n, h5, h6⟩ := (hmem f).mp h2; exact ⟨h1, n, f, h5, h6, h4⟩
  rw [getText_reading he hd hs hr, hfs]
  simp only [Except.bind]
  rcases agreeAll_outcome (U := U) hb.1 fs hgood _ (initial_proper he hb hs) with ⟨h1, h2⟩ | ⟨h1, σ, h2⟩
  · rw [h2]
    exact ⟨fun _ => rfl, fun h => absurd (.inl (hnl.mpr h1)) h⟩
  · rw [h2]
    have hnc : NoCapital U ext base s.dependencies ↔ σ .WORD_CASE = some .WORD_CASE_UPPER ∧ formIn base.word σ = [] := by
      unfold NoCapital
      constructor
      · rintro ⟨fs', σ', k1, k2, k3⟩
        rw [hfs] at k1; injection k1 with k1; subst k1
        rw [h2] at k2; injection k2 with k2; subst k2
        exact k3
      · exact fun h => ⟨fs, σ, hfs, h2, h⟩
    rw [hnl, hnc]
    show (_ → spoken U base.word σ = _) ∧ (_ → ∃ text, spoken U base.word σ = _)
    constructor
    · rintro (h | ⟨k1, k2⟩)
      · exact absurd h h1
      · unfold spoken; rw [k1, k2]; rfl
    · intro h
      cases hsp : spoken U base.word σ with
      | ok x => exact ⟨x, rfl⟩
      | error e => exact absurd (.inr (spoken_error hsp).2) h

/-- C131: a variable can be replaced exactly if its word is known, the externals it names are given and no letter is missing. -/
theorem C131_fillable (U : PyUni) (ext : Externals) (d : Dictionary) (s : Substitution) (he : GoodExternals ext) (hd : GoodDictionary d)
    (hs : GoodSubstitution s) : (∃ text, s.getText U ext d = .ok text) ↔ Fillable U ext d s := by
  constructor
  · rintro ⟨x, hx⟩
    by_cases hr : ∃ base, Resolves ext d s.id base
    · obtain ⟨base, hr⟩ := hr
      have hg : ∀ n, Dep.ext n ∈ s.dependencies → ∃ f, ext.get? n = some f := by
        rcases missing_or ext s.dependencies with h | ⟨pre, n, post, h1, h2, h3⟩
        · exact h
        · rw [((C49_errors U ext d s he hd hs).2 ⟨_, hr⟩).1 pre n post h1 h2 h3] at hx; cases hx
      have h := (C131_index_error U ext d s base he hd hs hr hg).1
      refine ⟨base, hr, hg, fun k => ?_, fun k => ?_⟩
      · rw [h (.inl k)] at hx; cases hx
      · rw [h (.inr k)] at hx; cases hx
    · rw [(C49_errors U ext d s he hd hs).1 hr] at hx; cases hx
  · rintro ⟨base, hr, hg, h1, h2⟩
    exact (C131_index_error U ext d s base he hd hs hr hg).2 (by rintro (h | h); exacts [h1 h, h2 h])

/-- C131: a template can be filled exactly if each of its variables can be. -/
theorem C131_template (U : PyUni) (names : List Str) (ext : Externals) (d : Dictionary) (text : Str) (t : Template) (he : GoodExternals ext)
    (hd : GoodDictionary d) (ht : Template.empty.parse U text names = .ok t) :
    (∃ result, t.substitute U ext d = .ok result) ↔ ∀ s ∈ t.substitutions, Fillable U ext d s := by
  obtain ⟨l, ps, hp, -⟩ := C45_pieces_unique text
  obtain ⟨h1, h2⟩ := (C45_parse U names text l ps t hp).mp ht
  have hgood : ∀ s ∈ t.substitutions, GoodSubstitution s := by
    intro s hs
    obtain ⟨i, hi, rfl⟩ := List.mem_iff_getElem.mp hs
    have := List.forall₂_iff_get.mp h1
    exact (parse_good (this.2 i (by rw [this.1]; exact hi) hi)).1
  have e : t = ⟨t.substitutions, some (formatted l (ps.map Prod.snd))⟩ := by rw [← h2]
  have key : ∀ subs : List Substitution, (∀ s ∈ subs, GoodSubstitution s) →
      ((∃ xs, subs.mapM (fun s => s.getText U ext d) = .ok xs) ↔ ∀ s ∈ subs, Fillable U ext d s) := by
    intro subs
    induction subs with
    | nil => intro _; exact ⟨fun _ => by simp, fun _ => ⟨[], rfl⟩⟩
    | cons s subs ih =>
      intro hg
      rw [List.forall_mem_cons, ← ih fun x hx => hg x (List.mem_cons_of_mem _ hx), ← C131_fillable U ext d s he hd (hg s List.mem_cons_self)]
      simp only [List.mapM_cons, bind, Except.bind, pure, Except.pure]
      constructor
      · rintro ⟨xs, h⟩
        cases h3 : s.getText U ext d with
        | error e => rw [h3] at h; cases h
        | ok x =>
          rw [h3] at h
          cases h4 : subs.mapM (fun s => s.getText U ext d) with
          | error e => simp only [h4] at h; cases h
          | ok ys => exact ⟨⟨x, rfl⟩, ys, rfl⟩
      · rintro ⟨⟨x, h3⟩, ys, h4⟩
        exact ⟨x :: ys, by rw [h3]; simp only [h4]⟩
  rw [← key t.substitutions hgood]
  rw [e, substitute_parsed h1.length_eq]
  show _ ↔ ∃ xs, t.substitutions.mapM _ = _
  cases t.substitutions.mapM (fun s => s.getText U ext d) with
  | error e => simp
  | ok xs => simp

/-- The conditions are not empty: `[в|герой]` with an empty name fails for want of a letter, and is fillable with another one. -/
example : NoLetter exPy [(str! "герой", plain [])] (WordForm.new exPrep) [.ext (str! "герой")] ∧
    ¬ NoLetter exPy [(str! "герой", plain (str! "Анна"))] (WordForm.new exPrep) [.ext (str! "герой")] := by
  refine ⟨⟨rfl, _, _, List.mem_cons_self, rfl, .inr (.inl (by decide +kernel))⟩, ?_⟩
  rintro ⟨-, n, f, h1, h2, h3⟩
  simp only [List.mem_singleton, Dep.ext.injEq] at h1
  subst h1
  simp only [Dict.get?, if_true, Option.some.injEq] at h2
  subst h2
  revert h3
  decide +kernel

/-- `[Герой]` with an empty name fails for want of a letter. -/
example : NoCapital exPy [(str! "герой", plain [])] (plain []) [.props (.new [.record .WORD_CASE_UPPER])] :=
  ⟨[], _, rfl, rfl, by decide +kernel, by decide +kernel⟩

/-- `[в|герой]` is fillable with a name. -/
example : Fillable exPy [(str! "герой", plain (str! "Анна")), (str! "в", WordForm.new exPrep)] (history exPy []) ⟨str! "в", [.ext (str! "герой")]⟩ := by
  rw [← C131_fillable]
  · exact ⟨str! "в", by decide +kernel⟩
  · intro n f h
    simp only [Dict.get?] at h
    split at h
    · injection h with h; subst h; exact plain_good _
    · split at h
      · injection h with h; subst h; exact goodForm_new exPrep_accepted (by simp) (by simp)
      · cases h
  · exact goodDictionary_history exPy [] (by simp)
  · intro p hp; simp at hp

end Utg
