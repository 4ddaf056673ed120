import Verif.Props.Expressive
import Verif.Props.Exact
/-!
# C129: capital letters
-/

namespace Utg
open Py Spec

/-- C129: a variable written with a capital letter is read as the same variable written without it, with one more dependency at the end that
asks for a capital letter; or both are refused with the same error. -/
theorem C129_parse (U : PyUni) (names : List Str) (head head' : Str) (slugs : List Str) (c c' : Char) (cs cs' : Str)
    (hb : '|' ∉ head) (hb' : '|' ∉ head') (hs : ∀ s ∈ slugs, '|' ∉ s) (hh : Stripped U head (c :: cs)) (hh' : Stripped U head' (c' :: cs'))
    (hu : U.isUpper c = true) (hu' : U.isUpper c' = false) (hl : U.lower (c :: cs) = U.lower (c' :: cs')) :
    Substitution.parse U (bracketed head slugs) names =
      (Substitution.parse U (bracketed head' slugs) names).map fun s => ⟨s.id, s.dependencies ++ [.props (.new [.record .WORD_CASE_UPPER])]⟩ := by
  have key : ∀ (h : Str) (d : Char) (ds : Str), '|' ∉ h → Stripped U h (d :: ds) →
      Substitution.parse U (bracketed h slugs) names = (slugs.mapM (parseDependency U names)).bind fun deps =>
        .ok ⟨U.lower (d :: ds), if U.isUpper d then deps ++ [.props (.new [.record .WORD_CASE_UPPER])] else deps⟩ := by
    intro h d ds hd hst
    have hne : h ≠ [] := by
      rintro rfl
      obtain ⟨a, b, e, -⟩ := hst
      simp at e
    rw [parse_bracketed hd hs hne, strip_eq hst]
    rfl
  rw [key head c cs hb hh, key head' c' cs' hb' hh', hu, hu', hl]
  cases slugs.mapM (parseDependency U names) <;> rfl

theorem lastSay_snoc {ext : Externals} {g : Group} {deps : List Dep} {d : Dep} :
    lastSay ext g (deps ++ [d]) = (depSays ext d g).or (lastSay ext g deps) := by
  induction deps with
  | nil => simp only [List.nil_append, lastSay]; cases depSays ext d g <;> rfl
  | cons a deps ih =>
    simp only [List.cons_append, lastSay, ih]
    cases depSays ext d g <;> rfl

theorem says_upper {ext : Externals} {g : Group} :
    depSays ext (.props (.new [.record .WORD_CASE_UPPER])) g = if g = .WORD_CASE then some .WORD_CASE_UPPER else none := by
  cases g <;> rfl

theorem masters_snoc_props {ext : Externals} {deps : List Dep} {p : Properties} : masters ext (deps ++ [.props p]) = masters ext deps := by
  induction deps with
  | nil => rfl
  | cons a deps ih =>
    cases a with
    | props q => exact ih
    | ext n => simp only [List.cons_append, masters, ih]

/-- Asking for a capital letter, on readings. -/
theorem initial_capital {ext : Externals} {base : WordForm} {deps : List Dep} (h : base.word.properties.isSpecified .WORD_CASE = false) :
    initialReading ext base (deps ++ [.props (.new [.record .WORD_CASE_UPPER])]) =
      (initialReading ext base deps).upd [.WORD_CASE_UPPER] := by
  funext g
  by_cases hg : g = .WORD_CASE
  · subst hg
    simp [initialReading, h, lastSay_snoc, says_upper, Reading.upd, Rec.group]
  · rw [upd_other (by intro e; exact hg e.symm)]
    simp [initialReading, lastSay_snoc, says_upper, hg]

theorem initial_fixed {ext : Externals} {base : WordForm} {deps : List Dep} (h : base.word.properties.isSpecified .WORD_CASE = true) :
    initialReading ext base (deps ++ [.props (.new [.record .WORD_CASE_UPPER])]) = initialReading ext base deps := by
  funext g
  by_cases hg : g = .WORD_CASE
  · subst hg; simp [initialReading, h]
  · simp [initialReading, lastSay_snoc, says_upper, hg]

theorem demand_capital {U : PyUni} {w : Word} {ρ : Reading} {f : WordForm} :
    demand U w (ρ.upd [.WORD_CASE_UPPER]) f = demand U w ρ f := by
  have h : ∀ g, g ≠ .WORD_CASE → (ρ.upd [.WORD_CASE_UPPER]) g = ρ g := fun g hg => upd_other (by intro e; exact hg e.symm)
  unfold demand
  simp only [h .DEPENDENCY_MODE (by decide), h .INTEGER_FORM (by decide), h .CASE (by decide), h .ANIMALITY (by decide), h .GENDER (by decide)]

theorem nounAgreement_no_case (mode i case anim : Rec) :
    ∀ r ∈ nounAgreement mode i case anim, r.group ≠ .WORD_CASE := by
  unfold nounAgreement
  repeat' split
  all_goals simp [Rec.group]

theorem adjectiveAgreement_no_case (mode i case gender : Rec) : ∀ r ∈ adjectiveAgreement mode i case gender, r.group ≠ .WORD_CASE := by
  unfold adjectiveAgreement
  repeat' split
  all_goals simp [Rec.group]

theorem prepositionDemand_no_case (prep next : Str) (w : Word) : ∀ r ∈ prepositionDemand prep next w, r.group ≠ .WORD_CASE := by
  unfold prepositionDemand
  repeat' split
  all_goals simp [Rec.group]

theorem demand_no_case {U : PyUni} {w : Word} {ρ : Reading} {f : WordForm} {rs : List Rec} (h : demand U w ρ f = .ok rs) :
    ∀ r ∈ rs, r.group ≠ .WORD_CASE := by
  unfold demand at h
  split at h
  · split at h
    · cases h
    · cases hn : spoken U f.word f.formProperties.get with
      | error e => rw [hn] at h; cases h
      | ok next =>
        rw [hn] at h
        simp only [bind, Except.bind] at h
        split at h
        · cases h
        · injection h with h; subst h; exact prepositionDemand_no_case _ _ _
  · split at h
    · split at h
      · injection h with h; subst h; exact nounAgreement_no_case _ _ _ _
      · cases h
    · injection h with h; subst h; simp
  · split at h
    · split at h
      · injection h with h; subst h; exact nounAgreement_no_case _ _ _ _
      · cases h
    · injection h with h; subst h; simp
  · split at h
    · split at h
      · injection h with h; subst h; exact adjectiveAgreement_no_case _ _ _ _
      · cases h
    · injection h with h; subst h; simp
  · split at h
    · split at h
      · injection h with h; subst h; exact adjectiveAgreement_no_case _ _ _ _
      · cases h
    · injection h with h; subst h; simp
  · split at h
    · split at h
      · injection h with h; subst h; exact adjectiveAgreement_no_case _ _ _ _
      · cases h
    · injection h with h; subst h; simp
  · injection h with h; subst h; simp
  · injection h with h; subst h; simp

theorem upd_capital_comm {ρ : Reading} {rs : List Rec} (h : ∀ r ∈ rs, r.group ≠ .WORD_CASE) :
    (ρ.upd [.WORD_CASE_UPPER]).upd rs = (ρ.upd rs).upd [.WORD_CASE_UPPER] := by
  funext g
  by_cases hg : g = .WORD_CASE
  · subst hg
    rw [upd_apply, upd_apply, upd_apply]
    have : rs.find? (fun r => decide (r.group = .WORD_CASE)) = none := by
      rw [List.find?_eq_none]; intro r hr; simpa using h r hr
    rw [this]; rfl
  · have hn : ([Rec.WORD_CASE_UPPER].find? fun r => decide (r.group = g)) = none := by
      simp [Rec.group, Ne.symm hg]
    simp only [upd_apply]
    rw [hn]
    simp

theorem agreeAll_capital {U : PyUni} {w : Word} (fs : List WordForm) (ρ : Reading) :
    agreeAll U w (ρ.upd [.WORD_CASE_UPPER]) fs = (agreeAll U w ρ fs).map fun σ => σ.upd [.WORD_CASE_UPPER] := by
  induction fs generalizing ρ with
  | nil => rfl
  | cons f fs ih =>
    simp only [agreeAll, demand_capital]
    cases hd : demand U w ρ f with
    | error e => rfl
    | ok rs =>
      show agreeAll U w ((ρ.upd [.WORD_CASE_UPPER]).upd rs) fs = (agreeAll U w (ρ.upd rs) fs).map _
      rw [upd_capital_comm (demand_no_case hd), ih]

theorem standIn_capital (t : WordType) (ρ : Reading) : standIn t (ρ.upd [.WORD_CASE_UPPER]) = (standIn t ρ).upd [.WORD_CASE_UPPER] := by
  have h : ∀ g, g ≠ .WORD_CASE → (ρ.upd [.WORD_CASE_UPPER]) g = ρ g := fun g hg => upd_other (by intro e; exact hg e.symm)
  unfold standIn
  simp only [h .NOUN_FORM (by decide), h .NUMBER (by decide), h .VERB_FORM (by decide), h .PERSON (by decide)]
  split
  · exact upd_capital_comm (by simp [Rec.group])
  · split
    · exact upd_capital_comm (by simp [Rec.group])
    · rfl

theorem formIn_capital (w : Word) (ρ : Reading) : formIn w (ρ.upd [.WORD_CASE_UPPER]) = formIn w ρ := by
  unfold formIn slotOf
  congr 1
  have key : ∀ l : List (List Rec), (∀ m ∈ l, ∀ r ∈ m, r.group ≠ .WORD_CASE) →
      l.findIdx (fun m => decide (Fits (standIn w.type (ρ.upd [.WORD_CASE_UPPER])) m)) = l.findIdx (fun m => decide (Fits (standIn w.type ρ) m)) := by
    intro l hl
    induction l with
    | nil => rfl
    | cons m l ih =>
      have hm : Fits (standIn w.type (ρ.upd [.WORD_CASE_UPPER])) m ↔ Fits (standIn w.type ρ) m := by
        unfold Fits
        rw [standIn_capital]
        refine forall₂_congr fun r hr => ?_
        rw [upd_other (by intro e; exact hl m (by simp) r hr e.symm)]
      rw [List.findIdx_cons, List.findIdx_cons, ih fun m hm => hl m (List.mem_cons_of_mem _ hm)]
      simp only [hm]
  exact key _ (layoutNow_no_case w.type)

/-- C129: what the additional dependency does: the same form is printed, with a capital letter. If the word fixes that there is none, or
one, nothing changes. Errors are the same. -/
theorem C129_capital (U : PyUni) (ext : Externals) (d : Dictionary) (s : Substitution) (he : GoodExternals ext) (hd : GoodDictionary d)
    (hs : GoodSubstitution s) :
    (∀ base, Resolves ext d s.id base → base.word.properties.isSpecified .WORD_CASE = true →
      Substitution.getText U ⟨s.id, s.dependencies ++ [.props (.new [.record .WORD_CASE_UPPER])]⟩ ext d = s.getText U ext d) ∧
    (∀ base, Resolves ext d s.id base → base.word.properties.isSpecified .WORD_CASE = false →
      (∃ e, s.getText U ext d = .error e ∧
        Substitution.getText U ⟨s.id, s.dependencies ++ [.props (.new [.record .WORD_CASE_UPPER])]⟩ ext d = .error e) ∨
      ∃ (form : Str) (upper : Bool), form ∈ base.word.forms ∧ s.getText U ext d = inCase U upper form ∧
        Substitution.getText U ⟨s.id, s.dependencies ++ [.props (.new [.record .WORD_CASE_UPPER])]⟩ ext d = inCase U true form) ∧
    ((¬ ∃ base, Resolves ext d s.id base) →
      Substitution.getText U ⟨s.id, s.dependencies ++ [.props (.new [.record .WORD_CASE_UPPER])]⟩ ext d = s.getText U ext d) := by
  have hs' : GoodSubstitution ⟨s.id, s.dependencies ++ [.props (.new [.record .WORD_CASE_UPPER])]⟩ := by
    intro p hp
    rcases List.mem_append.mp hp with h | h
    · exact hs p h
    · simp only [List.mem_singleton, Dep.props.injEq] at h
      subst h; exact wf_new (by intro p hp; simp at hp)
  refine ⟨?_, ?_, ?_⟩
  · intro base hr hf
    rw [getText_reading he hd hs' hr, getText_reading he hd hs hr, masters_snoc_props, initial_fixed hf]
  · intro base hr hf
    have hb := resolves_good he hd hr
    rw [getText_reading he hd hs' hr, getText_reading he hd hs hr, masters_snoc_props, initial_capital hf]
    cases hm : masters ext s.dependencies with
    | error e => exact .inl ⟨e, rfl, rfl⟩
    | ok fs =>
      simp only [Except.bind, agreeAll_capital]
      have hpr : ∀ (fs : List WordForm) (ρ σ : Reading), Proper ρ → agreeAll U base.word ρ fs = .ok σ → Proper σ := by
        intro fs
        induction fs with
        | nil => intro ρ σ h e; injection e with e; subst e; exact h
        | cons f fs ih =>
          intro ρ σ h e
          simp only [agreeAll] at e
          cases hx : demand U base.word ρ f with
          | error e' => rw [hx] at e; cases e
          | ok rs => rw [hx] at e; exact ih _ _ (proper_upds h rs) e
      cases ha : agreeAll U base.word (initialReading ext base s.dependencies) fs with
      | error e => exact .inl ⟨e, rfl, rfl⟩
      | ok σ =>
        have hσ := hpr fs _ σ (initial_proper he hb hs) ha
        obtain ⟨m, k1, -, -⟩ := C86_slot base.word.type _ hσ
        have hlen : (layoutNow base.word.type).length = base.word.forms.length := by
          rw [(accepted_iff.mp hb.1).2, layoutNow_eq, List.length_map]
        have hlt : slotOf base.word.type σ < base.word.forms.length := by
          rw [← hlen]; exact (List.getElem?_eq_some_iff.mp k1).1
        refine .inr ⟨formIn base.word σ, decide (σ .WORD_CASE = some .WORD_CASE_UPPER), ?_, ?_, ?_⟩
        · unfold formIn; simp [List.getD, hlt]
        · show spoken U base.word σ = _
          unfold spoken
          by_cases hu : σ .WORD_CASE = some .WORD_CASE_UPPER
          · simp only [hu, if_true, decide_true]
            cases formIn base.word σ <;> rfl
          · simp only [hu, if_false, decide_false]
            cases formIn base.word σ <;> rfl
        · show spoken U base.word (σ.upd [.WORD_CASE_UPPER]) = _
          have hu : (σ.upd [.WORD_CASE_UPPER]) .WORD_CASE = some .WORD_CASE_UPPER := rfl
          unfold spoken
          rw [hu, formIn_capital]
          simp only [if_true]
          cases formIn base.word σ <;> rfl
  · intro h
    rw [(C49_errors U ext d s he hd hs).1 (by simpa using h), (C49_errors U ext d _ he hd hs').1 (by simpa using h)]

/-- C129 applies: `[Герой|тв]` and `[герой|тв]`, filled with a word that does not fix its letter case. -/
example : '|' ∉ str! "Герой" ∧ '|' ∉ str! "герой" ∧ (∀ s ∈ [str! "тв"], '|' ∉ s) ∧ Stripped exPy (str! "Герой") ('Г' :: str! "ерой") ∧
    Stripped exPy (str! "герой") ('г' :: str! "ерой") ∧ exPy.isUpper 'Г' = true ∧ exPy.isUpper 'г' = false ∧
    exPy.lower ('Г' :: str! "ерой") = exPy.lower ('г' :: str! "ерой") ∧
    GoodExternals [(str! "герой", WordForm.new exNoun)] ∧ GoodDictionary (history exPy []) ∧
    GoodSubstitution ⟨str! "герой", [.props (.new [.record .CASE_INSTRUMENTAL])]⟩ ∧
    Resolves [(str! "герой", WordForm.new exNoun)] (history exPy []) (str! "герой") (WordForm.new exNoun) ∧
    (WordForm.new exNoun).word.properties.isSpecified .WORD_CASE = false ∧
    Substitution.getText exPy ⟨str! "герой", [.props (.new [.record .CASE_INSTRUMENTAL])]⟩ [(str! "герой", WordForm.new exNoun)] (history exPy []) =
      inCase exPy false (str! "e") ∧
    Substitution.getText exPy ⟨str! "герой", [.props (.new [.record .CASE_INSTRUMENTAL]), .props (.new [.record .WORD_CASE_UPPER])]⟩
      [(str! "герой", WordForm.new exNoun)] (history exPy []) = inCase exPy true (str! "e") := by
  refine ⟨by decide, by decide, by decide, ⟨[], [], rfl, by simp, by simp, by decide, by decide⟩,
    ⟨[], [], rfl, by simp, by simp, by decide, by decide⟩, by decide +kernel, by decide +kernel, by decide +kernel, ?_,
    goodDictionary_history exPy [] (by simp), ?_, Or.inl rfl, by decide +kernel, by decide +kernel, by decide +kernel⟩
  · intro n f h
    simp only [Dict.get?] at h
    split at h
    · injection h with h; subst h; exact goodForm_new exNoun_accepted (by simp) (by simp)
    · cases h
  · intro p hp
    simp only [List.mem_singleton, Dep.props.injEq] at hp
    subst hp; exact wf_new (by intro p hp; simp at hp)

end Utg
