import Verif.Spec.Rendering
import Verif.Props.Agreement
/-!
# C100: substitution with shared objects
-/

namespace Utg
open Py Spec

/-- The value of a lazy attribute. -/
def attrValue (U : PyUni) (σ : Store) : Attr → Except PyErr AttrValue
  | .form f => match σ.form f with
    | none => .error .AttributeError
    | some v => do return .text (← v.form U)
  | .cluster f => match σ.form f with
    | none => .error .AttributeError
    | some v => do return .flag (← v.startsWithConsonantCluster U)
  | .syllables w => match σ.words[w]? with
    | none => .error .AttributeError
    | some v => do return .count (← v.numberOfSyllables)
  | .fluent w => match σ.words[w]? with
    | none => .error .AttributeError
    | some v => do return .flag (← v.hasFluentVowel)

/-- `p` gives `r` in at most `n` steps, if attributes have their values, those of `H` are stored, and stored ones stay; if `lz` is
false, then without reading any lazy attribute. -/
inductive Sound {α : Type} (U : PyUni) (σ : Store) (lz : Bool) : Nat → (Attr → Prop) → Prog α → Except PyErr α → Prop where
  | ret {n H r} : Sound U σ lz n H (.ret r) r
  | has {n H a k r} : lz = true → (∀ v, attrValue U σ a = .ok v → Sound U σ lz n (fun b => H b ∨ b = a) (k true) r) → Sound U σ lz n H (k false) r → Sound U σ lz (n + 1) H (.has a k) r
  | get {n H a k r v} : lz = true → H a → attrValue U σ a = .ok v → Sound U σ lz n H (k v) r → Sound U σ lz (n + 1) H (.get a k) r
  | set {n H a k r v} : lz = true → attrValue U σ a = .ok v → Sound U σ lz n (fun b => H b ∨ b = a) k r → Sound U σ lz (n + 1) H (.set a v k) r
  | look {n H k r} : Sound U σ lz n H (k σ) r → Sound U σ lz (n + 1) H (.look k) r

theorem formValue_eq (σ : Store) (f : Nat) : formValue σ f = σ.form f := by
  unfold formValue Store.form
  cases σ.forms[f]? with
  | none => rfl
  | some r => cases h : σ.words[r.word]? <;> simp [h]


theorem Sound.mono {α : Type} {U : PyUni} {σ : Store} {lz : Bool} {n : Nat} {H : Attr → Prop} {p : Prog α} {r : Except PyErr α} (h : Sound U σ lz n H p r) :
    ∀ {n' : Nat} {H' : Attr → Prop}, n ≤ n' → (∀ a, H a → H' a) → Sound U σ lz n' H' p r := by
  induction h with
  | ret => intros; exact .ret
  | has h0 _ _ ih1 ih2 =>
    intro n' H' hn hH
    obtain ⟨m, rfl⟩ : ∃ m, n' = m + 1 := ⟨n' - 1, by omega⟩
    exact .has h0 (fun v hv => ih1 v hv (by omega) (fun a h => h.imp (hH a) id)) (ih2 (by omega) hH)
  | get h0 h1 h2 _ ih =>
    intro n' H' hn hH
    obtain ⟨m, rfl⟩ : ∃ m, n' = m + 1 := ⟨n' - 1, by omega⟩
    exact .get h0 (hH _ h1) h2 (ih (by omega) hH)
  | set h0 h1 _ ih =>
    intro n' H' hn hH
    obtain ⟨m, rfl⟩ : ∃ m, n' = m + 1 := ⟨n' - 1, by omega⟩
    exact .set h0 h1 (ih (by omega) (fun a h => h.imp (hH a) id))
  | look _ ih =>
    intro n' H' hn hH
    obtain ⟨m, rfl⟩ : ∃ m, n' = m + 1 := ⟨n' - 1, by omega⟩
    exact .look (ih (by omega) hH)

theorem Sound.bind {α β : Type} {U : PyUni} {σ : Store} {lz : Bool} {n m : Nat} {H : Attr → Prop} {p : Prog α} {r : Except PyErr α} (h : Sound U σ lz n H p r)
    {g : α → Prog β} {s : Except PyErr β} (hok : ∀ a, r = .ok a → ∀ H, Sound U σ lz m H (g a) s) (herr : ∀ e, r = .error e → s = .error e) :
    Sound U σ lz (n + m) H (p.bind g) s := by
  induction h with
  | @ret n H r =>
    cases r with
    | ok a => exact (hok a rfl H).mono (by omega) (fun _ h => h)
    | error e => rw [herr e rfl]; exact .ret
  | @has n _ _ _ _ h0 _ _ ih1 ih2 => rw [show n + 1 + m = n + m + 1 by omega]; exact .has h0 (fun v hv => ih1 v hv hok herr) (ih2 hok herr)
  | @get n _ _ _ _ _ h0 h1 h2 _ ih => rw [show n + 1 + m = n + m + 1 by omega]; exact .get h0 h1 h2 (ih hok herr)
  | @set n _ _ _ _ _ h0 h1 _ ih => rw [show n + 1 + m = n + m + 1 by omega]; exact .set h0 h1 (ih hok herr)
  | @look n _ _ _ _ ih => rw [show n + 1 + m = n + m + 1 by omega]; exact .look (ih hok herr)

/-- `p` gives `r` in a bounded number of steps, whatever is stored. -/
def Computes {α : Type} (U : PyUni) (σ : Store) (lz : Bool) (p : Prog α) (r : Except PyErr α) : Prop := ∃ n, ∀ H, Sound U σ lz n H p r

section
variable {α β : Type} {U : PyUni} {σ : Store} {lz : Bool}

theorem Computes.ret {r : Except PyErr α} : Computes U σ lz (lift r) r := ⟨0, fun _ => .ret⟩

theorem Computes.pure {a : α} : Computes U σ lz (Pure.pure a) (Pure.pure a) := ⟨0, fun _ => .ret⟩

theorem Computes.bind {p : Prog α} {r : Except PyErr α} (h : Computes U σ lz p r) {g : α → Prog β} {k : α → Except PyErr β}
    (hg : ∀ a, r = .ok a → Computes U σ lz (g a) (k a)) : Computes U σ lz (p >>= g) (r >>= k) := by
  obtain ⟨n, hn⟩ := h
  cases hr : r with
  | error e =>
    refine ⟨n + 0, fun H => ?_⟩
    exact (hn H).bind (m := 0) (fun a ha => by rw [hr] at ha; cases ha) (fun e' he => by rw [hr] at he; cases he; rfl)
  | ok a =>
    obtain ⟨m, hm⟩ := hg a hr
    refine ⟨n + m, fun H => ?_⟩
    exact (hn H).bind (fun a' ha H => by rw [hr] at ha; cases ha; exact hm H) (fun e he => by rw [hr] at he; cases he)

theorem Computes.look {k : Store → Prog α} {r : Except PyErr α} (h : Computes U σ lz (k σ) r) : Computes U σ lz (.look k) r := by
  obtain ⟨n, hn⟩ := h
  exact ⟨n + 1, fun H => .look (hn H)⟩

theorem Computes.lazyRead {a : Attr} {func : Prog AttrValue} (h : Computes U σ true func (attrValue U σ a)) :
    Computes U σ true (lazyRead a func) (attrValue U σ a) := by
  obtain ⟨n, hn⟩ := h
  have hget : ∀ (H : Attr → Prop) (v : AttrValue), H a → attrValue U σ a = .ok v →
      Sound U σ true 1 H (.get a fun v => Pure.pure v) (attrValue U σ a) := by
    intro H v hH hv
    refine .get rfl hH hv ?_
    rw [hv]; exact .ret
  refine ⟨n + 2 + 1, fun H => .has rfl (fun v hv => ?_) ?_⟩
  · rw [if_pos rfl]
    exact (hget _ v (.inr rfl) hv).mono (by omega) (fun _ h => h)
  · rw [if_neg (by simp)]
    refine (hn H).bind (m := 2) (fun v hv H => ?_) (fun e he => he)
    exact .set rfl hv (hget _ v (.inr rfl) hv)

theorem computes_lookForm {f : Nat} {v : WordForm} {r : FormRef} (hr : σ.forms[f]? = some r) (hv : σ.form f = some v) :
    Computes U σ lz (lookForm f) (.ok (v, r.word)) := by
  refine .look ?_
  simp only [hr, hv]
  exact .pure

theorem form_ref {f : Nat} {v : WordForm} (hv : σ.form f = some v) :
    ∃ r, σ.forms[f]? = some r ∧ σ.words[r.word]? = some v.word := by
  unfold Store.form at hv
  split at hv
  · cases hv
  · rename_i r hr
    obtain ⟨w, hw, rfl⟩ := Option.map_eq_some_iff.mp hv
    exact ⟨r, hr, hw⟩

theorem ok_bind {a : α} {k : α → Except PyErr β} : (Except.ok a >>= k) = k a := rfl

/-- A look at a word form that exists can be left out of the value. -/
theorem Computes.lookForm_bind {f : Nat} {v : WordForm} {r : FormRef} (hr : σ.forms[f]? = some r) (hv : σ.form f = some v)
    {g : WordForm × Nat → Prog β} {k : Except PyErr β} (h : Computes U σ lz (g (v, r.word)) k) : Computes U σ lz (lookForm f >>= g) k := by
  have := (computes_lookForm (U := U) hr hv).bind (g := g) (k := fun _ => k) (fun a ha => by cases ha; exact h)
  exact this

theorem computes_readForm {f : Nat} {v : WordForm} (hv : σ.form f = some v) : Computes U σ true (readForm U f) (v.form U) := by
  obtain ⟨r, hr, -⟩ := form_ref hv
  have h1 : Computes U σ true (lazyRead (.form f) do
      let (v, _) ← lookForm f
      return .text (← lift (v.form U))) (attrValue U σ (.form f)) := by
    apply Computes.lazyRead
    simp only [attrValue, hv]
    exact .lookForm_bind hr hv (Computes.ret.bind fun _ _ => .pure)
  have h2 : v.form U = (attrValue U σ (.form f) >>= fun x => match x with | .text s => .ok s | _ => .error .TypeError) := by
    simp only [attrValue, hv]
    cases v.form U <;> rfl
  rw [h2]
  refine h1.bind fun a ha => ?_
  cases a <;> exact .ret

theorem computes_readCluster {f : Nat} {v : WordForm} (hv : σ.form f = some v) :
    Computes U σ true (readCluster U f) (v.startsWithConsonantCluster U) := by
  have h1 : Computes U σ true (lazyRead (.cluster f) do
      return .flag (← lift (consonantCluster (← readForm U f)))) (attrValue U σ (.cluster f)) := by
    apply Computes.lazyRead
    simp only [attrValue, hv, WordForm.startsWithConsonantCluster, bind_assoc]
    exact (computes_readForm hv).bind fun a ha => Computes.ret.bind fun _ _ => .pure
  have h2 : v.startsWithConsonantCluster U =
      (attrValue U σ (.cluster f) >>= fun x => match x with | .flag s => .ok s | _ => .error .TypeError) := by
    simp only [attrValue, hv]
    cases v.startsWithConsonantCluster U <;> rfl
  rw [h2]
  refine h1.bind fun a ha => ?_
  cases a <;> exact .ret

theorem computes_lookWord {w : Nat} {v : Word} (hv : σ.words[w]? = some v) : Computes U σ lz (lookWord w) (.ok v) := by
  refine .look ?_
  simp only [hv]
  exact .pure

theorem Computes.lookWord_bind {w : Nat} {v : Word} (hv : σ.words[w]? = some v) {g : Word → Prog β} {k : Except PyErr β}
    (h : Computes U σ lz (g v) k) : Computes U σ lz (lookWord w >>= g) k := by
  have := (computes_lookWord (U := U) hv).bind (g := g) (k := fun _ => k) (fun a ha => by cases ha; exact h)
  exact this

theorem computes_readSyllables {w : Nat} {v : Word} (hv : σ.words[w]? = some v) : Computes U σ true (readSyllables w) v.numberOfSyllables := by
  have h1 : Computes U σ true (lazyRead (.syllables w) do
      return .count (← lift (← lookWord w).numberOfSyllables)) (attrValue U σ (.syllables w)) := by
    apply Computes.lazyRead
    simp only [attrValue, hv]
    exact .lookWord_bind hv (Computes.ret.bind fun _ _ => .pure)
  have h2 : v.numberOfSyllables = (attrValue U σ (.syllables w) >>= fun x => match x with | .count s => .ok s | _ => .error .TypeError) := by
    simp only [attrValue, hv]
    cases v.numberOfSyllables <;> rfl
  rw [h2]
  refine h1.bind fun a ha => ?_
  cases a <;> exact .ret

theorem computes_readFluent {w : Nat} {v : Word} (hv : σ.words[w]? = some v) : Computes U σ true (readFluent w) v.hasFluentVowel := by
  have h1 : Computes U σ true (lazyRead (.fluent w) do
      return .flag (← lift (← lookWord w).hasFluentVowel)) (attrValue U σ (.fluent w)) := by
    apply Computes.lazyRead
    simp only [attrValue, hv]
    exact .lookWord_bind hv (Computes.ret.bind fun _ _ => .pure)
  have h2 : v.hasFluentVowel = (attrValue U σ (.fluent w) >>= fun x => match x with | .flag s => .ok s | _ => .error .TypeError) := by
    simp only [attrValue, hv]
    cases v.hasFluentVowel <;> rfl
  rw [h2]
  refine h1.bind fun a ha => ?_
  cases a <;> exact .ret

theorem Computes.ite {c : Prop} [Decidable c] {p q : Prog α} {r s : Except PyErr α} (h1 : c → Computes U σ lz p r) (h2 : ¬ c → Computes U σ lz q s) :
    Computes U σ lz (if c then p else q) (if c then r else s) := by
  by_cases h : c
  · rw [if_pos h, if_pos h]; exact h1 h
  · rw [if_neg h, if_neg h]; exact h2 h

/-- `consonantPrepositionAny` with its two conditions as separate computations. -/
theorem consonantPrepositionAny_eq (U : PyUni) (slave : Str) (p : Properties) (v : WordForm) :
    consonantPrepositionAny U slave p v = (do
      let master ← v.form U
      let first ← (do
        if ← v.startsWithConsonantCluster U then
          if (← v.word.numberOfSyllables) = 1 then v.word.hasFluentVowel
          else pure false
        else pure false : Except PyErr Bool)
      if first then return p.clone [.record .PREPOSITION_FORM_ALTERNATIVE]
      let second ← (do
        if slave = str! "в" ∨ slave = str! "с" then
          if slave = [← Py.first master] then v.startsWithConsonantCluster U
          else pure false
        else pure false : Except PyErr Bool)
      if second then return p.clone [.record .PREPOSITION_FORM_ALTERNATIVE]
      return p) := by
  unfold consonantPrepositionAny
  simp only [bind, Except.bind, pure, Except.pure]
  cases v.form U with
  | error e => rfl
  | ok master =>
    cases v.startsWithConsonantCluster U with
    | error e => rfl
    | ok b =>
      cases b <;> cases v.word.numberOfSyllables <;> cases v.word.hasFluentVowel <;> cases Py.first master <;> 
        simp only [Bool.false_eq_true, if_false, if_true] <;> (repeat' split) <;> simp_all

theorem computes_consonant {f : Nat} {v : WordForm} (hv : σ.form f = some v) (slave : Str) (p : Properties) :
    Computes U σ true (consonantPrepositionProg U slave p f) (consonantPrepositionAny U slave p v) := by
  obtain ⟨r, hr, hw⟩ := form_ref hv
  rw [consonantPrepositionAny_eq]
  unfold consonantPrepositionProg
  refine (computes_readForm hv).bind fun master _ => ?_
  refine Computes.bind ?_ fun first _ => ?_
  · refine (computes_readCluster hv).bind fun b _ => ?_
    refine Computes.ite (fun _ => ?_) (fun _ => .pure)
    refine .lookForm_bind hr hv ?_
    refine (computes_readSyllables hw).bind fun n _ => ?_
    refine Computes.ite (fun _ => ?_) (fun _ => .pure)
    exact .lookForm_bind hr hv (computes_readFluent hw)
  · refine Computes.ite (fun _ => .pure) (fun _ => ?_)
    refine Computes.bind ?_ fun second _ => Computes.ite (fun _ => .pure) (fun _ => .pure)
    refine Computes.ite (fun _ => ?_) (fun _ => .pure)
    refine Computes.ret.bind fun c _ => ?_
    exact Computes.ite (fun _ => computes_readCluster hv) (fun _ => .pure)

theorem computes_vowels {f : Nat} {v : WordForm} (hv : σ.form f = some v) (slave : Str) (p : Properties) :
    Computes U σ true (vowelsPrepositionProg U slave p f) (vowelsPrepositionAny U slave p v) := by
  unfold vowelsPrepositionProg vowelsPrepositionAny
  refine (computes_readForm hv).bind fun master _ => ?_
  refine Computes.ite (fun _ => .pure) (fun _ => ?_)
  refine Computes.ret.bind fun c _ => ?_
  exact Computes.ite (fun _ => .pure) (fun _ => .pure)

theorem computes_transform {f : Nat} {v : WordForm} (hv : σ.form f = some v) (w : Word) (p : Properties) (hz : lz = true ∨ w.type ≠ .PREPOSITION) :
    Computes U σ lz (transformProg U w p f) (transform U w p v) := by
  obtain ⟨r, hr, -⟩ := form_ref hv
  unfold transformProg
  refine .lookForm_bind hr hv ?_
  by_cases ht : w.type = .PREPOSITION
  · obtain rfl := hz.resolve_right fun h => h ht
    have : transform U w p v = prepositionAny U w p v := by unfold transform; rw [ht]
    simp only [if_pos ht, this]
    unfold prepositionAny
    refine Computes.ret.bind fun slave _ => Computes.ret.bind fun c _ => ?_
    exact Computes.ite (fun _ => computes_consonant hv _ _) (fun _ => computes_vowels hv _ _)
  · simp only [if_neg ht]
    exact .ret

theorem valuesOf_get? {refs : Dict Str Nat} (h : Valid σ refs) (n : Str) :
    Dict.get? (valuesOf σ refs) n = (Dict.get? refs n).bind σ.form := by
  induction refs with
  | nil => rfl
  | cons e refs ih =>
    obtain ⟨m, f⟩ := e
    have hf := h (m, f) (by simp)
    obtain ⟨v, hv⟩ := Option.ne_none_iff_exists'.mp hf
    have hv' := formValue_eq σ f ▸ hv
    have ih' := ih fun e he => h e (by simp [he])
    simp only [valuesOf, List.filterMap_cons, hv, Option.map_some] at ih' ⊢
    simp only [Dict.get?] at ih' ⊢
    by_cases hm : m = n
    · simp [hm, hv']
    · simp only [hm]; exact ih'

theorem computes_transformAll (w : Word) (fs : List Nat) (vs : List WordForm) (h : List.Forall₂ (fun f v => σ.form f = some v) fs vs)
    (hz : lz = true ∨ w.type ≠ .PREPOSITION) (p : Properties) : Computes U σ lz (transformAll U w p fs) (vs.foldlM (fun ps v => transform U w ps v) p) := by
  induction h generalizing p with
  | nil => exact .pure
  | cons h _ ih =>
    simp only [List.foldlM_cons, transformAll]
    exact (computes_transform h w p hz).bind fun p' _ => ih p'

/-- The listed properties and word forms, as references. -/
theorem computes_listRefs {externals : Dict Str Nat} (h : Valid σ externals) (deps : List Dep) :
    ∃ r : Except PyErr (List Properties × List Nat), Computes U σ lz (listRefs externals deps) r ∧
      match r, listProperties (valuesOf σ externals) deps with
      | .ok (ps, fs), .ok (ps', vs) => ps = ps' ∧ List.Forall₂ (fun f v => σ.form f = some v) fs vs
      | .error e, .error e' => e = e'
      | _, _ => False := by
  induction deps with
  | nil => exact ⟨.ok ([], []), .pure, rfl, .nil⟩
  | cons d deps ih =>
    obtain ⟨r, hr, hm⟩ := ih
    cases d with
    | props p =>
      refine ⟨r >>= fun x => .ok (p :: x.1, x.2), hr.bind fun a _ => .ret, ?_⟩
      simp only [listProperties]
      cases r with
      | error e =>
        cases hl : listProperties (valuesOf σ externals) deps with
        | error e' => rw [hl] at hm; exact hm
        | ok x => rw [hl] at hm; exact hm.elim
      | ok x =>
        cases hl : listProperties (valuesOf σ externals) deps with
        | error e' => rw [hl] at hm; exact hm.elim
        | ok y => rw [hl] at hm; obtain ⟨a, b⟩ := hm; exact ⟨by rw [a], b⟩
    | ext n =>
      simp only [listProperties, valuesOf_get? h]
      cases hn : Dict.get? externals n with
      | none =>
        refine ⟨.error (.ExternalDependecyNotFoundError n), ?_, by simp⟩
        simp only [listRefs, hn]; exact .ret
      | some f =>
        obtain ⟨v, hv⟩ := Option.ne_none_iff_exists'.mp (h (n, f) (Dict.mem_of_get? hn))
        rw [formValue_eq] at hv
        obtain ⟨rf, hrf, -⟩ := form_ref hv
        refine ⟨r >>= fun x => .ok (v.properties :: x.1, f :: x.2), ?_, ?_⟩
        · simp only [listRefs, hn]
          exact .lookForm_bind hrf hv (hr.bind fun a _ => .ret)
        · simp only [Option.bind_some, hv]
          cases r with
          | error e =>
            cases hl : listProperties (valuesOf σ externals) deps with
            | error e' => rw [hl] at hm; exact hm
            | ok x => rw [hl] at hm; exact hm.elim
          | ok x =>
            cases hl : listProperties (valuesOf σ externals) deps with
            | error e' => rw [hl] at hm; exact hm.elim
            | ok y => rw [hl] at hm; obtain ⟨a, b⟩ := hm; exact ⟨by rw [a], .cons hv b⟩

theorem computes_getText {externals dictionary : Dict Str Nat} (he : Valid σ externals) (hd : Valid σ dictionary) (s : Substitution)
    (hz : lz = true ∨ ∀ v, s.baseForm (valuesOf σ externals) (valuesOf σ dictionary) = .ok v → v.word.type ≠ .PREPOSITION) :
    Computes U σ lz (getTextProg U externals dictionary s) (s.getText U (valuesOf σ externals) (valuesOf σ dictionary)) := by
  have hrest : ∀ (f : Nat) (v : WordForm), σ.form f = some v → (lz = true ∨ v.word.type ≠ .PREPOSITION) →
      Computes U σ lz (do
        let (base, _) ← lookForm f
        let (ps, fs) ← listRefs externals s.dependencies
        let properties := base.properties.clone ((ps ++ [base.word.properties]).map .props)
        let formProperties ← transformAll U base.word properties fs
        lift (WordForm.getForm U base.word formProperties)) (do
        let (propertiesList, externalWords) ← listProperties (valuesOf σ externals) s.dependencies
        let properties := v.properties.clone ((propertiesList ++ [v.word.properties]).map .props)
        let formProperties ← externalWords.foldlM (fun ps external => transform U v.word ps external) properties
        WordForm.getForm U v.word formProperties) := by
    intro f v hv hz
    obtain ⟨rf, hrf, -⟩ := form_ref hv
    refine .lookForm_bind hrf hv ?_
    obtain ⟨r, hr, hm⟩ := computes_listRefs (U := U) (lz := lz) he s.dependencies
    cases r with
    | error e =>
      cases hl : listProperties (valuesOf σ externals) s.dependencies with
      | ok x => rw [hl] at hm; exact hm.elim
      | error e' =>
        rw [hl] at hm; cases hm
        exact hr.bind (k := fun _ => .error e) fun a ha => by cases ha
    | ok x =>
      obtain ⟨ps, fs⟩ := x
      cases hl : listProperties (valuesOf σ externals) s.dependencies with
      | error e' => rw [hl] at hm; exact hm.elim
      | ok y =>
        obtain ⟨ps', vs⟩ := y
        rw [hl] at hm
        obtain ⟨rfl, hfs⟩ := hm
        have := hr.bind (g := fun (x : List Properties × List Nat) => do
            let formProperties ← transformAll U v.word (v.properties.clone ((x.1 ++ [v.word.properties]).map .props)) x.2
            lift (WordForm.getForm U v.word formProperties))
          (k := fun _ => do
            let formProperties ← vs.foldlM (fun ps external => transform U v.word ps external) (v.properties.clone ((ps ++ [v.word.properties]).map .props))
            WordForm.getForm U v.word formProperties) (fun a ha => by
              cases ha
              exact (computes_transformAll v.word fs vs hfs hz _).bind fun _ _ => .ret)
        exact this
  unfold Substitution.baseForm at hz
  unfold getTextProg Substitution.getText Substitution.baseForm
  rw [valuesOf_get? he] at hz ⊢
  cases h1 : Dict.get? externals s.id with
  | some f =>
    obtain ⟨v, hv⟩ := Option.ne_none_iff_exists'.mp (he (s.id, f) (Dict.mem_of_get? h1))
    rw [formValue_eq] at hv
    simp only [h1, Option.bind_some, hv] at hz ⊢
    exact hrest f v hv (hz.imp id fun h => h v rfl)
  | none =>
    simp only [h1, Option.bind_none] at hz ⊢
    unfold Dictionary.getWord at hz ⊢
    rw [valuesOf_get? hd] at hz ⊢
    cases h2 : Dict.get? dictionary s.id with
    | none => exact .ret
    | some f =>
      obtain ⟨v, hv⟩ := Option.ne_none_iff_exists'.mp (hd (s.id, f) (Dict.mem_of_get? h2))
      rw [formValue_eq] at hv
      simp only [h2, Option.bind_some, hv] at hz ⊢
      exact hrest f v hv (hz.imp id fun h => h v rfl)

theorem computes_getTexts {externals dictionary : Dict Str Nat} (he : Valid σ externals) (hd : Valid σ dictionary) (ss : List Substitution)
    (hz : lz = true ∨ ∀ s ∈ ss, ∀ v, s.baseForm (valuesOf σ externals) (valuesOf σ dictionary) = .ok v → v.word.type ≠ .PREPOSITION) :
    Computes U σ lz (getTextsProg U externals dictionary ss) (ss.mapM fun s => s.getText U (valuesOf σ externals) (valuesOf σ dictionary)) := by
  induction ss with
  | nil => exact .pure
  | cons s ss ih =>
    rw [List.mapM_cons]
    exact (computes_getText he hd s (hz.imp id fun h => h s (by simp))).bind fun _ _ => (ih (hz.imp id fun h s' hs => h s' (by simp [hs]))).bind fun _ _ => .pure

theorem computes_substitute {externals dictionary : Dict Str Nat} (he : Valid σ externals) (hd : Valid σ dictionary) (t : Template)
    (hz : lz = true ∨ ∀ s ∈ t.substitutions, ∀ v, s.baseForm (valuesOf σ externals) (valuesOf σ dictionary) = .ok v → v.word.type ≠ .PREPOSITION) :
    Computes U σ lz (substituteProg U t externals dictionary) (t.substitute U (valuesOf σ externals) (valuesOf σ dictionary)) := by
  unfold substituteProg Template.substitute
  refine (computes_getTexts he hd _ hz).bind fun texts _ => ?_
  cases t.template <;> exact .ret

/-- Stored attributes have their values. -/
def RightHidden (U : PyUni) (σ : Store) (hidden : Attr → Option AttrValue) : Prop := ∀ a v, hidden a = some v → attrValue U σ a = .ok v

theorem Sound.step {n : Nat} {H : Attr → Prop} {p : Prog α} {r : Except PyErr α} (h : Sound U σ lz n H p r) {hidden : Attr → Option AttrValue}
    (hr : RightHidden U σ hidden) (hH : ∀ a, H a → hidden a ≠ none) :
    RightHidden U σ (p.step σ hidden).2 ∧ (∀ a, hidden a ≠ none → (p.step σ hidden).2 a ≠ none) ∧
      ∃ H', (∀ a, H' a → (p.step σ hidden).2 a ≠ none) ∧ Sound U σ lz (n - 1) H' (p.step σ hidden).1 r := by
  cases h with
  | ret => exact ⟨hr, fun _ h => h, H, hH, .ret⟩
  | @has n _ a k _ _ h1 h2 =>
    refine ⟨hr, fun _ h => h, ?_⟩
    simp only [Prog.step, Nat.add_sub_cancel]
    cases ha : hidden a with
    | none => exact ⟨H, hH, h2⟩
    | some v => exact ⟨fun b => H b ∨ b = a, fun b hb => hb.elim (hH b) (by rintro rfl; simp [ha]), h1 v (hr a v ha)⟩
  | @get n _ a k _ v _ h1 h2 h3 =>
    simp only [Prog.step, Nat.add_sub_cancel]
    cases ha : hidden a with
    | none => exact absurd ha (hH a h1)
    | some v' =>
      have : v' = v := by have := hr a v' ha; rw [h2] at this; cases this; rfl
      subst this
      exact ⟨hr, fun _ h => h, H, hH, h3⟩
  | @set n _ a k _ v _ h1 h2 =>
    simp only [Prog.step, Nat.add_sub_cancel]
    refine ⟨?_, ?_, fun b => H b ∨ b = a, ?_, h2⟩
    · intro b v' hb
      replace hb : (if b = a then some v else hidden b) = some v' := hb
      split at hb
      · rename_i e; subst e; cases hb; exact h1
      · exact hr b v' hb
    · intro b hb; split <;> simp [hb]
    · intro b hb
      split
      · simp
      · rename_i e; exact hH b (hb.resolve_right e)
  | look h1 => exact ⟨hr, fun _ h => h, H, hH, h1⟩

/-- Program `p` is on its way to `r`, at most `n` steps from it. -/
def OnWay (U : PyUni) (σ : Store) (lz : Bool) (hidden : Attr → Option AttrValue) (n : Nat) (p : Prog Str) (r : Except PyErr Str) : Prop :=
  ∃ H, (∀ a, H a → hidden a ≠ none) ∧ Sound U σ lz n H p r

theorem Computes.onWay {p : Prog Str} {r : Except PyErr Str} (h : Computes U σ lz p r) (hidden : Attr → Option AttrValue) :
    ∃ n, OnWay U σ lz hidden n p r := by
  obtain ⟨n, hn⟩ := h
  exact ⟨n, fun _ => False, fun _ h => h.elim, hn _⟩

theorem OnWay.mono {hidden hidden' : Attr → Option AttrValue} {n : Nat} {p : Prog Str} {r : Except PyErr Str} (h : OnWay U σ lz hidden n p r)
    (hm : ∀ a, hidden a ≠ none → hidden' a ≠ none) : OnWay U σ lz hidden' n p r := by
  obtain ⟨H, h1, h2⟩ := h
  exact ⟨H, fun a ha => hm a (h1 a ha), h2⟩

/-- What is true of every state, if no word changes. -/
structure Machine.Good (U : PyUni) (σ : Store) (m : Machine) (results : List (Except PyErr Str)) : Prop where
  store : m.store = σ
  hidden : RightHidden U σ m.hidden
  threads : List.Forall₂ (fun p r => ∃ n, OnWay U σ true m.hidden n p r) m.threads results

theorem computes_readForm_any (f : Nat) : Computes U σ true (readForm U f) (match σ.form f with
    | some v => v.form U
    | none => .error .AttributeError) := by
  cases hv : σ.form f with
  | some v => exact computes_readForm hv
  | none =>
    have h1 : Computes U σ true (lazyRead (.form f) do
        let (v, _) ← lookForm f
        return .text (← lift (v.form U))) (attrValue U σ (.form f)) := by
      apply Computes.lazyRead
      simp only [attrValue, hv]
      refine .look ?_
      simp only [hv]
      cases σ.forms[f]? <;> exact .ret
    have h2 : (.error .AttributeError : Except PyErr Str) =
        (attrValue U σ (.form f) >>= fun x => match x with | .text s => .ok s | _ => .error .TypeError) := by
      simp only [attrValue, hv]; rfl
    rw [h2]
    refine h1.bind fun a ha => ?_
    cases a <;> exact .ret

theorem Machine.step_good {m : Machine} {rs : List (Except PyErr Str)} (h : m.Good U σ rs) {e : RenderEvent} (he : Quiet σ e) :
    (m.step U e).Good U σ (rs ++ expected U σ [e]) ∧ (∀ a, m.hidden a ≠ none → (m.step U e).hidden a ≠ none) ∧
      ∀ (i n : Nat) (p : Prog Str) (r : Except PyErr Str), m.threads[i]? = some p → OnWay U σ true m.hidden n p r →
        ∃ p', (m.step U e).threads[i]? = some p' ∧ OnWay U σ true (m.step U e).hidden (n - turns i [e]) p' r := by
  obtain ⟨h1, h2, h3⟩ := h
  have hadd : ∀ (q : Prog Str) (s : Except PyErr Str), Computes U σ true q s →
      (⟨m.store, m.hidden, m.threads ++ [q]⟩ : Machine).Good U σ (rs ++ [s]) ∧
      ∀ (i n : Nat) (p : Prog Str) (r : Except PyErr Str), m.threads[i]? = some p → OnWay U σ true m.hidden n p r →
        ∃ p', (m.threads ++ [q])[i]? = some p' ∧ OnWay U σ true m.hidden (n - 0) p' r := by
    intro q s hq
    refine ⟨⟨h1, h2, ?_⟩, fun i n p r hi hw => ⟨p, ?_, hw⟩⟩
    · exact List.rel_append h3 (.cons (hq.onWay _) .nil)
    · rw [List.getElem?_append_left (List.getElem?_eq_some_iff.mp hi).1, hi]
  cases e with
  | substitute t externals dictionary =>
    obtain ⟨a, b⟩ := hadd _ _ (computes_substitute he.1 he.2 t (.inl rfl))
    exact ⟨a, fun _ h => h, b⟩
  | form f =>
    obtain ⟨a, b⟩ := hadd _ _ (computes_readForm_any f)
    exact ⟨by simp only [expected, formValue_eq]; exact a, fun _ h => h, b⟩
  | setForms w forms => exact he.elim
  | run i =>
    have hexp : rs ++ expected U σ [.run i] = rs := by simp [expected]
    rw [hexp]
    simp only [Machine.step]
    cases hi : m.threads[i]? with
    | none =>
      refine ⟨⟨h1, h2, h3⟩, fun _ h => h, fun j n p r hj hw => ?_⟩
      have hne : i ≠ j := by rintro rfl; rw [hi] at hj; cases hj
      exact ⟨p, hj, by simpa [turns, hne] using hw⟩
    | some q =>
      obtain ⟨hl, hq⟩ := List.getElem?_eq_some_iff.mp hi
      have hl' : i < rs.length := h3.length_eq ▸ hl
      obtain ⟨n0, H0, hH0, hs0⟩ := (List.forall₂_iff_get.mp h3).2 i hl hl'
      simp only [List.get_eq_getElem, hq] at hs0
      subst h1
      have hstep := hs0.step h2 hH0
      refine ⟨⟨rfl, hstep.1, ?_⟩, hstep.2.1, ?_⟩
      · rw [List.forall₂_iff_get]
        refine ⟨by simp [h3.length_eq], fun j hj hj' => ?_⟩
        simp only [List.get_eq_getElem, List.getElem_set]
        split
        · rename_i e; subst e
          obtain ⟨H', a, b⟩ := hstep.2.2
          exact ⟨_, H', a, b⟩
        · obtain ⟨n, hw⟩ := (List.forall₂_iff_get.mp h3).2 j (by simpa using hj) hj'
          exact ⟨n, hw.mono hstep.2.1⟩
      · intro j n p r hj hw
        by_cases hij : i = j
        · subst hij
          rw [hi] at hj; cases hj
          obtain ⟨H, hH, hs⟩ := hw
          obtain ⟨-, -, H', a, b⟩ := hs.step h2 hH
          refine ⟨_, List.getElem?_set_self hl, ?_⟩
          have ht : turns i [.run i] = 1 := by simp [turns]
          rw [ht]
          exact ⟨H', a, b⟩
        · refine ⟨p, by rw [List.getElem?_set_ne hij, hj], ?_⟩
          have ht : turns j [.run i] = 0 := by simp [turns, hij]
          rw [ht]
          exact hw.mono hstep.2.1

theorem expected_append (U : PyUni) (σ : Store) (es fs : List RenderEvent) : expected U σ (es ++ fs) = expected U σ es ++ expected U σ fs := by
  induction es with
  | nil => rfl
  | cons e es ih => cases e <;> simp [expected, ih]

theorem turns_cons (i : Nat) (e : RenderEvent) (es : List RenderEvent) : turns i (e :: es) = turns i [e] + turns i es := by
  cases e <;> simp [turns]

theorem Machine.foldl_good {m : Machine} {rs : List (Except PyErr Str)} (h : m.Good U σ rs) (es : List RenderEvent) (he : ∀ e ∈ es, Quiet σ e) :
    (es.foldl (Machine.step U) m).Good U σ (rs ++ expected U σ es) ∧
      ∀ (i n : Nat) (p : Prog Str) (r : Except PyErr Str), m.threads[i]? = some p → OnWay U σ true m.hidden n p r →
        ∃ p', (es.foldl (Machine.step U) m).threads[i]? = some p' ∧ OnWay U σ true (es.foldl (Machine.step U) m).hidden (n - turns i es) p' r := by
  induction es generalizing m rs with
  | nil => exact ⟨by simpa [expected] using h, fun i n p r hi hw => ⟨p, hi, hw⟩⟩
  | cons e es ih =>
    obtain ⟨a, -, b⟩ := Machine.step_good h (he e (by simp))
    obtain ⟨a', b'⟩ := ih a fun e' h' => he e' (by simp [h'])
    refine ⟨?_, fun i n p r hi hw => ?_⟩
    · rw [List.append_assoc, ← expected_append] at a'; exact a'
    · obtain ⟨p', hp', hw'⟩ := b i n p r hi hw
      obtain ⟨p'', hp'', hw''⟩ := b' i _ p' r hp' hw'
      refine ⟨p'', hp'', ?_⟩
      rw [turns_cons, Nat.sub_add_eq]
      exact hw''

theorem Machine.after_good (events : List RenderEvent) (he : ∀ e ∈ events, Quiet σ e) :
    (Machine.after U σ events).Good U σ (expected U σ events) := by
  have h0 : (⟨σ, fun _ => none, []⟩ : Machine).Good U σ [] := ⟨rfl, fun a v h => by simp at h, .nil⟩
  exact (Machine.foldl_good h0 events he).1

theorem resultOf_iff {m : Machine} {i : Nat} {r : Except PyErr Str} : resultOf m i = some r ↔ m.threads[i]? = some (.ret r) := by
  unfold resultOf
  split
  · rename_i r' h; rw [h]; simp
  · rename_i h
    refine ⟨fun h' => by simp at h', fun h' => absurd h' (h r)⟩

/-- C100: as long as no word changes, every finished call of `substitute`, and every read of `form`, has given what the model of values
gives, whatever other calls ran before or at the same time on the same objects. -/
theorem C100_right_text (U : PyUni) (σ : Store) (events : List RenderEvent) (he : ∀ e ∈ events, Quiet σ e) (i : Nat)
    (r : Except PyErr Str) (h : resultOf (Machine.after U σ events) i = some r) : (expected U σ events)[i]? = some r := by
  have hg := Machine.after_good (U := U) events he
  obtain ⟨hl, hq⟩ := List.getElem?_eq_some_iff.mp (resultOf_iff.mp h)
  have hl' : i < (expected U σ events).length := hg.threads.length_eq ▸ hl
  obtain ⟨n, H, -, hs⟩ := (List.forall₂_iff_get.mp hg.threads).2 i hl hl'
  simp only [List.get_eq_getElem, hq] at hs
  rw [List.getElem?_eq_getElem hl']
  cases hs; rfl

/-- C100: and every call finishes, after a number of own steps that depends only on the call. -/
theorem C100_finishes (U : PyUni) (σ : Store) (t : Template) (externals dictionary : Dict Str Nat) (hx : Valid σ externals) (hd : Valid σ dictionary) :
    ∃ n, ∀ before later, (∀ e ∈ before ++ later, Quiet σ e) → n ≤ turns (expected U σ before).length later →
      resultOf (Machine.after U σ (before ++ .substitute t externals dictionary :: later)) (expected U σ before).length =
        some (t.substitute U (valuesOf σ externals) (valuesOf σ dictionary)) := by
  obtain ⟨n, hn⟩ := computes_substitute (U := U) hx hd t (.inl rfl)
  refine ⟨n, fun before later hq ht => ?_⟩
  have hg := Machine.after_good (U := U) before fun e he => hq e (by simp [he])
  have hlen := hg.threads.length_eq
  rw [Machine.after, List.foldl_append, List.foldl_cons, ← Machine.after]
  have hstep := (Machine.step_good hg (e := .substitute t externals dictionary) ⟨hx, hd⟩).1
  obtain ⟨-, hb⟩ := Machine.foldl_good hstep later fun e he => hq e (by simp [he])
  obtain ⟨p', hp', H, hH, hs⟩ := hb (expected U σ before).length n (substituteProg U t externals dictionary) _
    (by simp [Machine.step, ← hlen]) ⟨fun _ => False, fun _ h => h.elim, hn _⟩
  rw [resultOf_iff, hp']
  have hz : n - turns (expected U σ before).length later = 0 := by omega
  rw [hz] at hs
  cases hs; rfl

/-! ## C101: words that change -/

theorem Machine.step_looks {m : Machine} {e : RenderEvent} (he : ∀ w forms, e ≠ .setForms w forms) {i n : Nat} {p : Prog Str} {r : Except PyErr Str}
    {H : Attr → Prop} (hi : m.threads[i]? = some p) (hs : Sound U m.store false n H p r) :
    (m.step U e).store = m.store ∧ ∃ p', (m.step U e).threads[i]? = some p' ∧ Sound U m.store false (n - turns i [e]) H p' r := by
  have hl := (List.getElem?_eq_some_iff.mp hi).1
  cases e with
  | substitute t externals dictionary => exact ⟨rfl, p, by simp only [Machine.step]; rw [List.getElem?_append_left hl, hi], hs⟩
  | form f => exact ⟨rfl, p, by simp only [Machine.step]; rw [List.getElem?_append_left hl, hi], hs⟩
  | setForms w forms => exact absurd rfl (he w forms)
  | run j =>
    simp only [Machine.step]
    by_cases hij : j = i
    · subst hij
      rw [hi]
      refine ⟨rfl, _, List.getElem?_set_self hl, ?_⟩
      have ht : turns j [.run j] = 1 := by simp [turns]
      rw [ht]
      cases hs with
      | ret => exact .ret
      | has h => cases h
      | get h => cases h
      | set h => cases h
      | look h => exact h
    · have ht : turns i [.run j] = 0 := by simp [turns, hij]
      rw [ht]
      cases hj : m.threads[j]? with
      | none => exact ⟨rfl, p, hi, hs⟩
      | some q => exact ⟨rfl, p, by simp only; rw [List.getElem?_set_ne hij, hi], hs⟩

/-- C101: a call of `substitute` for a template without prepositions gives the text for the words as they are, whatever was read, stored
and changed before, if no word changes until it is finished; and it finishes. -/
theorem C101_present_words (U : PyUni) (σ : Store) (before : List RenderEvent) (t : Template) (externals dictionary : Dict Str Nat)
    (hx : Valid (Machine.after U σ before).store externals) (hd : Valid (Machine.after U σ before).store dictionary)
    (hp : NoPrepositions (Machine.after U σ before).store t externals dictionary) :
    ∃ n, ∀ later, (∀ w forms, .setForms w forms ∉ later) → n ≤ turns (Machine.after U σ before).threads.length later →
      resultOf (Machine.after U σ (before ++ .substitute t externals dictionary :: later)) (Machine.after U σ before).threads.length =
        some (t.substitute U (valuesOf (Machine.after U σ before).store externals) (valuesOf (Machine.after U σ before).store dictionary)) := by
  obtain ⟨n, hn⟩ := computes_substitute (U := U) (lz := false) hx hd t (.inr hp)
  refine ⟨n, fun later hl ht => ?_⟩
  rw [Machine.after, List.foldl_append, List.foldl_cons, ← Machine.after]
  generalize hm : Machine.after U σ before = m at *
  have key : ∀ (es : List RenderEvent) (m' : Machine) (p : Prog Str) (k : Nat), (∀ w forms, .setForms w forms ∉ es) → m'.store = m.store →
      m'.threads[m.threads.length]? = some p →
      Sound U m.store false k (fun _ => False) p (t.substitute U (valuesOf m.store externals) (valuesOf m.store dictionary)) →
      ∃ p', (es.foldl (Machine.step U) m').threads[m.threads.length]? = some p' ∧
        Sound U m.store false (k - turns m.threads.length es) (fun _ => False) p' (t.substitute U (valuesOf m.store externals) (valuesOf m.store dictionary)) := by
    intro es
    induction es with
    | nil => intro m' p k _ _ h1 h2; exact ⟨p, h1, h2⟩
    | cons e es ih =>
      intro m' p k he hst h1 h2
      rw [← hst] at h2
      obtain ⟨a, p', b, c⟩ := Machine.step_looks (e := e) (fun w forms h => he w forms (by simp [h])) h1 h2
      rw [hst] at a c
      obtain ⟨p'', d, f⟩ := ih _ p' _ (fun w forms h => he w forms (by simp [h])) a b c
      refine ⟨p'', d, ?_⟩
      rw [turns_cons, Nat.sub_add_eq]
      exact f
  obtain ⟨p', h1, h2⟩ := key later (m.step U (.substitute t externals dictionary)) (substituteProg U t externals dictionary) n hl rfl
    (by simp [Machine.step]) (hn _)
  rw [resultOf_iff, h1]
  have hz : n - turns m.threads.length later = 0 := by omega
  rw [hz] at h2
  cases h2; rfl

end

/-- A text, a preposition and a template with the preposition before the text. -/
def exStore : Store := ⟨[⟨.TEXT, [str! "власти"], .new []⟩, ⟨.PREPOSITION, [str! "в", str! "во", str! "в"], .new []⟩],
  [⟨0, .new [], .new []⟩, ⟨1, .new [], .new []⟩]⟩

def exInto : Template := ⟨[⟨str! "в", [.ext (str! "x")]⟩, ⟨str! "x", []⟩], some (str! "%s %s")⟩

/-- C100 needs words that do not change: a preposition goes on agreeing with what the next word was when its form was first read. -/
theorem C100_stale_violated : ∃ (events : List RenderEvent),
    (∀ e ∈ events, Quiet exStore e ∨ e = .setForms 0 [str! "доме"]) ∧
    resultOf (Machine.after exPy exStore events) 0 = some (.ok (str! "во власти")) ∧
    resultOf (Machine.after exPy exStore events) 1 = some (.ok (str! "во доме")) ∧
    exInto.substitute exPy (valuesOf (Machine.after exPy exStore events).store [(str! "x", 0)])
      (valuesOf (Machine.after exPy exStore events).store [(str! "в", 1)]) = .ok (str! "в доме") := by
  refine ⟨.substitute exInto [(str! "x", 0)] [(str! "в", 1)] :: List.replicate 40 (.run 0) ++ .setForms 0 [str! "доме"] ::
    .substitute exInto [(str! "x", 0)] [(str! "в", 1)] :: List.replicate 40 (.run 1), ?_, by decide +kernel, by decide +kernel, by decide +kernel⟩
  intro e he
  simp only [List.cons_append, List.mem_cons, List.mem_append, List.mem_replicate] at he
  have hv : ∀ n f, f < 2 → Valid exStore [(n, f)] := by
    intro n f hf e he
    simp only [List.mem_singleton] at he
    subst he
    match f, hf with
    | 0, _ => show exStore.form 0 ≠ none; decide
    | 1, _ => show exStore.form 1 ≠ none; decide
  rcases he with rfl | ⟨-, rfl⟩ | rfl | rfl | ⟨-, rfl⟩
  · exact .inl ⟨hv _ _ (by decide), hv _ _ (by decide)⟩
  · exact .inl trivial
  · exact .inr rfl
  · exact .inl ⟨hv _ _ (by decide), hv _ _ (by decide)⟩
  · exact .inl trivial

/-- Two calls at the same time, the steps in turn: both give the text, and the second finds attributes stored by the first. -/
example : let events := RenderEvent.substitute exInto [(str! "x", 0)] [(str! "в", 1)] :: .substitute exInto [(str! "x", 0)] [(str! "в", 1)] ::
      (List.replicate 40 [RenderEvent.run 0, .run 1]).flatten
    resultOf (Machine.after exPy exStore events) 0 = some (.ok (str! "во власти")) ∧
    resultOf (Machine.after exPy exStore events) 1 = some (.ok (str! "во власти")) ∧
    (Machine.after exPy exStore events).hidden (.cluster 0) = some (.flag true) := by decide +kernel

/-- The hypotheses of `C101_present_words` are met by the text alone, also after its form was read and changed. -/
example : let m := Machine.after exPy exStore [.form 0, .run 0, .run 0, .run 0, .run 0, .setForms 0 [str! "доме"]]
    m.hidden (.form 0) = some (.text (str! "власти")) ∧ NoPrepositions m.store ⟨[⟨str! "x", []⟩], some (str! "%s")⟩ [(str! "x", 0)] [] := by
  refine ⟨by decide +kernel, ?_⟩
  intro s hs v hv
  simp only [List.mem_singleton] at hs
  subst hs
  have : (Except.ok v : Except PyErr WordForm) = .ok ⟨⟨.TEXT, [str! "доме"], .new []⟩, .new [], .new []⟩ := by rw [← hv]; decide +kernel
  cases this
  decide

end Utg
