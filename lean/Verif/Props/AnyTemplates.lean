import Verif.Spec.AnyTemplates
import Verif.Props.AnyJson
/-!
# C150: templates loaded from any JSON document, in use
-/

namespace Utg
open Py Spec

theorem hashable_iff (x : Json) : x.hashable = false ↔ IsCompound x := by
  constructor
  · intro h
    cases x <;> first | exact .arr _ | exact .obj _ | cases h
  · intro h; cases h <;> rfl

theorem id_cases (id : Json) : (∃ s, id = .str s) ∨ ∃ e, BadId id e := by
  by_cases hc : IsCompound id
  · exact .inr ⟨_, .compound id hc⟩
  · by_cases hs : ∃ s, id = .str s
    · exact .inl hs
    · exact .inr ⟨_, .plain id hc fun s h => hs ⟨s, h⟩⟩

theorem getText_bad {U : PyUni} {ext : Externals} {d : Dictionary} {s : LoadedSubstitution} {e : UseErr} (h : BadId s.id e) :
    s.getText U ext d = .error e := by
  obtain ⟨id, deps⟩ := s
  unfold LoadedSubstitution.getText
  simp only at h ⊢
  cases h with
  | compound h => cases h <;> rfl
  | plain h1 h2 =>
    cases id with
    | str s => exact absurd rfl (h2 s)
    | arr l => exact absurd (.arr l) h1
    | obj l => exact absurd (.obj l) h1
    | _ => rfl

theorem getText_proper {U : PyUni} {ext : Externals} {d : Dictionary} {l : LoadedSubstitution} {s : Substitution} (h : AsSubstitution l s) :
    l.getText U ext d = (s.getText U ext d).mapError .other := by
  obtain ⟨id, deps⟩ := l
  obtain ⟨h1, h2⟩ := h
  simp only at h1 h2
  subst h1 h2
  unfold LoadedSubstitution.getText
  simp only [Json.hashable, if_true]
  cases s.getText U ext d <;> rfl

/-- C150: a loaded template that is a proper one does what that one does. -/
theorem C150_proper (U : PyUni) (l : LoadedTemplate) (t : Template) (ext : Externals) (d : Dictionary) (h : AsTemplate l t) :
    (∀ s, t.substitute U ext d = .ok s → l.substitute U ext d = .ok s) ∧
    (∀ e, t.substitute U ext d = .error e → l.substitute U ext d = .error (.other e)) ∧
    l.getUndictionariedWords (ext.map Prod.fst) d = .ok ((t.getUndictionariedWords (ext.map Prod.fst) d).map .str) := by
  obtain ⟨lt, ls⟩ := l
  obtain ⟨ts, tt⟩ := t
  obtain ⟨⟨text, h1, h2⟩, h3⟩ := h
  simp only at h1 h2 h3
  subst h1 h2
  have hm : ls.mapM (LoadedSubstitution.getText U ext d) = (ts.mapM fun s : Substitution => s.getText U ext d).mapError UseErr.other := by
    induction h3 with
    | nil => rfl
    | @cons a s ls ts ha _ ih =>
      rw [List.mapM_cons, List.mapM_cons, getText_proper ha, ih]
      cases s.getText U ext d with
      | error e => rfl
      | ok x => cases ts.mapM fun s => s.getText U ext d <;> rfl
  have hs : (⟨.str text, ls⟩ : LoadedTemplate).substitute U ext d = ((⟨ts, some text⟩ : Template).substitute U ext d).mapError .other := by
    unfold LoadedTemplate.substitute Template.substitute
    rw [hm]
    cases ts.mapM fun s => s.getText U ext d with
    | error e => rfl
    | ok texts =>
      simp only [Except.mapError, bind, Except.bind]
      cases pyFormat U text texts <;> rfl
  refine ⟨fun s h => ?_, fun e h => ?_, ?_⟩
  · rw [hs, h]; rfl
  · rw [hs, h]; rfl
  · unfold LoadedTemplate.getUndictionariedWords Template.getUndictionariedWords
    clear hm hs
    generalize ext.map Prod.fst = names
    simp only
    induction h3 with
    | nil => rfl
    | @cons a s ls ts ha _ ih =>
      obtain ⟨id, deps⟩ := a
      obtain ⟨h1, -⟩ := ha
      simp only at h1
      subst h1
      unfold undictionariedLoop
      simp only [Json.hashable, if_true, List.filterMap_cons]
      by_cases hx : s.id ∈ names
      · rw [if_pos hx, if_pos hx]; exact ih
      · rw [if_neg hx, if_neg hx]
        by_cases hd : d.hasWord s.id = true
        · rw [if_pos hd, if_pos hd]; exact ih
        · rw [if_neg hd, if_neg hd, ih]; rfl

theorem mapM_texts {U : PyUni} {ext : Externals} {d : Dictionary} {ls : List LoadedSubstitution} {texts : List Str}
    (h : ls.mapM (LoadedSubstitution.getText U ext d) = .ok texts) : ∃ ts, List.Forall₂ AsSubstitution ls ts := by
  have h2 := forall₂_of_mapM_any h
  clear h
  induction h2 with
  | nil => exact ⟨[], .nil⟩
  | @cons a x ls texts ha _ ih =>
    obtain ⟨ts, ih⟩ := ih
    rcases id_cases a.id with ⟨s, hs⟩ | ⟨e, he⟩
    · exact ⟨⟨s, a.dependencies⟩ :: ts, .cons ⟨hs, rfl⟩ ih⟩
    · rw [getText_bad he] at ha; cases ha

/-- C150: only proper templates can be substituted. -/
theorem C150_only_proper (U : PyUni) (l : LoadedTemplate) (ext : Externals) (d : Dictionary) (s : Str) :
    l.substitute U ext d = .ok s ↔ ∃ t, AsTemplate l t ∧ t.substitute U ext d = .ok s := by
  constructor
  · intro h
    obtain ⟨lt, ls⟩ := l
    have h0 := h
    unfold LoadedTemplate.substitute at h0
    simp only [bind, Except.bind] at h0
    cases hm : ls.mapM (LoadedSubstitution.getText U ext d) with
    | error e => rw [hm] at h0; cases h0
    | ok texts =>
      rw [hm] at h0
      obtain ⟨ts, hts⟩ := mapM_texts hm
      cases lt with
      | str text =>
        have ht : AsTemplate ⟨.str text, ls⟩ ⟨ts, some text⟩ := ⟨⟨text, rfl, rfl⟩, hts⟩
        refine ⟨_, ht, ?_⟩
        obtain ⟨-, h2, -⟩ := C150_proper U _ _ ext d ht
        cases hr : (⟨ts, some text⟩ : Template).substitute U ext d with
        | ok r => rw [(C150_proper U _ _ ext d ht).1 r hr] at h; injection h with h; rw [h]
        | error e => rw [h2 e hr] at h; cases h
      | _ => cases h0
  · rintro ⟨t, ht, h⟩
    exact (C150_proper U l t ext d ht).1 s h

theorem mapM_append_error {α β ε : Type} {f : α → Except ε β} {pre post : List α} {x : α} {ys : List β} {e : ε} (h1 : pre.mapM f = .ok ys)
    (h2 : f x = .error e) : (pre ++ x :: post).mapM f = .error e := by
  induction pre generalizing ys with
  | nil => rw [List.nil_append, List.mapM_cons, h2]; rfl
  | cons a pre ih =>
    rw [List.mapM_cons] at h1
    rw [List.cons_append, List.mapM_cons]
    cases ha : f a with
    | error e' => rw [ha] at h1; cases h1
    | ok b =>
      rw [ha] at h1
      cases hp : pre.mapM f with
      | error e' => rw [hp] at h1; cases h1
      | ok bs => simp only [ih hp, bind, Except.bind]

/-- C150: what is raised for other templates. The texts of the substitutions are made in turn: an id that is a list or an object raises
`TypeError`, a number, a truth value or `null` raises `NoWordsFoundError`. If all of them can be made and the template is no text, `TypeError`
is raised. -/
theorem C150_raises (U : PyUni) (l : LoadedTemplate) (ext : Externals) (d : Dictionary) :
    (∀ pre bad post ts texts e, l.substitutions = pre ++ bad :: post → List.Forall₂ AsSubstitution pre ts →
      ts.mapM (fun s => s.getText U ext d) = .ok texts → BadId bad.id e → l.substitute U ext d = .error e) ∧
    (∀ ts texts, List.Forall₂ AsSubstitution l.substitutions ts → ts.mapM (fun s => s.getText U ext d) = .ok texts →
      (∀ s, l.template ≠ .str s) → l.substitute U ext d = .error .TypeError) := by
  have hm : ∀ ls ts texts, List.Forall₂ AsSubstitution ls ts → ts.mapM (fun s => s.getText U ext d) = .ok texts →
      ls.mapM (LoadedSubstitution.getText U ext d) = .ok texts := by
    intro ls ts texts h3 h
    induction h3 generalizing texts with
    | nil => injection h with h; subst h; rfl
    | @cons a s ls ts ha _ ih =>
      rw [List.mapM_cons] at h
      rw [List.mapM_cons, getText_proper ha]
      cases hs : s.getText U ext d with
      | error e => rw [hs] at h; cases h
      | ok x =>
        rw [hs] at h
        cases hts : ts.mapM fun s => s.getText U ext d with
        | error e => rw [hts] at h; cases h
        | ok xs =>
          rw [hts] at h
          rw [ih xs hts]
          injection h with h
          subst h
          rfl
  obtain ⟨lt, ls⟩ := l
  refine ⟨?_, ?_⟩
  · intro pre bad post ts texts e hl h3 h he
    simp only at hl
    subst hl
    unfold LoadedTemplate.substitute
    simp only [mapM_append_error (hm _ _ _ h3 h) (getText_bad he), bind, Except.bind]
  · intro ts texts h3 h hn
    unfold LoadedTemplate.substitute
    simp only [hm _ _ _ h3 h, bind, Except.bind]

/-- C150: `get_undictionaried_words` lists the ids that are no texts among the unknown ones, in the order of the template; it raises
`TypeError` exactly if an id is a list or an object. -/
theorem C150_undictionaried (l : LoadedTemplate) (names : List Str) (d : Dictionary) :
    ((∃ s ∈ l.substitutions, IsCompound s.id) → l.getUndictionariedWords names d = .error .TypeError) ∧
    ((∀ s ∈ l.substitutions, ¬ IsCompound s.id) →
      l.getUndictionariedWords names d = .ok ((l.substitutions.map LoadedSubstitution.id).filter (unknownId names d))) := by
  obtain ⟨lt, ls⟩ := l
  unfold LoadedTemplate.getUndictionariedWords
  simp only
  induction ls with
  | nil => exact ⟨by simp, fun _ => rfl⟩
  | cons a ls ih =>
    obtain ⟨ih1, ih2⟩ := ih
    obtain ⟨id, deps⟩ := a
    refine ⟨?_, ?_⟩
    · rintro ⟨s, hs, hc⟩
      unfold undictionariedLoop
      by_cases ha : id.hashable = true
      · rw [if_pos ha]
        have hls : undictionariedLoop names d ls = .error .TypeError := by
          rcases List.mem_cons.mp hs with rfl | hs
          · rw [(hashable_iff _).mpr hc] at ha; cases ha
          · exact ih1 ⟨s, hs, hc⟩
        cases id <;> simp [hls, bind, Except.bind]
      · rw [if_neg ha]
    · intro hall
      have ih := ih2 fun s hs => hall s (by simp [hs])
      have hc := hall ⟨id, deps⟩ (by simp)
      unfold undictionariedLoop
      rw [List.map_cons]
      cases id with
      | arr l => exact absurd (.arr l) hc
      | obj l => exact absurd (.obj l) hc
      | str name =>
        simp only [Json.hashable, if_true]
        by_cases hx : name ∈ names
        · rw [if_pos hx, ih, List.filter_cons_of_neg (by simp [unknownId, hx])]
        · rw [if_neg hx]
          by_cases hd : d.hasWord name = true
          · rw [if_pos hd, ih, List.filter_cons_of_neg (by simp [unknownId, hd])]
          · rw [if_neg hd, ih, List.filter_cons_of_pos (by simp [unknownId, hx, hd])]; rfl
      | null => simp only [Json.hashable, if_true]; rw [ih, List.filter_cons_of_pos rfl]; rfl
      | bool b => simp only [Json.hashable, if_true]; rw [ih, List.filter_cons_of_pos rfl]; rfl
      | int b => simp only [Json.hashable, if_true]; rw [ih, List.filter_cons_of_pos rfl]; rfl
      | float a b => simp only [Json.hashable, if_true]; rw [ih, List.filter_cons_of_pos rfl]; rfl

/-! ## Examples -/

/-- A template with a number for the id of its second variable. -/
def exOddTemplate (id : Json) : Json := .obj [(str! "template", .str (str! "%s, %s")), (str! "substitutions",
  .arr [.obj [(str! "id", .str (str! "герой")), (str! "dependencies", .arr [])], .obj [(str! "id", id), (str! "dependencies", .arr [])]])]

example (id : Json) : loadTemplate (exOddTemplate id) = .ok ⟨.str (str! "%s, %s"), [⟨.str (str! "герой"), []⟩, ⟨id, []⟩]⟩ := rfl

/-- Proper, and substituted. -/
example : AsTemplate ⟨.str (str! "%s, %s"), [⟨.str (str! "герой"), []⟩, ⟨.str (str! "герой"), []⟩]⟩
    ⟨[⟨str! "герой", []⟩, ⟨str! "герой", []⟩], some (str! "%s, %s")⟩ :=
  ⟨⟨_, rfl, rfl⟩, .cons ⟨rfl, rfl⟩ (.cons ⟨rfl, rfl⟩ .nil)⟩

example : (⟨[⟨str! "герой", []⟩, ⟨str! "герой", []⟩], some (str! "%s, %s")⟩ : Template).substitute exUni
    [(str! "герой", WordForm.new exNoun)] (history exUni []) = .ok (str! "a, a") := by decide +kernel

/-- A number is looked up in vain, a list cannot be looked up. -/
example : BadId (.int 5) (.NoWordsFoundError (.int 5)) ∧ BadId (.arr []) .TypeError :=
  ⟨.plain _ (fun h => by cases h) (fun s h => by cases h), .compound _ (.arr _)⟩

end Utg
