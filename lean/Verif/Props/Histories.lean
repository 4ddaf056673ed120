import Verif.Props.Templates
/-! # C81: any history of `parse` calls on one template object -/

namespace Utg
open Py Spec

/-- The template object after `t = Template()` and a sequence of calls `t.parse(text, externals)`, whose exceptions the caller
catches (utg/templates.py:126-128, 157-167). -/
def parses (U : PyUni) (calls : List (Str × List Str)) : Template :=
  calls.foldl (fun t c => (t.parseState U c.1 c.2).1) Template.empty

namespace Spec

/-- The call succeeds on a fresh object. -/
def Parses (U : PyUni) (c : Str × List Str) : Prop := ∃ t, Template.empty.parse U c.1 c.2 = .ok t

/-- The call reads no variable: the text has none, or the very first one is faulty. -/
def ReadsNothing (U : PyUni) (c : Str × List Str) : Prop :=
  ∃ l ps, Pieces c.1 l ps ∧ ∀ p ∈ ps.head?, ∃ e, Substitution.parse U (doubled p.1) c.2 = .error e

end Spec

/-- The substitutions a call adds. -/
def callLeaves (U : PyUni) (c : Str × List Str) : List Substitution := (Template.empty.parseState U c.1 c.2).1.substitutions

theorem parseState_eq (U : PyUni) (t : Template) (c : Str × List Str) :
    t.parseState U c.1 c.2 =
      (⟨t.substitutions ++ callLeaves U c, ((Template.empty.parseState U c.1 c.2).1.template.or t.template)⟩,
        (Template.empty.parseState U c.1 c.2).2) := by
  obtain ⟨l, ps, h, -⟩ := C45_pieces_unique c.1
  unfold callLeaves
  rcases forall₂_or_first (fun p : Str × Str => Substitution.parse U (doubled p.1) c.2) ps with ⟨subs, hs⟩ | ⟨pre, p, post, subs, e, h1, h2, h3⟩
  · rw [(parseState_pieces U t c.2 h).1 subs hs, (parseState_pieces U .empty c.2 h).1 subs hs]; simp [Template.empty]
  · rw [(parseState_pieces U t c.2 h).2 pre p post subs e h1 h2 h3, (parseState_pieces U .empty c.2 h).2 pre p post subs e h1 h2 h3]
    simp [Template.empty]

theorem parses_substitutions (U : PyUni) (calls : List (Str × List Str)) :
    (parses U calls).substitutions = calls.flatMap (callLeaves U) := by
  suffices h : ∀ t : Template, (calls.foldl (fun t c => (t.parseState U c.1 c.2).1) t).substitutions =
      t.substitutions ++ calls.flatMap (callLeaves U) by
    simpa [Template.empty, parses] using h .empty
  induction calls with
  | nil => simp
  | cons c cs ih => intro t; rw [List.foldl_cons, ih, parseState_eq]; simp

theorem not_parses_iff (U : PyUni) (c : Str × List Str) :
    (∃ e, Template.empty.parse U c.1 c.2 = .error e) ↔ ¬ Parses U c := by
  unfold Parses
  cases h : Template.empty.parse U c.1 c.2 with
  | ok t => simp
  | error e => simp

theorem parse_template_none {U : PyUni} {c : Str × List Str} (h : ¬ Parses U c) : (Template.empty.parseState U c.1 c.2).1.template = none := by
  obtain ⟨l, ps, hp, -⟩ := C45_pieces_unique c.1
  rcases forall₂_or_first (fun p : Str × Str => Substitution.parse U (doubled p.1) c.2) ps with ⟨subs, hs⟩ | ⟨pre, p, post, subs, e, h1, h2, h3⟩
  · exact absurd ⟨_, parse_ok_of hp hs⟩ h
  · rw [(parseState_pieces U .empty c.2 hp).2 pre p post subs e h1 h2 h3]; rfl

theorem foldl_template (U : PyUni) (t : Template) {post : List (Str × List Str)} (h : ∀ c ∈ post, ¬ Parses U c) :
    (post.foldl (fun t c => (t.parseState U c.1 c.2).1) t).template = t.template := by
  induction post generalizing t with
  | nil => rfl
  | cons c cs ih =>
    rw [List.foldl_cons, ih _ (fun c' hc => h c' (by simp [hc])), parseState_eq, parse_template_none (h c (by simp))]; rfl

theorem parse_eq_state {U : PyUni} {c : Str × List Str} {t : Template} (h : Template.empty.parse U c.1 c.2 = .ok t) :
    (Template.empty.parseState U c.1 c.2).1 = t ∧ (Template.empty.parseState U c.1 c.2).2 = none := by
  unfold Template.parse at h
  rcases hs : Template.empty.parseState U c.1 c.2 with ⟨t', e | e⟩
  · rw [hs] at h; injection h with h; exact ⟨h, rfl⟩
  · rw [hs] at h; cases h

theorem callLeaves_nil_iff (U : PyUni) (c : Str × List Str) : callLeaves U c = [] ↔ ReadsNothing U c := by
  obtain ⟨l, ps, h, hu⟩ := C45_pieces_unique c.1
  have hr : ReadsNothing U c ↔ ∀ p ∈ ps.head?, ∃ e, Substitution.parse U (doubled p.1) c.2 = .error e := by
    constructor
    · rintro ⟨l', ps', h', hh⟩; obtain ⟨-, rfl⟩ := hu _ _ h'; exact hh
    · exact fun hh => ⟨l, ps, h, hh⟩
  rw [hr]
  unfold callLeaves
  rcases forall₂_or_first (fun p : Str × Str => Substitution.parse U (doubled p.1) c.2) ps with ⟨subs, hs⟩ | ⟨pre, p, post, subs, e, h1, h2, h3⟩
  · rw [(parseState_pieces U .empty c.2 h).1 subs hs]
    cases hs with
    | nil => simp [Template.empty]
    | cons hx _ => simp [Template.empty, hx]
  · rw [(parseState_pieces U .empty c.2 h).2 pre p post subs e h1 h2 h3, h1]
    cases h2 with
    | nil => simp [Template.empty, h3]
    | cons hx _ => simp [Template.empty, hx]

/-- C81: whether a call of `parse` succeeds, and the exception it raises, do not depend on what the object has been through. -/
theorem C81_outcome (U : PyUni) (t : Template) (text : Str) (names : List Str) (e : PyErr) :
    (t.parse U text names = .error e ↔ Template.empty.parse U text names = .error e) ∧
    ((∃ t', t.parse U text names = .ok t') ↔ ∃ t', Template.empty.parse U text names = .ok t') := by
  have h := parseState_eq U t (text, names)
  simp only at h
  unfold Template.parse
  rw [h]
  rcases Template.empty.parseState U text names with ⟨t', e' | e'⟩ <;> simp

/-- C81: as long as no call has succeeded, substitution fails: it raises what the first of its variables raises, or `TypeError`. -/
theorem C81_none_succeeded (U : PyUni) (calls : List (Str × List Str)) (h : ∀ c ∈ calls, ¬ Parses U c) (ext : Externals) (d : Dictionary) :
    ∃ e, (parses U calls).substitute U ext d = .error e ∧
      ((∃ before s after, (parses U calls).substitutions = before ++ s :: after ∧ (∀ b ∈ before, ∃ x, b.getText U ext d = .ok x) ∧
          s.getText U ext d = .error e) ∨
        e = .TypeError ∧ ∀ s ∈ (parses U calls).substitutions, ∃ x, s.getText U ext d = .ok x) := by
  have ht : (parses U calls).template = none := by unfold parses; rw [foldl_template U _ h]; rfl
  unfold Template.substitute
  rw [ht]
  cases hm : (parses U calls).substitutions.mapM fun s => s.getText U ext d with
  | error e => exact ⟨e, rfl, .inl (first_of_mapM_error hm)⟩
  | ok x => exact ⟨.TypeError, rfl, .inr ⟨rfl, ok_of_mapM hm⟩⟩

/-- C81: otherwise let `c` be the last call that succeeded, and `t` what it makes of a fresh object. Substitution in the reused
object succeeds iff none of the other calls (before or after it, successful or not) read any variable and substitution in `t`
succeeds; and then it gives the same text. -/
theorem C81_last_success (U : PyUni) (pre post : List (Str × List Str)) (c : Str × List Str) (t : Template)
    (hc : Template.empty.parse U c.1 c.2 = .ok t) (hpost : ∀ c' ∈ post, ¬ Parses U c') (ext : Externals) (d : Dictionary) (x : Str) :
    (parses U (pre ++ c :: post)).substitute U ext d = .ok x ↔
      (∀ c' ∈ pre ++ post, ReadsNothing U c') ∧ t.substitute U ext d = .ok x := by
  obtain ⟨l, ps, hp, -⟩ := C45_pieces_unique c.1
  obtain ⟨h1, h2⟩ := (C45_parse U c.2 c.1 l ps t hp).mp hc
  have hst := (parse_eq_state hc).1
  have hl : callLeaves U c = t.substitutions := by unfold callLeaves; rw [hst]
  have ht : (parses U (pre ++ c :: post)).template = t.template := by
    unfold parses
    rw [List.foldl_append, List.foldl_cons, foldl_template U _ hpost, parseState_eq, hst, h2]; rfl
  have hs : (parses U (pre ++ c :: post)).substitutions = pre.flatMap (callLeaves U) ++ t.substitutions ++ post.flatMap (callLeaves U) := by
    rw [parses_substitutions]; simp [hl]
  by_cases hn : ∀ c' ∈ pre ++ post, ReadsNothing U c'
  · have e1 : pre.flatMap (callLeaves U) = [] := by
      rw [List.flatMap_eq_nil_iff]; exact fun c' hc' => (callLeaves_nil_iff U c').mpr (hn c' (by simp [hc']))
    have e2 : post.flatMap (callLeaves U) = [] := by
      rw [List.flatMap_eq_nil_iff]; exact fun c' hc' => (callLeaves_nil_iff U c').mpr (hn c' (by simp [hc']))
    have : parses U (pre ++ c :: post) = t := by
      rcases hq : parses U (pre ++ c :: post) with ⟨s, tt⟩
      rw [hq] at hs ht
      simp only [e1, e2, List.nil_append, List.append_nil] at hs ht
      cases t; simp_all
    rw [this]
    exact ⟨fun h => ⟨hn, h⟩, fun h => h.2⟩
  · refine ⟨fun h => ?_, fun h => absurd h.1 hn⟩
    exfalso
    unfold Template.substitute at h
    rw [ht, hs, h2] at h
    cases hm : (pre.flatMap (callLeaves U) ++ t.substitutions ++ post.flatMap (callLeaves U)).mapM fun s => s.getText U ext d with
    | error e' => rw [hm] at h; cases h
    | ok texts =>
      rw [hm] at h
      simp only [bind, Except.bind] at h
      rw [pyFormat_template_short] at h
      · cases h
      have hlen := (forall₂_of_mapM hm).length_eq
      rw [List.length_append, List.length_append, ← h1.length_eq] at hlen
      simp only [not_forall] at hn
      obtain ⟨c', hc', hr⟩ := hn
      have hne := mt (callLeaves_nil_iff U c').mp hr
      have hpos := List.length_pos_iff.mpr hne
      have hmem : ∀ cs : List (Str × List Str), c' ∈ cs → 0 < (cs.flatMap (callLeaves U)).length := by
        intro cs hcs
        obtain ⟨s, hs⟩ := List.exists_mem_of_ne_nil _ hne
        exact List.length_pos_of_mem (List.mem_flatMap.mpr ⟨c', hcs, hs⟩)
      rcases List.mem_append.mp hc' with hc' | hc' <;> have := hmem _ hc' <;> omega

/-- A history that ends well: a failure at its first variable, a text without variables, a text with one, a failure again. -/
example : (parses exPy [(str! "[|zz] a", []), (str! "100%", []), (str! "[a]!", [str! "a"]), (str! "[a|zz]", [str! "a"])]).substitute exPy
    [(str! "a", WordForm.new exNoun)] [] = .ok (str! "a!") := by decide +kernel

example : Template.empty.parse exPy (str! "[a]!") [str! "a"] = .ok ⟨[⟨str! "a", []⟩], some (str! "%s!")⟩ ∧
    ¬ Parses exPy (str! "[a|zz]", [str! "a"]) ∧ ReadsNothing exPy (str! "[a|zz]", [str! "a"]) ∧ ReadsNothing exPy (str! "100%", []) := by
  refine ⟨by decide +kernel, ?_, ?_, ?_⟩
  · rw [← not_parses_iff]; exact ⟨.UnknownVerboseIdError (str! "zz"), by decide +kernel⟩
  · rw [← callLeaves_nil_iff]; decide +kernel
  · rw [← callLeaves_nil_iff]; decide +kernel

end Utg
