import Verif.Props.Templates
/-! # C72: a template is the sum of its parts -/

namespace Utg
open Py Spec

namespace Spec

/-- No bracket is left open: every `[` is followed, somewhere, by a `]`. -/
def Closed (text : Str) : Prop := ∀ a b, text = a ++ '[' :: b → ']' ∈ b

end Spec

/-- The pieces of `A ++ B` from the pieces of `A` and of `B`. -/
def joinPieces : Str → List (Str × Str) → Str → List (Str × Str) → Str × List (Str × Str)
  | l, [], l', ps' => (l ++ l', ps')
  | l, (v, m) :: ps, l', ps' => (l, (v, (joinPieces m ps l' ps').1) :: (joinPieces m ps l' ps').2)

theorem isLiteral_of_closed {l : Str} (h : IsFinalLiteral l) (hc : Closed l) : IsLiteral l := by
  intro a b e
  have h1 := hc a b e
  rcases split_at_close b with h2 | ⟨body, b', h2, h3⟩
  · exact absurd h1 h2
  · have := h a body b' (by rw [e, h2]; simp) h3
    subst this
    exact ⟨b', by simpa using h2⟩

theorem isFinal_append {l l' : Str} (h : IsLiteral l) (h' : IsFinalLiteral l') : IsFinalLiteral (l ++ l') := by
  induction l with
  | nil => exact h'
  | cons c cs ih =>
    rw [isLiteral_cons] at h
    rw [List.cons_append, isFinal_cons]
    refine ⟨?_, ih h.2⟩
    intro hc body b e hb
    obtain ⟨b', rfl⟩ := h.1 hc
    cases body with
    | nil => rfl
    | cons x xs =>
      simp only [List.cons_append, List.cons.injEq] at e
      exact absurd (List.mem_cons.mpr (.inl e.1)) hb

theorem closed_suffix {a b : Str} (h : Closed (a ++ b)) : Closed b := by
  intro x y e
  exact h (a ++ x) y (by rw [e]; simp)

theorem pieces_append {A B l l' : Str} {ps ps' : List (Str × Str)} (hA : Pieces A l ps) (hc : Closed A) (hB : Pieces B l' ps') :
    Pieces (A ++ B) (joinPieces l ps l' ps').1 (joinPieces l ps l' ps').2 := by
  induction hA with
  | last l hl =>
    have hlit := isLiteral_of_closed hl hc
    cases hB with
    | last l' hl' => exact .last _ (isFinal_append hlit hl')
    | var l' v text m rest h1 h2 h3 =>
      have := Pieces.var (l ++ l') v text m rest (isLiteral_append hlit h1) h2 h3
      simpa [joinPieces] using this
  | var l v text m rest h1 h2 h3 ih =>
    have := ih (closed_suffix (a := l ++ v) hc)
    have h4 := Pieces.var l v (text ++ B) _ _ h1 h2 this
    simpa [joinPieces] using h4

theorem joinPieces_fst (l l' : Str) (ps ps' : List (Str × Str)) :
    (joinPieces l ps l' ps').2.map Prod.fst = ps.map Prod.fst ++ ps'.map Prod.fst := by
  induction ps generalizing l with
  | nil => rfl
  | cons p ps ih => obtain ⟨v, m⟩ := p; simp [joinPieces, ih]

theorem joinPieces_filled (l l' : Str) (ps ps' : List (Str × Str)) (args args' : List Str) (h : args.length = ps.length) :
    filled (joinPieces l ps l' ps').1 (args ++ args') ((joinPieces l ps l' ps').2.map Prod.snd) =
      filled l args (ps.map Prod.snd) ++ filled l' args' (ps'.map Prod.snd) := by
  induction ps generalizing l args with
  | nil =>
    have : args = [] := by simpa using h
    subst this
    cases args' with
    | nil => simp [joinPieces, filled]
    | cons a as =>
      cases ps' with
      | nil => simp [joinPieces, filled]
      | cons p ps' => simp [joinPieces, filled]
  | cons p ps ih =>
    obtain ⟨v, m⟩ := p
    cases args with
    | nil => simp at h
    | cons a as =>
      have := ih m as (by simpa using h)
      simp only [joinPieces, List.map_cons, List.cons_append, filled, this]
      simp

theorem forall₂_fst {α β γ : Type} {R : α → γ → Prop} {ps : List (α × β)} {ys : List γ} :
    List.Forall₂ (fun p y => R p.1 y) ps ys ↔ List.Forall₂ R (ps.map Prod.fst) ys := by
  rw [List.forall₂_map_left_iff]

theorem forall₂_left {α β : Type} {R : α → β → Prop} {xs : List α} {ys : List β} (h : List.Forall₂ R xs ys) :
    ∀ x ∈ xs, ∃ y, R x y := by
  induction h with
  | nil => simp
  | cons h _ ih =>
    intro x hx
    rcases List.mem_cons.mp hx with rfl | hx
    · exact ⟨_, h⟩
    · exact ih x hx

/-- The outcome of `substitute` for a template parsed from a text with the given pieces. -/
theorem substitute_parsed {U : PyUni} {l : Str} {ps : List (Str × Str)} {subs : List Substitution} {ext : Externals} {d : Dictionary}
    (hl : ps.length = subs.length) :
    Template.substitute U ⟨subs, some (formatted l (ps.map Prod.snd))⟩ ext d =
      match subs.mapM (fun s => s.getText U ext d) with
      | .ok texts => .ok (filled l texts (ps.map Prod.snd))
      | .error e => .error e := by
  unfold Template.substitute
  cases h : subs.mapM (fun s => s.getText U ext d) with
  | error e => simp [bind, Except.bind]
  | ok texts =>
    have := (forall₂_of_mapM h).length_eq
    simp only [bind, Except.bind]
    exact pyFormat_template _ _ _ _ (by omega)

/-- C72: a text in two parts. If the first part leaves no bracket open, parsing and filling the whole is parsing and filling the
parts: the first exception wins, and without exceptions the texts are joined. So whatever is written in one variable acts at
its own place only. -/
theorem C72_concatenation (U : PyUni) (names : List Str) (A B : Str) (hA : Closed A) :
    (∀ e, Template.empty.parse U A names = .error e → Template.empty.parse U (A ++ B) names = .error e) ∧
    (∀ ta e, Template.empty.parse U A names = .ok ta → Template.empty.parse U B names = .error e →
      Template.empty.parse U (A ++ B) names = .error e) ∧
    (∀ ta tb, Template.empty.parse U A names = .ok ta → Template.empty.parse U B names = .ok tb →
      ∃ t, Template.empty.parse U (A ++ B) names = .ok t ∧ ∀ ext d,
        t.substitute U ext d =
          match ta.substitute U ext d, tb.substitute U ext d with
          | .ok x, .ok y => .ok (x ++ y)
          | .ok _, .error e => .error e
          | .error e, _ => .error e) := by
  obtain ⟨l, ps, hpA⟩ := pieces_exist A
  obtain ⟨l', ps', hpB⟩ := pieces_exist B
  have hp := pieces_append hpA hA hpB
  have hfst := joinPieces_fst l l' ps ps'
  have err : ∀ e, (∃ pre p post, ps.map Prod.fst ++ ps'.map Prod.fst = pre ++ p :: post ∧
      (∀ q ∈ pre, ∃ s, Substitution.parse U (doubled q) names = .ok s) ∧ Substitution.parse U (doubled p) names = .error e) →
      Template.empty.parse U (A ++ B) names = .error e := by
    rintro e ⟨pre, p, post, h1, h2, h3⟩
    rw [C45_parse_error U names _ _ _ e hp]
    rw [← hfst] at h1
    obtain ⟨pre', rest, h4, h5, h6⟩ := List.map_eq_append_iff.mp h1
    obtain ⟨p', post', h7, h8, h9⟩ := List.map_eq_cons_iff.mp h6
    refine ⟨pre', p', post', by rw [h4, h7], ?_, by rw [h8]; exact h3⟩
    intro q hq
    exact h2 q.1 (by rw [← h5]; exact List.mem_map_of_mem hq)
  refine ⟨?_, ?_, ?_⟩
  · intro e he
    obtain ⟨pre, p, post, h1, h2, h3⟩ := (C45_parse_error U names A l ps e hpA).mp he
    refine err e ⟨pre.map Prod.fst, p.1, post.map Prod.fst ++ ps'.map Prod.fst, by rw [h1]; simp, ?_, h3⟩
    intro q hq
    obtain ⟨q', hq', rfl⟩ := List.mem_map.mp hq
    exact h2 q' hq'
  · intro ta e ha he
    obtain ⟨h4, _⟩ := (C45_parse U names A l ps ta hpA).mp ha
    obtain ⟨pre, p, post, h1, h2, h3⟩ := (C45_parse_error U names B l' ps' e hpB).mp he
    refine err e ⟨ps.map Prod.fst ++ pre.map Prod.fst, p.1, post.map Prod.fst, by rw [h1]; simp, ?_, h3⟩
    intro q hq
    rcases List.mem_append.mp hq with hq | hq
    · obtain ⟨q', hq', rfl⟩ := List.mem_map.mp hq
      exact forall₂_left h4 q' hq'
    · obtain ⟨q', hq', rfl⟩ := List.mem_map.mp hq
      exact h2 q' hq'
  · intro ta tb ha hb
    obtain ⟨h1, h2⟩ := (C45_parse U names A l ps ta hpA).mp ha
    obtain ⟨h3, h4⟩ := (C45_parse U names B l' ps' tb hpB).mp hb
    have h5 : List.Forall₂ (fun p s => Substitution.parse U (doubled p.1) names = .ok s) (joinPieces l ps l' ps').2
        (ta.substitutions ++ tb.substitutions) := by
      rw [forall₂_fst (R := fun v s => Substitution.parse U (doubled v) names = .ok s), hfst]
      exact List.rel_append (forall₂_fst (R := fun v s => Substitution.parse U (doubled v) names = .ok s) |>.mp h1)
        (forall₂_fst (R := fun v s => Substitution.parse U (doubled v) names = .ok s) |>.mp h3)
    refine ⟨_, (C45_parse U names _ _ _ ⟨ta.substitutions ++ tb.substitutions, some (formatted (joinPieces l ps l' ps').1
      ((joinPieces l ps l' ps').2.map Prod.snd))⟩ hp).mpr ⟨h5, rfl⟩, ?_⟩
    intro ext d
    obtain ⟨sa, fa⟩ := ta
    obtain ⟨sb, fb⟩ := tb
    simp only at h1 h2 h3 h4 h5 ⊢
    subst h2 h4
    rw [substitute_parsed h5.length_eq, substitute_parsed h1.length_eq, substitute_parsed h3.length_eq, List.mapM_append]
    cases ea : sa.mapM (fun s => s.getText U ext d) with
    | error e => simp [bind, Except.bind]
    | ok xs =>
      cases eb : sb.mapM (fun s => s.getText U ext d) with
      | error e => simp [bind, Except.bind]
      | ok ys =>
        have := (forall₂_of_mapM ea).length_eq
        simp [bind, Except.bind, pure, Except.pure]
        rw [joinPieces_filled _ _ _ _ _ _ (by have := h1.length_eq; omega)]

/-- The parts of the README's phrase: what is written for the first variable does not influence the second. -/
example : Closed (str! "Вчера [mob] ") ∧ ∃ ta tb, Template.empty.parse exPy (str! "Вчера [mob] ") [str! "mob", str! "hero"] = .ok ta ∧
    Template.empty.parse exPy (str! "[hero|вн].") [str! "mob", str! "hero"] = .ok tb := by
  refine ⟨?_, _, _, by rfl, by rfl⟩
  intro a b e
  have h : ∀ n, n < 12 → (str! "Вчера [mob] ")[n]? = some '[' → ']' ∈ (str! "Вчера [mob] ").drop (n + 1) := by decide
  have h1 : (str! "Вчера [mob] ")[a.length]? = some '[' := by rw [e]; simp
  have h2 : (str! "Вчера [mob] ").drop (a.length + 1) = b := by rw [e]; simp
  rw [← h2]
  refine h _ ?_ h1
  have := congrArg List.length e
  simp at this; omega

end Utg
