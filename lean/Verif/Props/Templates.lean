import Verif.Proofs.Templates
import Verif.Props.WordForms
import Verif.Props.Dictionary
/-! # C44 - C46, C51 - C53, C64, C65: templates as texts -/

namespace Utg
open Py Spec

theorem doubled_of_not_mem {s : Str} (h : '%' ∉ s) : doubled s = s := by
  induction s with
  | nil => rfl
  | cons c cs ih =>
    simp only [List.mem_cons, not_or] at h
    rw [doubled, if_neg (fun e => h.1 e.symm), ih h.2]

theorem parse_ok_of {U : PyUni} {t : Template} {names : List Str} {text l : Str} {ps : List (Str × Str)} {subs : List Substitution}
    (h : Pieces text l ps) (hs : List.Forall₂ (fun p s => Substitution.parse U (doubled p.1) names = .ok s) ps subs) :
    t.parse U text names = .ok ⟨t.substitutions ++ subs, some (formatted l (ps.map Prod.snd))⟩ := by
  unfold Template.parse; rw [(parseState_pieces U t names h).1 subs hs]

/-- C44: the literal pieces are reproduced verbatim, each variable is replaced by the text of its own substitution. (`doubled`
concerns percent signs inside the brackets only: a variable without a percent sign is parsed as it stands.) -/
theorem C44_literal_text (U : PyUni) (names : List Str) (ext : Externals) (d : Dictionary) (text l : Str) (ps : List (Str × Str))
    (texts : List Str) (h : Pieces text l ps)
    (hs : List.Forall₂ (fun p x => ∃ s, Substitution.parse U (doubled p.1) names = .ok s ∧ s.getText U ext d = .ok x) ps texts) :
    ∃ t, Template.empty.parse U text names = .ok t ∧ t.substitute U ext d = .ok (filled l texts (ps.map Prod.snd)) := by
  obtain ⟨subs, h1, h2⟩ : ∃ subs, List.Forall₂ (fun p s => Substitution.parse U (doubled p.1) names = .ok s) ps subs ∧
      List.Forall₂ (fun s x => Substitution.getText U s ext d = .ok x) subs texts := by
    clear h
    induction hs with
    | nil => exact ⟨[], .nil, .nil⟩
    | cons hx _ ih =>
      obtain ⟨s, hs1, hs2⟩ := hx
      obtain ⟨subs, h1, h2⟩ := ih
      exact ⟨s :: subs, .cons hs1 h1, .cons hs2 h2⟩
  refine ⟨_, parse_ok_of h h1, ?_⟩
  unfold Template.substitute
  have : (Template.empty.substitutions ++ subs) = subs := rfl
  simp only [this, mapM_of_forall₂ h2, bind, Except.bind]
  exact pyFormat_template _ _ _ _ (by rw [← h2.length_eq, ← h1.length_eq])

/-- C44: the first substitution (from the left) that raises an exception is the one whose exception `substitute` raises. -/
theorem C44_first_error (U : PyUni) (names : List Str) (ext : Externals) (d : Dictionary) (text l : Str) (pre post : List (Str × Str))
    (p : Str × Str) (spre spost : List Substitution) (s : Substitution) (texts : List Str) (e : PyErr)
    (h : Pieces text l (pre ++ p :: post))
    (h1 : List.Forall₂ (fun p s => Substitution.parse U (doubled p.1) names = .ok s) (pre ++ p :: post) (spre ++ s :: spost))
    (h2 : List.Forall₂ (fun s x => Substitution.getText U s ext d = .ok x) spre texts) (h3 : s.getText U ext d = .error e) :
    ∃ t, Template.empty.parse U text names = .ok t ∧ t.substitute U ext d = .error e := by
  refine ⟨_, parse_ok_of h h1, ?_⟩
  unfold Template.substitute
  have : (Template.empty.substitutions ++ (spre ++ s :: spost)) = spre ++ s :: spost := rfl
  simp only [this, mapM_of_first h2 h3, bind, Except.bind]

/-- C44: a text without variables is reproduced, percent signs and all. -/
theorem C44_no_variables (U : PyUni) (names : List Str) (ext : Externals) (d : Dictionary) (text : Str) (h : IsFinalLiteral text) :
    ∃ t, Template.empty.parse U text names = .ok t ∧ t.substitute U ext d = .ok text := by
  obtain ⟨t, h1, h2⟩ := C44_literal_text U names ext d text text [] [] (.last _ h) .nil
  exact ⟨t, h1, by simpa [filled] using h2⟩

/-- A text with a percent sign, two variables with equal texts, and empty brackets. -/
example : Pieces (str! "100% [a] и [a] []") (str! "100% ") [(str! "[a]", str! " и "), (str! "[a]", str! " []")] := by
  refine .var (str! "100% ") (str! "[a]") (str! " и [a] []") _ _ ?_ ⟨['a'], rfl, by simp, by simp⟩
    (.var (str! " и ") (str! "[a]") (str! " []") _ _ ?_ ⟨['a'], rfl, by simp, by simp⟩ (.last _ ?_))
  · intro a b e
    have : '[' ∈ str! "100% " := by rw [e]; simp
    simp at this
  · intro a b e
    have : '[' ∈ str! " и " := by rw [e]; simp
    simp at this
  · intro a body b e hb
    match a, e with
    | [], e => simp at e
    | [_], e =>
      simp at e
      match body, e with
      | [], _ => rfl
      | x :: xs, e => simp at e
    | _ :: _ :: a, e =>
      simp at e
      have : '[' ∈ str! "]" := by rw [e.2.2]; simp
      simp at this

theorem pieces_first {l l' v rest rest' : Str} (hl : IsLiteral l) (hl' : IsLiteral l') (hv : IsVariable v)
    (h : l ++ v ++ rest = l' ++ v ++ rest') : l = l' ∧ rest = rest' := by
  have aux : ∀ (c : Char) (cs : Str) (v rest rest' : Str), IsLiteral (c :: cs) → IsVariable v → v ++ rest = c :: (cs ++ v ++ rest') → False := by
    rintro c cs _ rest rest' hl ⟨body, rfl, h1, h2⟩ e
    simp at e
    obtain ⟨rfl, e⟩ := e
    obtain ⟨b, rfl⟩ := (isLiteral_cons.mp hl).1 rfl
    cases body with
    | nil => exact h1 rfl
    | cons x xs => simp at e; rw [e.1] at h2; simp at h2
  induction l generalizing l' with
  | nil =>
    cases l' with
    | nil => simpa using h
    | cons c cs => exact absurd h (fun e => aux c cs v rest rest' hl' hv (by simpa using e))
  | cons c cs ih =>
    cases l' with
    | nil => exact absurd h (fun e => aux c cs v rest' rest hl hv (by simpa using e.symm))
    | cons c' cs' =>
      simp only [List.cons_append, List.cons.injEq] at h
      obtain ⟨h1, h2⟩ := ih (isLiteral_cons.mp hl).2 (isLiteral_cons.mp hl').2 h.2
      exact ⟨by rw [h.1, h1], h2⟩

/-- C45: every text splits into literal pieces and variables in exactly one way. -/
theorem C45_pieces_unique (text : Str) :
    ∃ l ps, Pieces text l ps ∧ ∀ l' ps', Pieces text l' ps' → l' = l ∧ ps' = ps := by
  obtain ⟨l, ps, h⟩ := pieces_exist text
  refine ⟨l, ps, h, ?_⟩
  induction h with
  | last l hl =>
    intro l' ps' h'
    have h1 := findall_pieces (.last l hl)
    rw [findall_pieces h'] at h1
    cases h' with
    | last _ _ => exact ⟨rfl, rfl⟩
    | var => simp at h1
  | var l v rest l₁ ps hl hv hp ih =>
    intro l' ps' h'
    have h1 := findall_pieces (.var l v rest l₁ ps hl hv hp)
    rw [findall_pieces h'] at h1
    generalize ht : l ++ v ++ rest = text at h'
    cases h' with
    | last _ _ => simp at h1
    | var l2 v2 rest2 l3 ps2 hl2 hv2 hp2 =>
      simp at h1
      obtain ⟨rfl, _⟩ := h1
      obtain ⟨rfl, rfl⟩ := pieces_first hl hl2 hv ht
      obtain ⟨rfl, rfl⟩ := ih _ _ hp2
      exact ⟨rfl, rfl⟩

/-- C45: `parse` makes one substitution per variable, in order, out of the variable's text (percent signs doubled), and stores
the text with percent signs doubled and the variables replaced by `%s`. -/
theorem C45_parse (U : PyUni) (names : List Str) (text l : Str) (ps : List (Str × Str)) (t : Template) (h : Pieces text l ps) :
    Template.empty.parse U text names = .ok t ↔
      List.Forall₂ (fun p s => Substitution.parse U (doubled p.1) names = .ok s) ps t.substitutions ∧
      t.template = some (formatted l (ps.map Prod.snd)) := by
  constructor
  · intro hp
    unfold Template.parse at hp
    rcases forall₂_or_first (fun p : Str × Str => Substitution.parse U (doubled p.1) names) ps with ⟨subs, hs⟩ | ⟨pre, p, post, subs, e, h1, h2, h3⟩
    · rw [(parseState_pieces U _ names h).1 subs hs] at hp
      injection hp with hp; subst hp
      exact ⟨hs, rfl⟩
    · rw [(parseState_pieces U _ names h).2 pre p post subs e h1 h2 h3] at hp
      cases hp
  · rintro ⟨h1, h2⟩
    rw [parse_ok_of h h1]
    cases t; simp_all [Template.empty]

/-- C45: `parse` fails iff some variable cannot be parsed, with the exception of the first such variable. -/
theorem C45_parse_error (U : PyUni) (names : List Str) (text l : Str) (ps : List (Str × Str)) (e : PyErr) (h : Pieces text l ps) :
    Template.empty.parse U text names = .error e ↔
      ∃ pre p post, ps = pre ++ p :: post ∧ (∀ q ∈ pre, ∃ s, Substitution.parse U (doubled q.1) names = .ok s) ∧
        Substitution.parse U (doubled p.1) names = .error e := by
  constructor
  · intro hp
    unfold Template.parse at hp
    rcases forall₂_or_first (fun p : Str × Str => Substitution.parse U (doubled p.1) names) ps with ⟨subs, hs⟩ | ⟨pre, p, post, subs, e', h1, h2, h3⟩
    · rw [(parseState_pieces U _ names h).1 subs hs] at hp; cases hp
    · rw [(parseState_pieces U _ names h).2 pre p post subs e' h1 h2 h3] at hp
      injection hp with hp; subst hp
      refine ⟨pre, p, post, h1, ?_, h3⟩
      intro q hq
      clear h1 h3
      induction h2 with
      | nil => simp at hq
      | cons hx _ ih =>
        rcases List.mem_cons.mp hq with rfl | hq
        · exact ⟨_, hx⟩
        · exact ih hq
  · rintro ⟨pre, p, post, h1, h2, h3⟩
    obtain ⟨subs, _, hs⟩ := mapM_ok h2
    unfold Template.parse
    rw [(parseState_pieces U _ names h).2 pre p post subs e h1 hs h3]

/-- C64: what a failed `parse` leaves behind: the old template text, and the old substitutions followed by those of the
variables in front of the faulty one. -/
theorem C64_failed_parse (U : PyUni) (t : Template) (names : List Str) (text l : Str) (pre post : List (Str × Str)) (p : Str × Str)
    (subs : List Substitution) (e : PyErr) (h : Pieces text l (pre ++ p :: post))
    (hs : List.Forall₂ (fun p s => Substitution.parse U (doubled p.1) names = .ok s) pre subs)
    (hp : Substitution.parse U (doubled p.1) names = .error e) :
    t.parseState U text names = (⟨t.substitutions ++ subs, t.template⟩, some e) :=
  (parseState_pieces U t names h).2 pre p post subs e rfl hs hp

theorem first_of_mapM_error {α β ε : Type} {f : α → Except ε β} {l : List α} {e : ε} (h : l.mapM f = .error e) :
    ∃ pre a post, l = pre ++ a :: post ∧ (∀ x ∈ pre, ∃ b, f x = .ok b) ∧ f a = .error e := by
  induction l with
  | nil => simp [pure, Except.pure] at h
  | cons a as ih =>
    rw [List.mapM_cons] at h
    cases ha : f a with
    | error e' =>
      simp only [ha, bind, Except.bind, Except.error.injEq] at h
      exact ⟨[], a, as, rfl, by simp, by rw [ha, h]⟩
    | ok b =>
      simp only [ha, bind, Except.bind] at h
      cases hm : as.mapM f with
      | ok bs => simp [hm, pure, Except.pure] at h
      | error e' =>
        simp only [hm, Except.error.injEq] at h
        obtain ⟨pre, x, post, hx, hp, hx'⟩ := ih (by rw [hm, h])
        exact ⟨a :: pre, x, post, by rw [hx]; rfl, List.forall_mem_cons.mpr ⟨⟨b, ha⟩, hp⟩, hx'⟩

theorem ok_of_mapM {α β : Type} {f : α → Except PyErr β} {l : List α} {bs : List β} (h : l.mapM f = .ok bs) : ∀ a ∈ l, ∃ b, f a = .ok b := by
  have h' := forall₂_of_mapM h
  clear h
  induction h' with
  | nil => simp
  | cons h _ ih => exact List.forall_mem_cons.mpr ⟨⟨_, h⟩, ih⟩

/-- C64: so a template that worked stops working if a later `parse` fails after the first variable: `substitute` raises what the first of its
variables raises, and `TypeError` if none does. -/
theorem C64_failed_parse_spoils (U : PyUni) (names names' : List Str) (text l text' l' : Str) (ps pre post : List (Str × Str)) (p : Str × Str)
    (subs : List Substitution) (e : PyErr) (t : Template) (h0 : Pieces text l ps) (ht : Template.empty.parse U text names = .ok t)
    (h : Pieces text' l' (pre ++ p :: post))
    (hs : List.Forall₂ (fun p s => Substitution.parse U (doubled p.1) names' = .ok s) pre subs)
    (hp : Substitution.parse U (doubled p.1) names' = .error e) (hne : pre ≠ []) (ext : Externals) (d : Dictionary) :
    ∃ e', (t.parseState U text' names').1.substitute U ext d = .error e' ∧
      ((∃ before s after, t.substitutions ++ subs = before ++ s :: after ∧ (∀ b ∈ before, ∃ x, b.getText U ext d = .ok x) ∧
          s.getText U ext d = .error e') ∨
        e' = .TypeError ∧ ∀ s ∈ t.substitutions ++ subs, ∃ x, s.getText U ext d = .ok x) := by
  obtain ⟨h1, h2⟩ := (C45_parse U names text l ps t h0).mp ht
  rw [C64_failed_parse U t names' text' l' pre post p subs e h hs hp]
  unfold Template.substitute
  rw [h2]
  cases hm : (t.substitutions ++ subs).mapM fun s => s.getText U ext d with
  | error e' => exact ⟨e', by simp [bind, Except.bind], .inl (first_of_mapM_error hm)⟩
  | ok texts =>
    refine ⟨.TypeError, ?_, .inr ⟨rfl, ok_of_mapM hm⟩⟩
    simp only [bind, Except.bind]
    refine pyFormat_template_short _ _ _ _ ?_
    have hl := (forall₂_of_mapM hm).length_eq
    rw [List.length_append, ← h1.length_eq, ← hs.length_eq] at hl
    have := List.length_pos_iff.mpr hne
    omega

/-! ## Splitting -/

theorem split_of_not_mem {sep : Char} {p : Str} (h : sep ∉ p) : split sep p = [p] := by
  induction p with
  | nil => rfl
  | cons c cs ih =>
    simp only [List.mem_cons, not_or] at h
    rw [split, if_neg (fun e => h.1 e.symm), ih h.2]

theorem split_append {sep : Char} {p s : Str} (h : sep ∉ p) : split sep (p ++ sep :: s) = p :: split sep s := by
  induction p with
  | nil => simp [split]
  | cons c cs ih =>
    simp only [List.mem_cons, not_or] at h
    rw [List.cons_append, split, if_neg (fun e => h.1 e.symm), ih h.2]

theorem split_flatMap {sep : Char} {head : Str} {slugs : List Str} (h : sep ∉ head) (hs : ∀ s ∈ slugs, sep ∉ s) :
    split sep (head ++ slugs.flatMap (sep :: ·)) = head :: slugs := by
  induction slugs generalizing head with
  | nil => simpa using split_of_not_mem h
  | cons s ss ih =>
    rw [List.flatMap_cons, List.cons_append, split_append h, ih (hs s (by simp)) (fun x hx => hs x (List.mem_cons_of_mem _ hx))]

theorem intercalate_cons (sep : Char) (p : Str) (ps : List Str) : [sep].intercalate (p :: ps) = p ++ ps.flatMap (sep :: ·) := by
  induction ps generalizing p with
  | nil => simp [List.intercalate]
  | cons q qs ih =>
    have : [sep].intercalate (p :: q :: qs) = p ++ sep :: [sep].intercalate (q :: qs) := by
      simp [List.intercalate, List.intersperse]
    rw [this, ih]; simp

theorem split_intercalate {sep : Char} {ids : List Str} (hne : ids ≠ []) (h : ∀ id ∈ ids, sep ∉ id) :
    split sep ([sep].intercalate ids) = ids := by
  cases ids with
  | nil => exact absurd rfl hne
  | cons p ps => rw [intercalate_cons, split_flatMap (h p (by simp)) (fun x hx => h x (List.mem_cons_of_mem _ hx))]

theorem split_exists (sep : Char) (s : Str) : ∃ (head : Str) (slugs : List Str), s = head ++ slugs.flatMap (sep :: ·) ∧ sep ∉ head ∧ ∀ x ∈ slugs, sep ∉ x := by
  induction s with
  | nil => exact ⟨[], [], rfl, by simp, by simp⟩
  | cons c cs ih =>
    obtain ⟨head, slugs, h1, h2, h3⟩ := ih
    by_cases hc : c = sep
    · subst hc
      refine ⟨[], head :: slugs, by rw [h1]; simp, by simp, ?_⟩
      intro x hx
      rcases List.mem_cons.mp hx with rfl | hx
      · exact h2
      · exact h3 x hx
    · exact ⟨c :: head, slugs, by rw [h1]; rfl, by simp only [List.mem_cons, not_or]; exact ⟨fun e => hc e.symm, h2⟩, h3⟩

theorem slice_bracketed (head : Str) (slugs : List Str) : slice1m1 (bracketed head slugs) = head ++ slugs.flatMap ('|' :: ·) := by
  unfold slice1m1 bracketed
  simp

/-! ## Stripping -/

theorem dropWhile_spec {p : Char → Bool} (s : Str) : ∃ a, s = a ++ s.dropWhile p ∧ (∀ c ∈ a, p c = true) ∧
    ∀ c, (s.dropWhile p).head? = some c → p c = false := by
  induction s with
  | nil => exact ⟨[], rfl, by simp, by simp⟩
  | cons c cs ih =>
    obtain ⟨a, h1, h2, h3⟩ := ih
    cases hc : p c with
    | true =>
      rw [List.dropWhile_cons_of_pos hc]
      refine ⟨c :: a, by rw [List.cons_append, ← h1], ?_, h3⟩
      intro x hx; rcases List.mem_cons.mp hx with rfl | hx
      · exact hc
      · exact h2 x hx
    | false =>
      rw [List.dropWhile_cons_of_neg (by simp [hc])]
      exact ⟨[], rfl, by simp, by intro x hx; simp at hx; subst hx; exact hc⟩

theorem dropWhile_append_space {p : Char → Bool} {a t : Str} (ha : ∀ c ∈ a, p c = true) (ht : ∀ c, t.head? = some c → p c = false) :
    (a ++ t).dropWhile p = t := by
  induction a with
  | nil =>
    cases t with
    | nil => rfl
    | cons c cs => rw [List.nil_append, List.dropWhile_cons_of_neg (by simp [ht c rfl])]
  | cons c cs ih =>
    rw [List.cons_append, List.dropWhile_cons_of_pos (ha c (by simp)), ih (fun x hx => ha x (List.mem_cons_of_mem _ hx))]

theorem strip_stripped (U : PyUni) (s : Str) : Stripped U s (strip U s) := by
  unfold strip lstrip
  obtain ⟨a, h1, h2, h3⟩ := dropWhile_spec (p := U.isSpace) s
  obtain ⟨b, h4, h5, h6⟩ := dropWhile_spec (p := U.isSpace) (s.dropWhile U.isSpace).reverse
  generalize hx : s.dropWhile U.isSpace = x at *
  generalize hy : x.reverse.dropWhile U.isSpace = y at *
  have h4' : x = y.reverse ++ b.reverse := by rw [← List.reverse_append, ← h4, List.reverse_reverse]
  refine ⟨a, b.reverse, by rw [List.append_assoc, ← h4', ← h1], h2, by simpa using h5, ?_, ?_⟩
  · intro c hc
    apply h3
    rw [h4']
    cases hr : y.reverse with
    | nil => rw [hr] at hc; simp at hc
    | cons z zs => rw [hr] at hc; simpa using hc
  · intro c hc; rw [List.getLast?_reverse] at hc; exact h6 c hc

theorem strip_eq {U : PyUni} {s t : Str} (h : Stripped U s t) : strip U s = t := by
  obtain ⟨a, b, rfl, ha, hb, h1, h2⟩ := h
  unfold strip lstrip
  cases t with
  | nil =>
    have hall : ∀ c ∈ a ++ [] ++ b, U.isSpace c = true := by
      intro c hc; simp at hc; rcases hc with hc | hc
      · exact ha c hc
      · exact hb c hc
    have := dropWhile_append_space (t := []) hall (by simp)
    rw [List.append_nil] at this
    rw [this]; rfl
  | cons c cs =>
    rw [List.append_assoc, dropWhile_append_space ha (by intro x hx; exact h1 x (by simpa using hx)), List.reverse_append,
      dropWhile_append_space (by simpa using hb) (by intro x hx; rw [List.head?_reverse] at hx; exact h2 x hx), List.reverse_reverse]

theorem stripped_unique {U : PyUni} {s t t' : Str} (h : Stripped U s t) (h' : Stripped U s t') : t = t' := by
  rw [← strip_eq h, strip_eq h']

/-! ## Property lists -/

theorem verboseId_injective {r r' : Rec} (h : r.verboseId = r'.verboseId) : r = r' := by
  have key : ∀ a ∈ Group.all.flatMap Group.records, ∀ b ∈ Group.all.flatMap Group.records, a.verboseId = b.verboseId → a = b := by
    decide +kernel
  have hm : ∀ r : Rec, r ∈ Group.all.flatMap Group.records := by
    intro r; rw [List.mem_flatMap]; exact ⟨r.group, group_mem_all _, mem_records_iff.mpr rfl⟩
  exact key r (hm r) r' (hm r') h

theorem verboseToProperties_eq : verboseToProperties = (Group.all.flatMap Group.records).map fun r => (r.verboseId, r) := by decide +kernel

theorem verbose_get? (id : Str) (r : Rec) : verboseToProperties.get? id = some r ↔ r.verboseId = id := by
  have hm : ∀ r : Rec, r ∈ Group.all.flatMap Group.records := by
    intro r; rw [List.mem_flatMap]; exact ⟨r.group, group_mem_all _, mem_records_iff.mpr rfl⟩
  rw [verboseToProperties_eq]
  constructor
  · intro h
    have := Dict.mem_of_get? h
    simp only [List.mem_map] at this
    obtain ⟨r', _, e⟩ := this
    injection e with e1 e2; subst e2; exact e1
  · rintro rfl
    have key : ∀ l : List Rec, r ∈ l → Dict.get? (l.map fun r => (r.verboseId, r)) r.verboseId = some r := by
      intro l
      induction l with
      | nil => simp
      | cons x xs ih =>
        intro hx
        rw [List.map_cons, Dict.get?]
        split
        · rename_i h; rw [verboseId_injective h]
        · rename_i h
          rcases List.mem_cons.mp hx with rfl | hx
          · exact absurd rfl h
          · exact ih hx
    exact key _ (hm r)

theorem verbose_none {id : Str} (h : ∀ r : Rec, r.verboseId ≠ id) : verboseToProperties.get? id = none := by
  cases hg : verboseToProperties.get? id with
  | none => rfl
  | some r => exact absurd ((verbose_get? id r).mp hg) (h r)

theorem verboseId_ne_nil (r : Rec) : r.verboseId ≠ [] := by cases r <;> decide
theorem verboseId_no_comma (r : Rec) : ',' ∉ r.verboseId := by cases r <;> decide

theorem parsePropertiesLoop_ok {ids : List Str} {rs : List Rec} (h : ids.filter (· ≠ []) = rs.map Rec.verboseId) :
    parsePropertiesLoop ids = .ok rs := by
  induction ids generalizing rs with
  | nil => cases rs with
    | nil => rfl
    | cons r rs => simp at h
  | cons id ids ih =>
    unfold parsePropertiesLoop
    by_cases hid : id = []
    · rw [if_pos hid]; exact ih (by simpa [hid] using h)
    · rw [if_neg hid]
      rw [List.filter_cons_of_pos (by simp [hid])] at h
      cases rs with
      | nil => simp at h
      | cons r rs =>
        rw [List.map_cons, List.cons.injEq] at h
        rw [(verbose_get? id r).mpr h.1.symm]
        simp [ih h.2, bind, Except.bind]

theorem parsePropertiesLoop_bad {good others : List Str} {bad : Str} (hg : ∀ id ∈ good, id = [] ∨ ∃ r : Rec, r.verboseId = id)
    (hb : bad ≠ []) (hbad : ∀ r : Rec, r.verboseId ≠ bad) :
    parsePropertiesLoop (good ++ bad :: others) = .error (.UnknownVerboseIdError bad) := by
  induction good with
  | nil => simp [parsePropertiesLoop, hb, verbose_none hbad]
  | cons id ids ih =>
    rw [List.cons_append]
    unfold parsePropertiesLoop
    have ih := ih (fun x hx => hg x (List.mem_cons_of_mem _ hx))
    split
    · exact ih
    · rename_i hid
      rcases hg id (by simp) with h | ⟨r, h⟩
      · exact absurd h hid
      · rw [(verbose_get? id r).mpr h]; simp [ih, bind, Except.bind]

theorem parseDependency_reads {U : PyUni} {externals : List Str} {slug : Str} {dep : Dep} (h : Reads U externals slug dep) :
    parseDependency U externals slug = .ok dep := by
  obtain ⟨name, hs, h⟩ := h
  unfold parseDependency
  rw [strip_eq hs]
  rcases h with ⟨h1, rfl⟩ | ⟨h1, ids, rs, rfl, hne, hc, hf, rfl⟩
  · simp [h1]
  · simp only [h1, if_false]
    unfold parseProperties
    rw [split_intercalate hne hc, parsePropertiesLoop_ok hf]
    rfl

theorem parseDependency_unreadable {U : PyUni} {externals : List Str} {slug bad : Str} (h : Unreadable U externals slug bad) :
    parseDependency U externals slug = .error (.UnknownVerboseIdError bad) := by
  obtain ⟨name, hs, h1, good, others, rfl, hc, hg, hb, hbad⟩ := h
  unfold parseDependency
  rw [strip_eq hs]
  simp only [h1, if_false]
  unfold parseProperties
  rw [split_intercalate (by simp) hc, parsePropertiesLoop_bad hg hb hbad]
  rfl

theorem reads_total (U : PyUni) (externals : List Str) (slug : Str) :
    (∃ dep, Reads U externals slug dep) ∨ ∃ bad, Unreadable U externals slug bad := by
  have hs := strip_stripped U (U.lower slug)
  generalize strip U (U.lower slug) = name at hs
  by_cases hn : name ∈ externals
  · exact .inl ⟨_, name, hs, .inl ⟨hn, rfl⟩⟩
  obtain ⟨head, slugs, h1, h2, h3⟩ := split_exists ',' name
  have hc : ∀ id ∈ head :: slugs, ',' ∉ id := by
    intro id hid; rcases List.mem_cons.mp hid with rfl | hid
    · exact h2
    · exact h3 id hid
  rw [← intercalate_cons] at h1
  have key : ∀ ids : List Str, (∃ rs : List Rec, ids.filter (· ≠ []) = rs.map Rec.verboseId) ∨
      ∃ good bad others, ids = good ++ bad :: others ∧ (∀ id ∈ good, id = [] ∨ ∃ r : Rec, r.verboseId = id) ∧ bad ≠ [] ∧
        ∀ r : Rec, r.verboseId ≠ bad := by
    intro ids
    induction ids with
    | nil => exact .inl ⟨[], rfl⟩
    | cons id ids ih =>
      by_cases hid : id = []
      · rcases ih with ⟨rs, h⟩ | ⟨good, bad, others, h1, h2, h3, h4⟩
        · exact .inl ⟨rs, by simpa [hid] using h⟩
        · refine .inr ⟨id :: good, bad, others, by rw [h1]; rfl, ?_, h3, h4⟩
          intro x hx; rcases List.mem_cons.mp hx with rfl | hx
          · exact .inl hid
          · exact h2 x hx
      · cases hg : verboseToProperties.get? id with
        | none =>
          refine .inr ⟨[], id, ids, rfl, by simp, hid, ?_⟩
          intro r hr
          rw [(verbose_get? id r).mpr hr] at hg; cases hg
        | some r =>
          have hr := (verbose_get? id r).mp hg
          rcases ih with ⟨rs, h⟩ | ⟨good, bad, others, h1, h2, h3, h4⟩
          · exact .inl ⟨r :: rs, by rw [List.filter_cons_of_pos (by simp [hid]), h, List.map_cons, hr]⟩
          · refine .inr ⟨id :: good, bad, others, by rw [h1]; rfl, ?_, h3, h4⟩
            intro x hx; rcases List.mem_cons.mp hx with rfl | hx
            · exact .inr ⟨r, hr⟩
            · exact h2 x hx
  rcases key (head :: slugs) with ⟨rs, h⟩ | ⟨good, bad, others, h4, h5, h6, h7⟩
  · exact .inl ⟨_, name, hs, .inr ⟨hn, head :: slugs, rs, h1, by simp, hc, h, rfl⟩⟩
  · refine .inr ⟨bad, name, hs, hn, good, others, by rw [h1, h4], ?_, h5, h6, h7⟩
    rw [← h4]; exact hc

theorem parse_bracketed {U : PyUni} {externals : List Str} {head : Str} {slugs : List Str} (h1 : '|' ∉ head)
    (h2 : ∀ s ∈ slugs, '|' ∉ s) (h3 : head ≠ []) :
    Substitution.parse U (bracketed head slugs) externals = (do
      let id := strip U head
      let deps ← slugs.mapM (parseDependency U externals)
      let c ← Py.first id
      let deps := if U.isUpper c then deps ++ [.props (.new [.record .WORD_CASE_UPPER])] else deps
      .ok ⟨U.lower id, deps⟩) := by
  unfold Substitution.parse
  rw [slice_bracketed, split_flatMap h1 h2]
  simp only [h3, if_false]

theorem mapM_reads {U : PyUni} {externals : List Str} {slugs : List Str} {deps : List Dep}
    (h : List.Forall₂ (Reads U externals) slugs deps) : slugs.mapM (parseDependency U externals) = .ok deps := by
  apply mapM_of_forall₂
  exact h.imp fun _ _ hr => parseDependency_reads hr

/-- C46: a variable `[head|slug|slug...]` with a non-blank head. -/
theorem C46_parse (U : PyUni) (externals : List Str) (head : Str) (slugs : List Str) (deps : List Dep) (c : Char) (id : Str)
    (h1 : '|' ∉ head) (h2 : ∀ s ∈ slugs, '|' ∉ s) (hid : Stripped U head (c :: id)) (hd : List.Forall₂ (Reads U externals) slugs deps) :
    Substitution.parse U (bracketed head slugs) externals =
      .ok ⟨U.lower (c :: id), deps ++ if U.isUpper c then [.props (.new [.record .WORD_CASE_UPPER])] else []⟩ := by
  have h3 : head ≠ [] := by
    rintro rfl; obtain ⟨a, b, e, _⟩ := hid; simp at e
  rw [parse_bracketed h1 h2 h3, strip_eq hid]
  simp only [mapM_reads hd, bind, Except.bind, Py.first]
  split <;> simp

/-- C46: an empty head. -/
theorem C46_empty_id (U : PyUni) (externals : List Str) (slugs : List Str) (h2 : ∀ s ∈ slugs, '|' ∉ s) :
    Substitution.parse U (bracketed [] slugs) externals = .error (.WrongDependencyFormatError (bracketed [] slugs)) := by
  unfold Substitution.parse
  rw [slice_bracketed, split_flatMap (by simp) h2]
  simp only [if_true]

/-- C46: a head of white space only is not reported as a format error: `s.id[0]` raises IndexError. -/
theorem C46_blank_id (U : PyUni) (externals : List Str) (head : Str) (slugs : List Str) (deps : List Dep)
    (h1 : '|' ∉ head) (h2 : ∀ s ∈ slugs, '|' ∉ s) (hne : head ≠ []) (hid : Stripped U head [])
    (hd : List.Forall₂ (Reads U externals) slugs deps) :
    Substitution.parse U (bracketed head slugs) externals = .error .IndexError := by
  rw [parse_bracketed h1 h2 hne, strip_eq hid]
  simp only [mapM_reads hd, bind, Except.bind, Py.first]

/-- C46: an unknown property id. -/
theorem C46_unknown_id (U : PyUni) (externals : List Str) (head slug bad : Str) (pre post : List Str) (deps : List Dep)
    (h1 : '|' ∉ head) (h2 : ∀ s ∈ pre ++ slug :: post, '|' ∉ s) (hne : head ≠ [])
    (hd : List.Forall₂ (Reads U externals) pre deps) (hb : Unreadable U externals slug bad) :
    Substitution.parse U (bracketed head (pre ++ slug :: post)) externals = .error (.UnknownVerboseIdError bad) := by
  rw [parse_bracketed h1 h2 hne,
    mapM_of_first (f := parseDependency U externals) (hd.imp fun _ _ hr => parseDependency_reads hr) (parseDependency_unreadable hb)]
  rfl

/-- C46: a variable is `[head|slug...]` in one way only. -/
theorem C46_unique (head head' : Str) (slugs slugs' : List Str) (h1 : '|' ∉ head) (h2 : ∀ s ∈ slugs, '|' ∉ s) (h1' : '|' ∉ head')
    (h2' : ∀ s ∈ slugs', '|' ∉ s) (h : bracketed head slugs = bracketed head' slugs') : head = head' ∧ slugs = slugs' := by
  have := congrArg (fun v => split '|' (slice1m1 v)) h
  simp only [slice_bracketed, split_flatMap h1 h2, split_flatMap h1' h2'] at this
  simpa using this

/-- C46: the four cases cover all variables: each is `[head|slug...]`, its head is empty, blank or not, and
each slug reads as a dependency or has a first unknown id. -/
theorem C46_exhaustive (U : PyUni) (externals : List Str) (v : Str) (hv : IsVariable v) :
    ∃ head slugs, v = bracketed head slugs ∧ '|' ∉ head ∧ (∀ s ∈ slugs, '|' ∉ s) ∧
      (head = [] ∨ head ≠ [] ∧
        ((∃ pre slug post deps bad, slugs = pre ++ slug :: post ∧ List.Forall₂ (Reads U externals) pre deps ∧ Unreadable U externals slug bad) ∨
         ∃ deps, List.Forall₂ (Reads U externals) slugs deps ∧ (Stripped U head [] ∨ ∃ c id, Stripped U head (c :: id)))) := by
  obtain ⟨body, rfl, hb, _⟩ := hv
  obtain ⟨head, slugs, h1, h2, h3⟩ := split_exists '|' body
  refine ⟨head, slugs, by rw [h1]; rfl, h2, h3, ?_⟩
  by_cases hh : head = []
  · exact .inl hh
  refine .inr ⟨hh, ?_⟩
  clear h1 h3 hb
  have key : (∃ pre slug post deps bad, slugs = pre ++ slug :: post ∧ List.Forall₂ (Reads U externals) pre deps ∧ Unreadable U externals slug bad) ∨
      ∃ deps, List.Forall₂ (Reads U externals) slugs deps := by
    induction slugs with
    | nil => exact .inr ⟨[], .nil⟩
    | cons s ss ih =>
      rcases reads_total U externals s with ⟨dep, hr⟩ | ⟨bad, hb⟩
      · rcases ih with ⟨pre, slug, post, deps, bad, h4, h5, h6⟩ | ⟨deps, h⟩
        · exact .inl ⟨s :: pre, slug, post, dep :: deps, bad, by rw [h4]; rfl, .cons hr h5, h6⟩
        · exact .inr ⟨dep :: deps, .cons hr h⟩
      · exact .inl ⟨[], s, ss, [], bad, rfl, .nil, hb⟩
  rcases key with h | ⟨deps, h⟩
  · exact .inl h
  · refine .inr ⟨deps, h, ?_⟩
    have := strip_stripped U head
    cases hs : strip U head with
    | nil => rw [hs] at this; exact .inl this
    | cons c id => rw [hs] at this; exact .inr ⟨c, id, this⟩

/-- Python's methods on the characters used in the examples. -/
def exPy : PyUni where
  lower s := s.map fun c => if 'А'.toNat ≤ c.toNat ∧ c.toNat ≤ 'Я'.toNat then Char.ofNat (c.toNat + 32) else c.toLower
  upperC c := if 'а'.toNat ≤ c.toNat ∧ c.toNat ≤ 'я'.toNat then [Char.ofNat (c.toNat - 32)] else [c.toUpper]
  isUpper c := ('А'.toNat ≤ c.toNat ∧ c.toNat ≤ 'Я'.toNat) || c.isUpper
  isSpace c := c = ' '
  isPrintable _ := true

/-- `[ Монета |Coins| вн,мн]` with an external `coins`. -/
example : Substitution.parse exPy (bracketed (str! " Монета ") [str! "Coins", str! " вн,мн"]) [str! "coins", str! "hero"] =
    .ok ⟨str! "монета", [.ext (str! "coins"), .props (.new [.record .CASE_ACCUSATIVE, .record .NUMBER_PLURAL]),
      .props (.new [.record .WORD_CASE_UPPER])]⟩ := by
  refine C46_parse exPy _ _ _ [_, _] 'М' (str! "онета") (by decide) (by decide) ⟨str! " ", str! " ", by decide, by decide, by decide, by decide, by decide⟩
    (.cons ⟨str! "coins", ⟨[], [], by decide, by simp, by simp, by decide, by decide⟩, .inl ⟨by decide, rfl⟩⟩
      (.cons ⟨str! "вн,мн", ⟨str! " ", [], by decide, by decide, by decide, by decide, by decide⟩,
        .inr ⟨by decide, [str! "вн", str! "мн"], [.CASE_ACCUSATIVE, .NUMBER_PLURAL], by decide, by decide, by decide, by decide, rfl⟩⟩ .nil))

/-- `[a| дт, мн]`: the blank behind the comma belongs to the id. -/
example : Unreadable exPy [] (str! " дт, мн") (str! " мн") :=
  ⟨str! "дт, мн", ⟨str! " ", [], by decide, by decide, by decide, by decide, by decide⟩, by decide,
    [str! "дт"], [], by decide, by decide, by intro id h; simp at h; exact .inr ⟨.CASE_DATIVE, h ▸ rfl⟩, by decide, by intro r; cases r <;> decide⟩

/-- C65 (violated): blanks inside a property list are not ignored - an id with a leading blank behind a comma is unknown. -/
theorem C65_violated :
    Substitution.parse exPy (bracketed (str! "a") [str! "дт,мн"]) [] =
      .ok ⟨str! "a", [.props (.new [.record .CASE_DATIVE, .record .NUMBER_PLURAL])]⟩ ∧
    Substitution.parse exPy (bracketed (str! "a") [str! "дт, мн"]) [] = .error (.UnknownVerboseIdError (str! " мн")) := by
  decide +kernel

/-- C65 (partial): blanks at the ends of a part of a variable are ignored. Missing: blanks next to a comma. -/
theorem C65_outer_blanks_partial (U : PyUni) (externals : List Str) (slug slug' name : Str) (h : Stripped U (U.lower slug) name)
    (h' : Stripped U (U.lower slug') name) (dep : Dep) : Reads U externals slug dep ↔ Reads U externals slug' dep := by
  have key : ∀ a b : Str, Stripped U (U.lower a) name → Stripped U (U.lower b) name → Reads U externals a dep → Reads U externals b dep := by
    rintro a b ha hb ⟨n, hn, hr⟩
    rw [stripped_unique hn ha] at hr
    exact ⟨name, hb, hr⟩
  exact ⟨key _ _ h h', key _ _ h' h⟩

/-- C65 applies: `[a| дт ]` and `[a|дт]`. -/
example : Stripped exPy (exPy.lower (str! " дт ")) (str! "дт") ∧ Stripped exPy (exPy.lower (str! "дт")) (str! "дт") :=
  ⟨⟨[' '], [' '], by decide +kernel, by decide, by decide, by decide, by decide⟩, ⟨[], [], by decide +kernel, by decide, by decide, by decide, by decide⟩⟩

/-- C64 applies: the first variable of `[a] [a|x]` is fine, the second is not. -/
example : Pieces (str! "[a] [a|x]") [] ([(str! "[a]", str! " ")] ++ (str! "[a|x]", []) :: []) ∧
    Substitution.parse exPy (doubled (str! "[a]")) [] = .ok ⟨str! "a", []⟩ ∧
    Substitution.parse exPy (doubled (str! "[a|x]")) [] = .error (.UnknownVerboseIdError (str! "x")) := by
  have hv : ∀ b : Str, b ≠ [] → ']' ∉ b → IsVariable ('[' :: b ++ [']']) := fun b h1 h2 => ⟨b, rfl, h1, h2⟩
  refine ⟨?_, by decide +kernel, by decide +kernel⟩
  have q := Pieces.var (str! " ") (str! "[a|x]") [] [] [] (isLiteral_cons.mpr ⟨fun h => absurd h (by decide), isLiteral_nil⟩)
    (hv (str! "a|x") (by decide) (by decide)) (.last [] (isFinal_of_isLiteral isLiteral_nil))
  have := Pieces.var [] (str! "[a]") _ _ _ isLiteral_nil (hv (str! "a") (by decide) (by decide)) q
  simpa using this

/-! ## C52 -/

/-- C52 (partial): `parse` on an object without substitutions, whatever its text, makes it the template of the new text. -/
theorem C52_fresh_partial (U : PyUni) (t : Template) (h : t.substitutions = []) (names : List Str) (text : Str) :
    t.parse U text names = Template.empty.parse U text names := by
  unfold Template.parse Template.parseState
  rw [h]
  simp only [Template.empty]
  generalize parseLoop U names (findall (replaceChar '%' (str! "%%") text)) [] (replaceChar '%' (str! "%%") text) = x
  obtain ⟨subs, r | r⟩ := x <;> rfl

/-- C52 (violated): if a template object with at least one variable is parsed again, substitution never succeeds - although a
fresh object would do. -/
theorem C52_violated (U : PyUni) (names names' : List Str) (text l text' l' : Str) (ps ps' : List (Str × Str)) (t t' : Template)
    (h : Pieces text l ps) (h' : Pieces text' l' ps') (ht : Template.empty.parse U text names = .ok t) (ht' : t.parse U text' names' = .ok t')
    (hne : ps ≠ []) (ext : Externals) (d : Dictionary) :
    ∃ e, t'.substitute U ext d = .error e ∧
      ((∃ before s after, t'.substitutions = before ++ s :: after ∧ (∀ b ∈ before, ∃ x, b.getText U ext d = .ok x) ∧
          s.getText U ext d = .error e) ∨
        e = .TypeError ∧ ∀ s ∈ t'.substitutions, ∃ x, s.getText U ext d = .ok x) := by
  obtain ⟨h1, h2⟩ := (C45_parse U names text l ps t h).mp ht
  rcases forall₂_or_first (fun p : Str × Str => Substitution.parse U (doubled p.1) names') ps' with ⟨subs, hs⟩ | ⟨pre, p, post, subs, e', k1, k2, k3⟩
  · rw [parse_ok_of h' hs] at ht'
    injection ht' with ht'; subst ht'
    unfold Template.substitute
    simp only
    cases hm : (t.substitutions ++ subs).mapM fun s => s.getText U ext d with
    | error e' => exact ⟨e', by simp [bind, Except.bind], .inl (first_of_mapM_error hm)⟩
    | ok texts =>
      refine ⟨.TypeError, ?_, .inr ⟨rfl, ok_of_mapM hm⟩⟩
      simp only [bind, Except.bind]
      refine pyFormat_template_short _ _ _ _ ?_
      have hl := (forall₂_of_mapM hm).length_eq
      rw [List.length_append, ← h1.length_eq, ← hs.length_eq] at hl
      have := List.length_pos_iff.mpr hne
      omega
  · unfold Template.parse at ht'
    rw [(parseState_pieces U _ names' h').2 pre p post subs e' k1 k2 k3] at ht'
    cases ht'

/-- The same text parsed twice: the fresh template works, the reused one raises TypeError. -/
example : ∃ t t', Template.empty.parse exPy (str! "[a]!") [str! "a"] = .ok t ∧ t.parse exPy (str! "[a]!") [str! "a"] = .ok t' ∧
    t.substitute exPy [(str! "a", WordForm.new exNoun)] [] = .ok (str! "a!") ∧
    t'.substitute exPy [(str! "a", WordForm.new exNoun)] [] = .error .TypeError := by
  refine ⟨⟨[⟨str! "a", []⟩], some (str! "%s!")⟩, ⟨[⟨str! "a", []⟩, ⟨str! "a", []⟩], some (str! "%s!")⟩, by decide +kernel, by decide +kernel,
    by decide +kernel, by decide +kernel⟩

/-! ## C53 -/

theorem join_eq_intercalate (sep : Char) (ps : List Str) : join sep ps = [sep].intercalate ps := by
  induction ps with
  | nil => rfl
  | cons p ps ih =>
    cases ps with
    | nil => simp [join, List.intercalate]
    | cons q qs => rw [join, ih, intercalate_cons, intercalate_cons]; simp

/-- The records of a Properties object in printing order. -/
def printed (p : Properties) : List Rec := propertyTypeRecords.filterMap fun g => p.data.get? g

theorem toText_interior (p : Properties) : slice1m1 p.toText = [','].intercalate ((printed p).map Rec.verboseId) := by
  have : (propertyTypeRecords.filterMap fun g => (p.data.get? g).map Rec.verboseId) = (printed p).map Rec.verboseId := by
    unfold printed; rw [List.map_filterMap]
  unfold Properties.toText slice1m1
  rw [this, join_eq_intercalate]; simp

theorem parse_printed (p : Properties) : parseProperties (slice1m1 p.toText) = .ok (.new ((printed p).map .record)) := by
  rw [toText_interior]
  unfold parseProperties
  have hf : ∀ rs : List Rec, (rs.map Rec.verboseId).filter (· ≠ []) = rs.map Rec.verboseId := by
    intro rs; rw [List.filter_eq_self]; intro x hx
    simp only [List.mem_map] at hx
    obtain ⟨r, _, rfl⟩ := hx
    exact decide_eq_true (verboseId_ne_nil r)
  cases hr : printed p with
  | nil => rfl
  | cons r rs =>
    rw [split_intercalate (by simp) (by
      intro id hid; simp only [List.mem_map] at hid
      obtain ⟨r, _, rfl⟩ := hid
      exact verboseId_no_comma r), parsePropertiesLoop_ok (hf _)]
    rfl

theorem mem_printed {p : Properties} (hp : WFProps p) {r : Rec} : r ∈ printed p ↔ p.data.get? r.group = some r := by
  unfold printed
  rw [List.mem_filterMap]
  constructor
  · rintro ⟨g, _, h⟩
    rw [wf_group hp h]; exact h
  · intro h; exact ⟨r.group, by cases r.group <;> decide, h⟩

theorem printed_get? {p : Properties} (hp : WFProps p) (g : Group) :
    (Properties.new ((printed p).map .record)).data.get? g = p.data.get? g := by
  rw [new_get? (wfargs_records _)]
  cases h : p.data.get? g with
  | none =>
    rw [List.findSome?_eq_none_iff]
    intro a ha
    simp only [List.mem_reverse, List.mem_map] at ha
    obtain ⟨r, hr, rfl⟩ := ha
    have h1 := (mem_printed hp).mp hr
    simp only [argGet]
    split
    · rename_i hg; rw [hg, h] at h1; cases h1
    · rfl
  | some r =>
    have hg := wf_group hp h
    refine findSome?_functional (a := .record r) ?_ (by simp [argGet, hg]) ?_
    · simp only [List.mem_reverse, List.mem_map]
      exact ⟨r, (mem_printed hp).mpr (by rw [hg]; exact h), rfl⟩
    · intro a ha b hb
      simp only [List.mem_reverse, List.mem_map] at ha
      obtain ⟨r', hr', rfl⟩ := ha
      simp only [argGet] at hb
      split at hb
      · rename_i hg'
        have h1 := (mem_printed hp).mp hr'
        injection hb with hb; subst hb
        rw [hg', h] at h1; injection h1 with h1; exact h1.symm
      · cases hb

/-- C53: the printed text is a bracketed list of property ids; parsing the list gives an equal object back. -/
theorem C53_print_parse (p : Properties) (hp : WFProps p) :
    ∃ (inner : Str) (q : Properties), p.toText = '(' :: inner ++ [')'] ∧ parseProperties inner = .ok q ∧ q.eq p = true := by
  refine ⟨slice1m1 p.toText, _, ?_, parse_printed p, ?_⟩
  · unfold Properties.toText slice1m1; simp
  · rw [eq_iff_get? (wf_new (wfargs_records _)) hp]; exact printed_get? hp

/-- C53: two objects are equal iff they print the same. -/
theorem C53_print_injective (p q : Properties) (hp : WFProps p) (hq : WFProps q) : p.eq q = true ↔ p.toText = q.toText := by
  rw [eq_iff_get? hp hq]
  constructor
  · intro h; unfold Properties.toText; simp only [h]
  · intro h g
    have h1 := parse_printed p
    rw [h, parse_printed q] at h1
    injection h1 with h1
    rw [← printed_get? hp, ← h1, printed_get? hq]

/-- C53: every documented id denotes the documented value, every value has exactly one id, and nothing else is an id. -/
theorem C53_readme_ids :
    (∀ x ∈ readmeIds, parseProperties x.1 = .ok (.new [.record x.2])) ∧
    (∀ r : Rec, ∃ id, (id, r) ∈ readmeIds ∧ ∀ id', (id', r) ∈ readmeIds → id' = id) ∧
    (∀ id : Str, id ≠ [] → ',' ∉ id → id ∉ readmeIds.map Prod.fst → parseProperties id = .error (.UnknownVerboseIdError id)) := by
  have hv : ∀ r : Rec, (r.verboseId, r) ∈ readmeIds := by
    have : ∀ r ∈ Group.all.flatMap Group.records, (r.verboseId, r) ∈ readmeIds := by decide +kernel
    intro r
    exact this r (by rw [List.mem_flatMap]; exact ⟨r.group, group_mem_all _, mem_records_iff.mpr rfl⟩)
  refine ⟨by decide +kernel, fun r => ⟨r.verboseId, hv r, ?_⟩, ?_⟩
  · intro id' h'
    have : ∀ x ∈ readmeIds, x.2.verboseId = x.1 := by decide +kernel
    exact (this _ h').symm
  · intro id hne hc hno
    unfold parseProperties
    rw [split_of_not_mem hc]
    have := parsePropertiesLoop_bad (good := []) (others := []) (bad := id) (by simp) hne (by
      rintro r rfl
      exact hno (List.mem_map.mpr ⟨_, hv r, rfl⟩))
    rw [List.nil_append] at this
    rw [this]; rfl

example : WFProps exRequest ∧ exRequest.toText = str! "(тв,мн)" := ⟨exRequest_wf, by decide +kernel⟩

end Utg
