import Verif.Spec.Templates
/-! # Lemmas about template texts -/

namespace Utg
open Py Spec

theorem replaceChar_eq_doubled (s : Str) : replaceChar '%' (str! "%%") s = doubled s := by
  unfold replaceChar
  induction s with
  | nil => rfl
  | cons c cs ih => rw [List.flatMap_cons, ih]; simp only [doubled]; split <;> rfl

theorem doubled_append (a b : Str) : doubled (a ++ b) = doubled a ++ doubled b := by
  induction a with
  | nil => rfl
  | cons c cs ih => simp only [List.cons_append, doubled, ih]; split <;> rfl

theorem mem_doubled {c : Char} {s : Str} : c ∈ doubled s ↔ c ∈ s := by
  induction s with
  | nil => simp [doubled]
  | cons d s ih => unfold doubled; split <;> simp_all

theorem doubled_eq_nil {s : Str} : doubled s = [] ↔ s = [] := by
  cases s with
  | nil => simp [doubled]
  | cons c cs => unfold doubled; split <;> simp

theorem isLiteral_nil : IsLiteral [] := by intro a b h; simp at h

theorem isLiteral_cons {c : Char} {cs : Str} : IsLiteral (c :: cs) ↔ (c = '[' → ∃ b, cs = ']' :: b) ∧ IsLiteral cs := by
  constructor
  · intro h
    refine ⟨fun hc => h [] cs (by rw [hc]; rfl), fun a b e => h (c :: a) b (by rw [e]; rfl)⟩
  · rintro ⟨h1, h2⟩ a b e
    cases a with
    | nil => simp at e; obtain ⟨e1, e2⟩ := e; subst e2; exact h1 e1
    | cons x a => simp at e; exact h2 a b e.2

theorem isLiteral_append {a b : Str} (ha : IsLiteral a) (hb : IsLiteral b) : IsLiteral (a ++ b) := by
  induction a with
  | nil => exact hb
  | cons c cs ih =>
    obtain ⟨h1, h2⟩ := isLiteral_cons.mp ha
    refine isLiteral_cons.mpr ⟨fun hc => ?_, ih h2⟩
    obtain ⟨b', e⟩ := h1 hc
    exact ⟨b' ++ b, by rw [e]; rfl⟩

theorem isLiteral_doubled {l : Str} (h : IsLiteral l) : IsLiteral (doubled l) := by
  induction l with
  | nil => exact h
  | cons c cs ih =>
    obtain ⟨h1, h2⟩ := isLiteral_cons.mp h
    unfold doubled
    split
    · exact isLiteral_cons.mpr ⟨fun e => by simp at e, isLiteral_cons.mpr ⟨fun e => by simp at e, ih h2⟩⟩
    · refine isLiteral_cons.mpr ⟨fun e => ?_, ih h2⟩
      obtain ⟨b, rfl⟩ := h1 e
      exact ⟨doubled b, by simp [doubled]⟩

theorem isVariable_doubled {v : Str} (h : IsVariable v) : IsVariable (doubled v) := by
  obtain ⟨body, rfl, h1, h2⟩ := h
  refine ⟨doubled body, ?_, fun e => h1 (doubled_eq_nil.mp e), fun e => h2 (mem_doubled.mp e)⟩
  have : '[' :: body ++ [']'] = '[' :: (body ++ [']']) := rfl
  rw [this]
  show doubled ('[' :: (body ++ [']'])) = _
  simp [doubled, doubled_append]

theorem isFinal_cons {c : Char} {cs : Str} : IsFinalLiteral (c :: cs) ↔
    (c = '[' → ∀ body b, cs = body ++ ']' :: b → ']' ∉ body → body = []) ∧ IsFinalLiteral cs := by
  constructor
  · intro h
    refine ⟨fun hc body b e => h [] body b (by rw [hc, e]; rfl), fun a body b e => h (c :: a) body b (by rw [e]; rfl)⟩
  · rintro ⟨h1, h2⟩ a body b e
    cases a with
    | nil => simp at e; obtain ⟨e1, e2⟩ := e; exact h1 e1 body b e2
    | cons x a => simp at e; exact h2 a body b (by simpa using e.2)

/-- Splitting at the first `]`. -/
theorem split_at_close (cs : Str) : ']' ∉ cs ∨ ∃ body b, cs = body ++ ']' :: b ∧ ']' ∉ body := by
  by_cases h : ']' ∈ cs
  · obtain ⟨body, b, e, hb⟩ := List.eq_append_cons_of_mem h
    exact Or.inr ⟨body, b, e, hb⟩
  · exact Or.inl h

theorem takeWhile_close {body b : Str} (h : ']' ∉ body) :
    (body ++ ']' :: b).takeWhile (· ≠ ']') = body ∧ (body ++ ']' :: b).dropWhile (· ≠ ']') = ']' :: b := by
  have hb : ∀ x ∈ body, (decide (x ≠ ']')) = true := by
    intro x hx; simp; rintro rfl; exact h hx
  constructor
  · rw [List.takeWhile_append_of_pos hb]; simp
  · rw [List.dropWhile_append_of_pos hb]; simp

theorem takeWhile_noclose {cs : Str} (h : ']' ∉ cs) : cs.dropWhile (· ≠ ']') = [] := by
  induction cs with
  | nil => rfl
  | cons c cs ih =>
    simp only [List.mem_cons, not_or] at h
    have : decide (c ≠ ']') = true := decide_eq_true (fun e => h.1 e.symm)
    rw [List.dropWhile_cons, this]; simpa using ih h.2

theorem findallAux_final {l : Str} (n : Nat) (h : IsFinalLiteral l) : findallAux n l = [] := by
  induction l generalizing n with
  | nil => cases n <;> rfl
  | cons c cs ih =>
    cases n with
    | zero => rfl
    | succ n =>
      obtain ⟨h1, h2⟩ := isFinal_cons.mp h
      unfold findallAux
      by_cases hc : c = '['
      · rw [if_pos hc]
        rcases split_at_close cs with hcl | ⟨body, b, e, hb⟩
        · rw [takeWhile_noclose hcl]
          cases cs.takeWhile (· ≠ ']') <;> exact ih n h2
        · have := h1 hc body b e hb
          subst this
          have ht := takeWhile_close (b := b) hb
          rw [← e] at ht
          rw [ht.1, ht.2]
          exact ih n h2
      · rw [if_neg hc]; exact ih n h2

theorem findallAux_var {l v rest : Str} (n : Nat) (hl : IsLiteral l) (hv : IsVariable v)
    (hn : (l ++ v ++ rest).length ≤ n) : ∃ m, rest.length ≤ m ∧ findallAux n (l ++ v ++ rest) = v :: findallAux m rest := by
  induction l generalizing n with
  | nil =>
    obtain ⟨body, rfl, h1, h2⟩ := hv
    simp only [List.nil_append, List.length_append, List.length_cons, List.length_nil] at hn
    obtain ⟨n, rfl⟩ : ∃ k, n = k + 1 := ⟨n - 1, by omega⟩
    refine ⟨n, by omega, ?_⟩
    have e : [] ++ ('[' :: body ++ [']']) ++ rest = '[' :: (body ++ ']' :: rest) := by simp
    rw [e]
    rw [findallAux]
    obtain ⟨ht1, ht2⟩ := takeWhile_close (b := rest) h2
    rw [if_pos rfl, ht1, ht2]
    cases body with
    | nil => exact absurd rfl h1
    | cons x xs => rfl
  | cons c cs ih =>
    simp only [List.cons_append, List.length_cons] at hn
    obtain ⟨n, rfl⟩ : ∃ k, n = k + 1 := ⟨n - 1, by omega⟩
    obtain ⟨h1, h2⟩ := isLiteral_cons.mp hl
    obtain ⟨m, hm1, hm2⟩ := ih n h2 (by omega)
    refine ⟨m, hm1, ?_⟩
    simp only [List.cons_append]
    rw [findallAux]
    by_cases hc : c = '['
    · rw [if_pos hc]
      obtain ⟨b, rfl⟩ := h1 hc
      have : (']' :: b ++ v ++ rest).takeWhile (· ≠ ']') = [] := by simp
      rw [this]
      exact hm2
    · rw [if_neg hc]; exact hm2

/-- The matches of the regular expression are the variables of the pieces. -/
theorem findallAux_pieces {text l : Str} {ps : List (Str × Str)} (h : Pieces text l ps) :
    ∀ n, text.length ≤ n → findallAux n text = ps.map Prod.fst := by
  induction h with
  | last l hl => intro n _; rw [findallAux_final n hl]; rfl
  | var l v text l' rest hl hv _ ih =>
    intro n hn
    obtain ⟨m, hm1, hm2⟩ := findallAux_var n hl hv hn
    rw [hm2, ih m hm1]; rfl

theorem findall_pieces {text l : Str} {ps : List (Str × Str)} (h : Pieces text l ps) : findall text = ps.map Prod.fst :=
  findallAux_pieces h _ (Nat.le_refl _)

theorem isFinal_doubled {l : Str} (h : IsFinalLiteral l) : IsFinalLiteral (doubled l) := by
  induction l with
  | nil => exact h
  | cons c cs ih =>
    obtain ⟨h1, h2⟩ := isFinal_cons.mp h
    unfold doubled
    split
    · exact isFinal_cons.mpr ⟨fun e => by simp at e, isFinal_cons.mpr ⟨fun e => by simp at e, ih h2⟩⟩
    · refine isFinal_cons.mpr ⟨fun e body b eb hb => ?_, ih h2⟩
      rcases split_at_close cs with hcl | ⟨body', b', e', hb'⟩
      · exfalso
        have : ']' ∈ doubled cs := by rw [eb]; simp
        exact hcl (mem_doubled.mp this)
      · have := h1 e body' b' e' hb'
        subst this
        rw [e'] at eb
        simp [doubled] at eb
        cases body with
        | nil => rfl
        | cons x xs =>
          simp at eb
          rw [← eb.1] at hb; simp at hb

theorem pieces_doubled {text l : Str} {ps : List (Str × Str)} (h : Pieces text l ps) :
    Pieces (doubled text) (doubled l) (ps.map fun p => (doubled p.1, doubled p.2)) := by
  induction h with
  | last l hl => exact .last _ (isFinal_doubled hl)
  | var l v text l' rest hl hv _ ih =>
    rw [doubled_append, doubled_append]
    exact .var _ _ _ _ _ (isLiteral_doubled hl) (isVariable_doubled hv) ih

theorem isFinal_of_isLiteral {l : Str} (h : IsLiteral l) : IsFinalLiteral l := by
  intro a body b e hb
  obtain ⟨b', h1⟩ := h a (body ++ ']' :: b) (by rw [e]; simp)
  cases body with
  | nil => rfl
  | cons x xs => simp at h1; rw [h1.1] at hb; simp at hb

/-- Every text splits into pieces. -/
theorem pieces_exist (text : Str) : ∃ l ps, Pieces text l ps := by
  induction hn : text.length using Nat.strongRecOn generalizing text with
  | _ n ih =>
  -- find the first variable
  have key : IsFinalLiteral text ∨ ∃ l v rest, text = l ++ v ++ rest ∧ IsLiteral l ∧ IsVariable v := by
    clear ih hn
    induction text with
    | nil => left; intro a body b e; simp at e
    | cons c cs ih =>
      by_cases hc : c = '['
      · subst hc
        rcases split_at_close cs with hcl | ⟨body, b, e, hb⟩
        · left
          refine isFinal_cons.mpr ⟨fun _ body b e => absurd (by rw [e]; simp) hcl, ?_⟩
          intro a body b e; exact absurd (by rw [e]; simp) hcl
        · cases body with
          | nil =>
            rcases ih with ih | ⟨l, v, rest, e1, e2, e3⟩
            · left
              refine isFinal_cons.mpr ⟨fun _ body' b' e' hb' => ?_, ih⟩
              rw [e] at e'
              cases body' with
              | nil => rfl
              | cons x xs => simp at e'; rw [← e'.1] at hb'; simp at hb'
            · right
              refine ⟨'[' :: l, v, rest, by rw [e1]; rfl, isLiteral_cons.mpr ⟨fun _ => ?_, e2⟩, e3⟩
              cases l with
              | nil =>
                obtain ⟨bd, rfl, _, _⟩ := e3
                rw [e] at e1; simp at e1
              | cons x xs =>
                rw [e] at e1; simp at e1
                exact ⟨xs, by rw [e1.1]⟩
          | cons x xs =>
            right
            exact ⟨[], '[' :: (x :: xs) ++ [']'], b, by rw [e]; simp, isLiteral_nil, ⟨x :: xs, rfl, by simp, hb⟩⟩
      · rcases ih with ih | ⟨l, v, rest, e1, e2, e3⟩
        · left; exact isFinal_cons.mpr ⟨fun e => absurd e hc, ih⟩
        · right; exact ⟨c :: l, v, rest, by rw [e1]; rfl, isLiteral_cons.mpr ⟨fun e => absurd e hc, e2⟩, e3⟩
  rcases key with hf | ⟨l, v, rest, e, hl, hv⟩
  · exact ⟨text, [], .last _ hf⟩
  · have hlt : rest.length < n := by
      obtain ⟨bd, rfl, _, _⟩ := hv
      rw [← hn, e]; simp; omega
    obtain ⟨l', ps, hp⟩ := ih rest.length hlt rest rfl
    exact ⟨l, _, by rw [e]; exact .var _ _ _ _ _ hl hv hp⟩

/-- Replacing the first occurrence of a variable behind literal text. -/
theorem replaceFirst_literal {p v rest new : Str} (hp : IsLiteral p) (hv : IsVariable v) :
    replaceFirst v new (p ++ v ++ rest) = p ++ new ++ rest := by
  induction p with
  | nil =>
    obtain ⟨body, rfl, _, _⟩ := hv
    simp only [List.nil_append]
    generalize hV : '[' :: body ++ [']'] = V
    have hc : ∃ cs, V ++ rest = '[' :: cs := ⟨body ++ ']' :: rest, by rw [← hV]; simp⟩
    obtain ⟨cs, hcs⟩ := hc
    rw [hcs]
    unfold replaceFirst
    rw [← hcs]
    have : V.isPrefixOf (V ++ rest) = true := by rw [List.isPrefixOf_iff_prefix]; exact List.prefix_append _ _
    rw [if_pos this]; simp
  | cons c cs ih =>
    obtain ⟨h1, h2⟩ := isLiteral_cons.mp hp
    simp only [List.cons_append]
    unfold replaceFirst
    have hno : ¬ v.isPrefixOf (c :: (cs ++ v ++ rest)) = true := by
      rw [List.isPrefixOf_iff_prefix]
      rintro ⟨t, ht⟩
      obtain ⟨body, rfl, hb1, hb2⟩ := hv
      simp at ht
      obtain ⟨e1, e2⟩ := ht
      obtain ⟨b, rfl⟩ := h1 e1.symm
      cases body with
      | nil => exact hb1 rfl
      | cons x xs => simp at e2; rw [e2.1] at hb2; simp at hb2
    rw [if_neg hno, ih h2]

theorem isLiteral_percent_s : IsLiteral (str! "%s") := by
  refine isLiteral_cons.mpr ⟨fun e => by simp at e, isLiteral_cons.mpr ⟨fun e => by simp at e, isLiteral_nil⟩⟩

theorem parseLoop_pieces (U : PyUni) (externals : List Str) {text l : Str} {ps : List (Str × Str)} (h : Pieces text l ps) :
    ∀ (done : Str) (subs : List Substitution), IsLiteral done →
      (∀ new, List.Forall₂ (fun p s => Substitution.parse U p.1 externals = .ok s) ps new →
        parseLoop U externals (ps.map Prod.fst) subs (done ++ text) =
          (subs ++ new, .ok (done ++ l ++ ps.flatMap fun p => '%' :: 's' :: p.2))) ∧
      (∀ pre p post new e, ps = pre ++ p :: post → List.Forall₂ (fun p s => Substitution.parse U p.1 externals = .ok s) pre new →
        Substitution.parse U p.1 externals = .error e →
        parseLoop U externals (ps.map Prod.fst) subs (done ++ text) = (subs ++ new, .error e)) := by
  induction h with
  | last l hl =>
    intro done subs _
    refine ⟨fun new hn => ?_, fun pre p post new e he => by simp at he⟩
    cases hn; simp [parseLoop]
  | var l v text l' rest hl hv _ ih =>
    intro done subs hd
    have step : ∀ s, Substitution.parse U v externals = .ok s →
        parseLoop U externals (((v, l') :: rest).map Prod.fst) subs (done ++ (l ++ v ++ text)) =
          parseLoop U externals (rest.map Prod.fst) (subs ++ [s]) ((done ++ l ++ str! "%s") ++ text) := by
      intro s hs
      simp only [List.map_cons, parseLoop, hs]
      have e1 : done ++ (l ++ v ++ text) = (done ++ l) ++ v ++ text := by simp
      rw [e1, replaceFirst_literal (isLiteral_append hd hl) hv]
    have hd' := isLiteral_append (isLiteral_append hd hl) isLiteral_percent_s
    constructor
    · intro new hn
      cases hn with
      | cons hs hn =>
        rename_i s new
        rw [step s hs, (ih _ (subs ++ [s]) hd').1 new hn]
        simp
    · intro pre p post new e he hn hp
      cases pre with
      | nil =>
        cases hn
        simp at he
        rw [← he.1] at hp
        simp [parseLoop, hp]
      | cons q pre =>
        simp at he
        obtain ⟨rfl, he⟩ := he
        cases hn with
        | cons hs hn =>
          rename_i s new
          rw [step s hs, (ih _ (subs ++ [s]) hd').2 pre p post new e he hn hp]
          simp

/-- What `Template.parse` does, in terms of the pieces of the text. -/
theorem parseState_pieces (U : PyUni) (t : Template) (externals : List Str) {text l : Str} {ps : List (Str × Str)}
    (h : Pieces text l ps) :
    (∀ new, List.Forall₂ (fun p s => Substitution.parse U (doubled p.1) externals = .ok s) ps new →
      t.parseState U text externals = (⟨t.substitutions ++ new, some (formatted l (ps.map Prod.snd))⟩, none)) ∧
    (∀ pre p post new e, ps = pre ++ p :: post →
      List.Forall₂ (fun p s => Substitution.parse U (doubled p.1) externals = .ok s) pre new →
      Substitution.parse U (doubled p.1) externals = .error e →
      t.parseState U text externals = (⟨t.substitutions ++ new, t.template⟩, some e)) := by
  unfold Template.parseState
  simp only [replaceChar_eq_doubled]
  have hd := pieces_doubled h
  rw [findall_pieces hd]
  obtain ⟨h1, h2⟩ := parseLoop_pieces U externals hd [] t.substitutions isLiteral_nil
  simp only [List.nil_append] at h1 h2
  constructor
  · intro new hn
    rw [h1 new (by rw [List.forall₂_map_left_iff]; exact hn)]
    simp [formatted, List.flatMap_map]
  · intro pre p post new e he hn hp
    rw [h2 (pre.map fun p => (doubled p.1, doubled p.2)) (doubled p.1, doubled p.2) (post.map fun p => (doubled p.1, doubled p.2)) new e
      (by rw [he]; simp) (by rw [List.forall₂_map_left_iff]; exact hn) hp]

/-- Either all of a list succeeds or there is a first failure. -/
theorem forall₂_or_first {α β : Type} (f : α → Except PyErr β) (xs : List α) :
    (∃ ys, List.Forall₂ (fun x y => f x = .ok y) xs ys) ∨
    ∃ pre x post ys e, xs = pre ++ x :: post ∧ List.Forall₂ (fun x y => f x = .ok y) pre ys ∧ f x = .error e := by
  induction xs with
  | nil => exact .inl ⟨[], .nil⟩
  | cons x xs ih =>
    cases hx : f x with
    | error e => exact .inr ⟨[], x, xs, [], e, rfl, .nil, hx⟩
    | ok y =>
      rcases ih with ⟨ys, h⟩ | ⟨pre, x', post, ys, e, h1, h2, h3⟩
      · exact .inl ⟨y :: ys, .cons hx h⟩
      · exact .inr ⟨x :: pre, x', post, y :: ys, e, by rw [h1]; rfl, .cons hx h2, h3⟩

theorem mapM_of_forall₂ {α β : Type} {f : α → Except PyErr β} {xs : List α} {ys : List β}
    (h : List.Forall₂ (fun x y => f x = .ok y) xs ys) : xs.mapM f = .ok ys := by
  induction h with
  | nil => rfl
  | cons hx _ ih => simp [List.mapM_cons, hx, ih, bind, Except.bind, pure, Except.pure]

theorem mapM_of_first {α β : Type} {f : α → Except PyErr β} {pre : List α} {x : α} {post : List α} {ys : List β} {e : PyErr}
    (h : List.Forall₂ (fun x y => f x = .ok y) pre ys) (hx : f x = .error e) : (pre ++ x :: post).mapM f = .error e := by
  induction h with
  | nil => simp [List.mapM_cons, hx, bind, Except.bind]
  | cons hy _ ih => simp only [List.cons_append, List.mapM_cons, hy, ih, bind, Except.bind]

theorem forall₂_of_mapM {α β : Type} {f : α → Except PyErr β} {xs : List α} {ys : List β}
    (h : xs.mapM f = .ok ys) : List.Forall₂ (fun x y => f x = .ok y) xs ys := by
  rcases forall₂_or_first f xs with ⟨zs, hz⟩ | ⟨pre, x, post, zs, e, rfl, h2, h3⟩
  · rw [mapM_of_forall₂ hz] at h; injection h with h; subst h; exact hz
  · rw [mapM_of_first h2 h3] at h; cases h

theorem pyFormat_nil (U : PyUni) : pyFormat U [] [] = .ok [] := rfl

theorem pyFormat_over (U : PyUni) (a : Str) (args : List Str) : pyFormat U [] (a :: args) = .error .TypeError := rfl

theorem pyFormat_char (U : PyUni) {c : Char} (hc : c ≠ '%') (cs : Str) (args : List Str) :
    pyFormat U (c :: cs) args = (pyFormat U cs args).map (c :: ·) := by
  unfold pyFormat
  rw [formatFrom, if_neg hc]

theorem formatStep_letter {c : Char} (h : c = '%' ∨ c = 's') : formatStep .percent c = .ok (none, ⟨false, 0, none⟩) := by
  rcases h with rfl | rfl <;> rfl

theorem pyFormat_percent (U : PyUni) (cs : Str) (args : List Str) : pyFormat U ('%' :: '%' :: cs) args = (pyFormat U cs args).map ('%' :: ·) := by
  unfold pyFormat
  rw [formatFrom, if_pos rfl, formatFrom, formatStep_letter (.inl rfl)]
  · rfl
  · simp

theorem pyFormat_s (U : PyUni) (cs a : Str) (args : List Str) : pyFormat U ('%' :: 's' :: cs) (a :: args) = (pyFormat U cs args).map (a ++ ·) := by
  unfold pyFormat
  rw [formatFrom, if_pos rfl, formatFrom, formatStep_letter (.inr rfl)]
  · simp [convertText, padText]
  · simp

theorem pyFormat_s_nil (U : PyUni) (cs : Str) : pyFormat U ('%' :: 's' :: cs) [] = .error .TypeError := by
  unfold pyFormat
  rw [formatFrom, if_pos rfl, formatFrom, formatStep_letter (.inr rfl)]
  · rfl
  · simp

theorem pyFormat_doubled (U : PyUni) (l rest : Str) (args : List Str) :
    pyFormat U (doubled l ++ rest) args = (pyFormat U rest args).map (l ++ ·) := by
  induction l with
  | nil => cases h : pyFormat U rest args <;> simp [doubled, Except.map, h]
  | cons c cs ih =>
    unfold doubled
    split
    · rename_i hc; subst hc
      simp only [List.cons_append]
      rw [pyFormat_percent, ih]
      cases pyFormat U rest args <;> simp [Except.map]
    · rename_i hc
      simp only [List.cons_append]
      rw [pyFormat_char U hc, ih]
      cases pyFormat U rest args <;> simp [Except.map]

/-- Filling a parsed template. -/
theorem pyFormat_template (U : PyUni) (l : Str) (ps : List (Str × Str)) (args : List Str) (h : args.length = ps.length) :
    pyFormat U (formatted l (ps.map Prod.snd)) args = .ok (filled l args (ps.map Prod.snd)) := by
  unfold formatted
  rw [pyFormat_doubled]
  induction ps generalizing l args with
  | nil =>
    cases args with
    | nil => simp [pyFormat_nil, Except.map, filled]
    | cons a as => simp at h
  | cons p ps ih =>
    cases args with
    | nil => simp at h
    | cons a as =>
      simp only [List.length_cons, Nat.add_right_cancel_iff] at h
      simp only [List.map_cons, List.flatMap_cons, List.cons_append, pyFormat_s]
      rw [pyFormat_doubled]
      have := ih p.2 as h
      rw [this]
      simp [Except.map, bind, Except.bind, filled]

theorem pyFormat_template_short (U : PyUni) (l : Str) (ps : List (Str × Str)) (args : List Str) (h : args.length ≠ ps.length) :
    pyFormat U (formatted l (ps.map Prod.snd)) args = .error .TypeError := by
  unfold formatted
  rw [pyFormat_doubled]
  induction ps generalizing l args with
  | nil =>
    cases args with
    | nil => simp at h
    | cons a as => simp [pyFormat_over, Except.map]
  | cons p ps ih =>
    cases args with
    | nil => simp [pyFormat_s_nil, Except.map]
    | cons a as =>
      simp only [List.length_cons, ne_eq, Nat.add_right_cancel_iff] at h
      simp only [List.map_cons, List.flatMap_cons, List.cons_append, pyFormat_s]
      rw [pyFormat_doubled]
      have := ih p.2 as h
      rw [this]
      simp [Except.map, bind, Except.bind]

end Utg
