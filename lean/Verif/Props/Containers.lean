import Verif.Spec.Containers
import Verif.Props.Templates
import Mathlib.Data.List.Infix
/-! # Property C147: what may be given as `externals` -/

namespace Utg
open Py Spec

theorem foundIn_iff (x s : Str) : foundIn x s = true ↔ ∃ a b, s = a ++ x ++ b := by
  induction s with
  | nil =>
    simp only [foundIn, List.isPrefixOf_iff_prefix]
    constructor
    · rintro ⟨b, hb⟩; exact ⟨[], b, by simpa using hb.symm⟩
    · rintro ⟨a, b, hb⟩
      refine ⟨b, ?_⟩
      have := congrArg List.length hb
      simp only [List.length_nil, List.length_append] at this
      have ha : a = [] := List.eq_nil_of_length_eq_zero (by omega)
      subst ha; simpa using hb.symm
  | cons c cs ih =>
    simp only [foundIn, Bool.or_eq_true, ih, List.isPrefixOf_iff_prefix]
    constructor
    · rintro (⟨b, hb⟩ | ⟨a, b, hb⟩)
      · exact ⟨[], b, by simpa using hb.symm⟩
      · exact ⟨c :: a, b, by simp [hb]⟩
    · rintro ⟨a, b, hb⟩
      cases a with
      | nil => exact .inl ⟨b, by simpa using hb.symm⟩
      | cons c' a =>
        simp only [List.cons_append, List.cons.injEq] at hb
        exact .inr ⟨a, b, hb.2⟩

theorem ask_holds {N : Container} {names : List Str} (h : Holds N names) (x : Str) : N.ask x = (decide (x ∈ names), N) := by
  cases N with
  | collection ms => simp only [Container.ask, Holds] at *; rw [decide_eq_decide.mpr (h x)]
  | text s =>
    simp only [Container.ask, Holds] at *
    congr 1
    rw [Bool.eq_iff_iff, foundIn_iff, decide_eq_true_iff, h x]
  | iterator _ => cases h

theorem parts_holds (U : PyUni) {N : Container} {names : List Str} (h : Holds N names) (slugs : List Str) :
    parsePartsIn U N slugs = (N, slugs.mapM (parseDependency U names)) := by
  induction slugs with
  | nil => rfl
  | cons slug slugs ih =>
    rw [List.mapM_cons]
    unfold parsePartsIn
    dsimp only
    rw [ask_holds h]
    by_cases hm : strip U (U.lower slug) ∈ names
    · have hd : parseDependency U names slug = .ok (.ext (strip U (U.lower slug))) := by unfold parseDependency; exact if_pos hm
      simp only [hm, decide_true, ih, hd]
      cases List.mapM (parseDependency U names) slugs <;> rfl
    · have hd : parseDependency U names slug = (do .ok (.props (← parseProperties (strip U (U.lower slug))))) := by
        unfold parseDependency; exact if_neg hm
      simp only [hm, decide_false, ih, hd]
      cases parseProperties (strip U (U.lower slug)) with
      | error e => rfl
      | ok p => cases List.mapM (parseDependency U names) slugs <;> rfl

theorem substitution_holds (U : PyUni) {N : Container} {names : List Str} (h : Holds N names) (v : Str) :
    Substitution.parseIn U v N = (N, Substitution.parse U v names) := by
  unfold Substitution.parseIn Substitution.parse
  cases split '|' (slice1m1 v) with
  | nil => rfl
  | cons head slugs =>
    dsimp only
    by_cases hh : head = []
    · rw [if_pos hh, if_pos hh]
    · rw [if_neg hh, if_neg hh, parts_holds U h]
      cases List.mapM (parseDependency U names) slugs <;> rfl

theorem loop_holds (U : PyUni) {N : Container} {names : List Str} (h : Holds N names) (vs : List Str) :
    ∀ (subs : List Substitution) (text : Str), parseLoopIn U N vs subs text = (N, parseLoop U names vs subs text) := by
  induction vs with
  | nil => intro subs text; rfl
  | cons v vs ih =>
    intro subs text
    unfold parseLoopIn parseLoop
    rw [substitution_holds U h]
    cases Substitution.parse U v names with
    | error e => rfl
    | ok s => exact ih _ _

/-- C147: a collection, whatever its kind, does as a list of its members, and a string as a list of all its parts. -/
theorem C147_parse (U : PyUni) (t : Template) (text : Str) (externals : Container) (names : List Str) (h : Holds externals names) :
    t.parseIn U text externals = (externals, t.parseState U text names) := by
  unfold Template.parseIn Template.parseState
  dsimp only
  rw [loop_holds U h]
  cases parseLoop U names (findall (replaceChar '%' (str! "%%") text)) t.substitutions (replaceChar '%' (str! "%%") text) with
  | mk subs r => cases r <;> rfl

/-- C147: the same for `get_undictionaried_words`. -/
theorem C147_check (t : Template) (externals : Container) (dictionary : Dictionary) (names : List Str) (h : Holds externals names) :
    t.getUndictionariedWordsIn externals dictionary = (externals, t.getUndictionariedWords names dictionary) := by
  unfold Template.getUndictionariedWordsIn Template.getUndictionariedWords
  induction t.substitutions with
  | nil => rfl
  | cons s ss ih =>
    unfold undictionariedIn
    rw [ask_holds h, List.filterMap_cons]
    by_cases hm : s.id ∈ names
    · simp only [hm, decide_true, if_true]; exact ih
    · simp only [hm, decide_false, if_false]
      by_cases hw : dictionary.hasWord s.id = true
      · simp only [hw, if_true]; exact ih
      · simp only [hw, if_false, Bool.false_eq_true]
        rw [ih]

/-- C147: every collection and every string can be described so. -/
theorem C147_holds (externals : Container) (h : ∀ rest, externals ≠ .iterator rest) : ∃ names, Holds externals names := by
  cases externals with
  | collection ms => exact ⟨ms, fun _ => Iff.rfl⟩
  | text s =>
    refine ⟨s.tails.flatMap List.inits, fun x => ?_⟩
    simp only [List.mem_flatMap, List.mem_tails, List.mem_inits]
    constructor
    · rintro ⟨y, ⟨a, rfl⟩, b, rfl⟩; exact ⟨a, b, by simp⟩
    · rintro ⟨a, b, rfl⟩; exact ⟨x ++ b, ⟨a, by simp⟩, b, rfl⟩
  | iterator rest => exact absurd rfl (h rest)

/-! ## Iterators -/

/-- The answers to questions asked one after another. -/
def Answered : Container → List (Str × Bool) → Container → Prop
  | N, [], N' => N' = N
  | N, (q, b) :: more, N' => (N.ask q).1 = b ∧ Answered (N.ask q).2 more N'

theorem answered_append {N N' : Container} {as bs : List (Str × Bool)} :
    Answered N (as ++ bs) N' ↔ ∃ M, Answered N as M ∧ Answered M bs N' := by
  induction as generalizing N with
  | nil => simp [Answered]
  | cons a as ih =>
    obtain ⟨q, b⟩ := a
    simp only [List.cons_append, Answered, ih]
    constructor
    · rintro ⟨h, M, h1, h2⟩; exact ⟨M, ⟨h, h1⟩, h2⟩
    · rintro ⟨M, ⟨h, h1⟩, h2⟩; exact ⟨h, M, h1, h2⟩

theorem dropWhile_sublist (x : Str) (qs names : List Str) :
    (x :: qs).Sublist names ↔ ∃ y rest, names.dropWhile (fun y => decide (y ≠ x)) = y :: rest ∧ qs.Sublist rest := by
  induction names with
  | nil => simp
  | cons n names ih =>
    by_cases hn : n = x
    · subst hn
      simp [List.dropWhile_cons, List.cons_sublist_cons]
    · rw [List.dropWhile_cons, if_pos (by simp [hn]), ← ih]
      constructor
      · intro h
        cases h with
        | cons _ h => exact h
        | cons_cons _ h => exact absurd rfl hn
      · exact fun h => h.cons _

theorem answered_iterator (asked : List (Str × Bool)) : ∀ names : List Str,
    (∃ N', Answered (.iterator names) asked N') ↔ FoundInOrder names asked := by
  induction asked with
  | nil => intro names; exact ⟨fun _ i q b h => (by simp at h), fun _ => ⟨_, rfl⟩⟩
  | cons a asked ih =>
    intro names
    obtain ⟨q, b⟩ := a
    have hempty : ∀ (x : Str) (qs : List Str), ¬ (x :: qs).Sublist [] := by intro x qs h; cases h
    simp only [Answered, Container.ask]
    cases hd : names.dropWhile (fun y => decide (y ≠ q)) with
    | nil =>
      have hno : ∀ qs, ¬ (q :: qs).Sublist names := by
        intro qs h
        obtain ⟨y, rest, e, _⟩ := (dropWhile_sublist q qs names).mp h
        rw [hd] at e; cases e
      dsimp only
      constructor
      · rintro ⟨N', rfl, h⟩
        have h' := (ih []).mp ⟨N', h⟩
        intro i q' b' hi
        cases i with
        | zero =>
          simp only [List.getElem?_cons_zero, Option.some.injEq, Prod.mk.injEq] at hi
          obtain ⟨rfl, rfl⟩ := hi
          simp [hno]
        | succ i =>
          rw [List.getElem?_cons_succ] at hi
          have := h' i q' b' hi
          simp only [List.map_cons, List.take_succ_cons, hno, iff_false, Bool.not_eq_true]
          cases hb : b' with
          | false => rfl
          | true =>
            have hs := this.mp hb
            obtain ⟨p, ps, hp⟩ : ∃ p ps, (asked.map Prod.fst).take (i + 1) = p :: ps := by
              cases asked with
              | nil => simp at hi
              | cons a as => exact ⟨a.1, (as.map Prod.fst).take i, rfl⟩
            rw [hp] at hs
            exact absurd hs (hempty _ _)
      · intro h
        have h0 := h 0 q b rfl
        simp only [List.map_cons, List.take_succ_cons, hno, iff_false, Bool.not_eq_true] at h0
        have : FoundInOrder [] asked := by
          intro i q' b' hi
          have := h (i + 1) q' b' (by simpa using hi)
          simp only [List.map_cons, List.take_succ_cons, hno, iff_false, Bool.not_eq_true] at this
          subst this
          simp only [Bool.false_eq_true, false_iff]
          cases asked with
          | nil => simp at hi
          | cons a as => simp
        obtain ⟨N', hN⟩ := (ih []).mpr this
        exact ⟨N', h0.symm, hN⟩
    | cons y rest =>
      have hyes : ∀ qs, (q :: qs).Sublist names ↔ qs.Sublist rest := by
        intro qs
        rw [dropWhile_sublist, hd]
        constructor
        · rintro ⟨y', rest', e, h⟩; injection e with _ e; subst e; exact h
        · exact fun h => ⟨y, rest, rfl, h⟩
      dsimp only
      constructor
      · rintro ⟨N', rfl, h⟩
        have h' := (ih rest).mp ⟨N', h⟩
        intro i q' b' hi
        cases i with
        | zero =>
          simp only [List.getElem?_cons_zero, Option.some.injEq, Prod.mk.injEq] at hi
          obtain ⟨rfl, rfl⟩ := hi
          simp [hyes]
        | succ i =>
          rw [List.getElem?_cons_succ] at hi
          rw [h' i q' b' hi, List.map_cons, List.take_succ_cons, hyes]
      · intro h
        have h0 := h 0 q b rfl
        simp only [List.map_cons, List.take_succ_cons, hyes, List.take_zero, List.nil_sublist, iff_true] at h0
        have : FoundInOrder rest asked := by
          intro i q' b' hi
          rw [h (i + 1) q' b' (by simpa using hi), List.map_cons, List.take_succ_cons, hyes]
        obtain ⟨N', hN⟩ := (ih rest).mpr this
        exact ⟨N', h0.symm, hN⟩

theorem reads_iff {U : PyUni} {names : List Str} {slug : Str} {dep : Dep} : parseDependency U names slug = .ok dep ↔ Reads U names slug dep := by
  constructor
  · intro h
    rcases reads_total U names slug with ⟨dep', hr⟩ | ⟨bad, hb⟩
    · rw [parseDependency_reads hr] at h; cases h; exact hr
    · rw [parseDependency_unreadable hb] at h; cases h
  · exact parseDependency_reads

theorem readsPart_iff (U : PyUni) (slug : Str) (a : Str × Bool) (dep : Dep) : ReadsPart U slug a dep ↔
    a.1 = strip U (U.lower slug) ∧ (if a.2 then dep = .ext (strip U (U.lower slug)) else ∃ p, parseProperties (strip U (U.lower slug)) = .ok p ∧ dep = .props p) := by
  obtain ⟨q, b⟩ := a
  unfold ReadsPart
  rw [← reads_iff]
  have hq : Stripped U (U.lower slug) q ↔ q = strip U (U.lower slug) :=
    ⟨fun h => (strip_eq h).symm, fun h => h ▸ strip_stripped U _⟩
  dsimp only
  rw [hq]
  refine and_congr_right fun hq => ?_
  subst hq
  unfold parseDependency
  cases b with
  | true => simp [eq_comm]
  | false =>
    simp only [Bool.false_eq_true, if_false, List.not_mem_nil]
    cases parseProperties (strip U (U.lower slug)) with
    | error e => simp [bind, Except.bind]
    | ok p => simp [bind, Except.bind, eq_comm]

theorem parts_in (U : PyUni) (slugs : List Str) : ∀ (N N' : Container) (deps : List Dep),
    parsePartsIn U N slugs = (N', .ok deps) ↔ ∃ asked, slugs.length = asked.length ∧
      List.Forall₂ (fun x dep => ReadsPart U x.1 x.2 dep) (slugs.zip asked) deps ∧ Answered N asked N' := by
  induction slugs with
  | nil =>
    intro N N' deps
    constructor
    · intro h; cases h; exact ⟨[], rfl, .nil, rfl⟩
    · rintro ⟨asked, h1, h2, h3⟩
      have : asked = [] := List.eq_nil_of_length_eq_zero h1.symm
      subst this
      cases h2; cases h3; rfl
  | cons slug slugs ih =>
    intro N N' deps
    unfold parsePartsIn
    dsimp only
    constructor
    · intro h
      cases ha : N.ask (strip U (U.lower slug)) with
      | mk b M =>
        rw [ha] at h
        cases b with
        | true =>
          dsimp only at h
          cases hp : parsePartsIn U M slugs with
          | mk M' r =>
            rw [hp] at h
            cases r with
            | error e => cases h
            | ok ds =>
              cases h
              obtain ⟨asked, h1, h2, h3⟩ := (ih M N' ds).mp hp
              refine ⟨(strip U (U.lower slug), true) :: asked, by simp [h1], .cons ((readsPart_iff ..).mpr ⟨rfl, rfl⟩) h2, ?_, ?_⟩
              · rw [ha]
              · rw [ha]; exact h3
        | false =>
          dsimp only at h
          cases hpp : parseProperties (strip U (U.lower slug)) with
          | error e => rw [hpp] at h; cases h
          | ok p =>
            rw [hpp] at h
            dsimp only at h
            cases hp : parsePartsIn U M slugs with
            | mk M' r =>
              rw [hp] at h
              cases r with
              | error e => cases h
              | ok ds =>
                cases h
                obtain ⟨asked, h1, h2, h3⟩ := (ih M N' ds).mp hp
                refine ⟨(strip U (U.lower slug), false) :: asked, by simp [h1], .cons ((readsPart_iff ..).mpr ⟨rfl, p, hpp, rfl⟩) h2, ?_, ?_⟩
                · rw [ha]
                · rw [ha]; exact h3
    · rintro ⟨asked, h1, h2, h3⟩
      cases asked with
      | nil => simp at h1
      | cons a asked =>
        obtain ⟨q, b⟩ := a
        rw [List.zip_cons_cons] at h2
        cases h2 with
        | @cons _ dep _ ds hr hrest =>
          obtain ⟨hq, hb⟩ := (readsPart_iff ..).mp hr
          dsimp only at hq hb
          subst hq
          obtain ⟨h4, h5⟩ := h3
          have := (ih _ N' ds).mpr ⟨asked, by simpa using h1, hrest, h5⟩
          cases ha : N.ask (strip U (U.lower slug)) with
          | mk b' M =>
            rw [ha] at h4 this
            dsimp only at h4 this
            subst h4
            cases b' with
            | true => dsimp only at hb ⊢; rw [if_pos rfl] at hb; subst hb; rw [this]
            | false =>
              dsimp only at hb ⊢
              rw [if_neg (by simp)] at hb
              obtain ⟨p, hp, rfl⟩ := hb
              rw [hp]; dsimp only; rw [this]

/-- One variable. -/
theorem substitution_in (U : PyUni) (v : Str) (hv : IsVariable v) (N N' : Container) (s : Substitution) :
    Substitution.parseIn U v N = (N', .ok s) ↔ ∃ head slugs asked deps c id, v = bracketed head slugs ∧ '|' ∉ head ∧ (∀ slug ∈ slugs, '|' ∉ slug) ∧
      Stripped U head (c :: id) ∧ slugs.length = asked.length ∧ List.Forall₂ (fun x dep => ReadsPart U x.1 x.2 dep) (slugs.zip asked) deps ∧
      Answered N asked N' ∧ s = ⟨U.lower (c :: id), deps ++ if U.isUpper c then [.props (.new [.record .WORD_CASE_UPPER])] else []⟩ := by
  constructor
  · intro h
    obtain ⟨body, rfl, hb, _⟩ := hv
    obtain ⟨head, slugs, h1, h2, h3⟩ := split_exists '|' body
    have hbr : '[' :: body ++ [']'] = bracketed head slugs := by rw [h1]; rfl
    rw [hbr] at h ⊢
    unfold Substitution.parseIn at h
    rw [slice_bracketed, split_flatMap h2 h3] at h
    dsimp only at h
    by_cases hh : head = []
    · rw [if_pos hh] at h; cases h
    · rw [if_neg hh] at h
      cases hp : parsePartsIn U N slugs with
      | mk M r =>
        rw [hp] at h
        cases r with
        | error e => cases h
        | ok deps =>
          dsimp only at h
          have hst := strip_stripped U head
          cases hs : strip U head with
          | nil => rw [hs] at h; cases h
          | cons c id =>
            rw [hs] at h hst
            simp only [Py.first, bind, Except.bind, Prod.mk.injEq, Except.ok.injEq] at h
            obtain ⟨rfl, rfl⟩ := h
            obtain ⟨asked, h4, h5, h6⟩ := (parts_in U slugs N M deps).mp hp
            refine ⟨head, slugs, asked, deps, c, id, rfl, h2, h3, hst, h4, h5, h6, ?_⟩
            split <;> simp
  · rintro ⟨head, slugs, asked, deps, c, id, rfl, h2, h3, hst, h4, h5, h6, rfl⟩
    have hh : head ≠ [] := by rintro rfl; obtain ⟨a, b, e, _⟩ := hst; simp at e
    unfold Substitution.parseIn
    rw [slice_bracketed, split_flatMap h2 h3]
    dsimp only
    rw [if_neg hh, (parts_in U slugs N N' deps).mpr ⟨asked, h4, h5, h6⟩, strip_eq hst]
    simp only [Py.first, bind, Except.bind]
    split <;> simp

/-- The substitutions of variables that are read in turn. -/
def AllIn (U : PyUni) : Container → List Str → List Substitution → Container → Prop
  | N, [], ss, N' => ss = [] ∧ N' = N
  | N, v :: vs, ss, N' => ∃ M s ss', Substitution.parseIn U v N = (M, .ok s) ∧ ss = s :: ss' ∧ AllIn U M vs ss' N'

theorem allIn_iff (U : PyUni) (vs : List Str) (hv : ∀ v ∈ vs, IsVariable v) : ∀ (N N' : Container) (ss : List Substitution),
    AllIn U N vs ss N' ↔ ∃ asked, ReadInTurn U vs asked ss ∧ Answered N asked N' := by
  induction vs with
  | nil =>
    intro N N' ss
    constructor
    · rintro ⟨rfl, rfl⟩; exact ⟨[], .none, rfl⟩
    · rintro ⟨asked, h, h'⟩; cases h; exact ⟨rfl, h'⟩
  | cons v vs ih =>
    have ih := ih fun v hv' => hv v (List.mem_cons_of_mem _ hv')
    have hv := hv v (by simp)
    intro N N' ss
    constructor
    · rintro ⟨M, s, ss', h1, rfl, h2⟩
      obtain ⟨more, h3, h4⟩ := (ih M N' ss').mp h2
      obtain ⟨head, slugs, asked, deps, c, id, rfl, a1, a2, a3, a4, a5, a6, rfl⟩ := (substitution_in U v hv N M s).mp h1
      exact ⟨asked ++ more, .next head slugs asked deps c id vs more ss' a1 a2 a3 a4 a5 h3, answered_append.mpr ⟨M, a6, h4⟩⟩
    · rintro ⟨asked, h, h'⟩
      cases h with
      | next head slugs asked deps c id _ more ss' a1 a2 a3 a4 a5 h3 =>
        obtain ⟨M, a6, h4⟩ := answered_append.mp h'
        exact ⟨M, _, ss', (substitution_in U _ hv N M _).mpr ⟨head, slugs, asked, deps, c, id, rfl, a1, a2, a3, a4, a5, a6, rfl⟩, rfl,
          (ih M N' ss').mpr ⟨more, h3, h4⟩⟩

theorem loop_in (U : PyUni) {text l : Str} {ps : List (Str × Str)} (h : Pieces text l ps) :
    ∀ (N N' : Container) (done : Str) (subs subs' : List Substitution) (text' : Str), IsLiteral done →
      (parseLoopIn U N (ps.map Prod.fst) subs (done ++ text) = (N', subs', .ok text') ↔
        ∃ new, AllIn U N (ps.map Prod.fst) new N' ∧ subs' = subs ++ new ∧ text' = done ++ l ++ ps.flatMap fun p => '%' :: 's' :: p.2) := by
  induction h with
  | last l hl =>
    intro N N' done subs subs' text' _
    simp only [List.map_nil, parseLoopIn, AllIn, List.flatMap_nil, List.append_nil, Prod.mk.injEq, Except.ok.injEq]
    constructor
    · rintro ⟨rfl, rfl, rfl⟩; exact ⟨[], ⟨rfl, rfl⟩, by simp, rfl⟩
    · rintro ⟨new, ⟨rfl, rfl⟩, rfl, rfl⟩; simp
  | var l v text l' rest hl hv _ ih =>
    intro N N' done subs subs' text' hd
    have hd' := isLiteral_append (isLiteral_append hd hl) isLiteral_percent_s
    have e1 : done ++ (l ++ v ++ text) = (done ++ l) ++ v ++ text := by simp
    simp only [List.map_cons, parseLoopIn, AllIn]
    cases hp : Substitution.parseIn U v N with
    | mk M r =>
      cases r with
      | error e =>
        dsimp only
        constructor
        · intro h; simp at h
        · rintro ⟨new, ⟨M', s, ss', h1, _⟩, _⟩; cases h1
      | ok s =>
        dsimp only
        rw [e1, replaceFirst_literal (isLiteral_append hd hl) hv, ih M N' _ _ subs' text' hd']
        constructor
        · rintro ⟨new, h1, rfl, rfl⟩
          exact ⟨s :: new, ⟨M, s, new, rfl, rfl, h1⟩, by simp, by simp⟩
        · rintro ⟨new, ⟨M', s', ss', h1, rfl, h2⟩, rfl, rfl⟩
          cases h1
          exact ⟨ss', h2, by simp, by simp⟩

/-- C147: an iterator is used up. A text can be parsed with an iterator exactly if all parts of its variables can be read, where a part is
the name of an external if and only if the parts so far, from the first one of the text, come in this order in the iterator. -/
theorem C147_iterator (U : PyUni) (text l : Str) (ps : List (Str × Str)) (names : List Str) (t : Template) (h : Pieces text l ps) :
    (∃ left, Template.empty.parseIn U text (.iterator names) = (left, t, none)) ↔
      t.template = some (formatted l (ps.map Prod.snd)) ∧
      ∃ asked, ReadInTurn U (ps.map fun p => doubled p.1) asked t.substitutions ∧ FoundInOrder names asked := by
  have hd := pieces_doubled h
  have hl := fun N' subs subs' text' => loop_in U hd (.iterator names) N' [] subs subs' text' isLiteral_nil
  have hv : ∀ v ∈ ps.map fun p => doubled p.1, IsVariable v := by
    have : ∀ {text l : Str} {ps : List (Str × Str)}, Pieces text l ps → ∀ p ∈ ps, IsVariable p.1 := by
      intro text l ps h
      induction h with
      | last => simp
      | var l v text l' rest _ hv _ ih =>
        intro p hp
        rcases List.mem_cons.mp hp with rfl | hp
        · exact hv
        · exact ih p hp
    intro v hv
    obtain ⟨p, hp, rfl⟩ := List.mem_map.mp hv
    exact isVariable_doubled (this h p hp)
  have hmap : (ps.map fun p => (doubled p.1, doubled p.2)).map Prod.fst = ps.map fun p => doubled p.1 := by simp
  have hfmt : [] ++ doubled l ++ (ps.map fun p => (doubled p.1, doubled p.2)).flatMap (fun p => '%' :: 's' :: p.2) =
      formatted l (ps.map Prod.snd) := by simp [formatted, List.flatMap_map]
  rw [List.nil_append] at hfmt
  simp only [hmap, hfmt, List.nil_append] at hl
  have hrun : ∀ left, Template.empty.parseIn U text (.iterator names) = (left, t, none) ↔
      ∃ new, AllIn U (.iterator names) (ps.map fun p => doubled p.1) new left ∧ t.substitutions = new ∧
        t.template = some (formatted l (ps.map Prod.snd)) := by
    intro left
    unfold Template.parseIn
    dsimp only
    rw [replaceChar_eq_doubled, findall_pieces hd, hmap]
    cases hr : parseLoopIn U (.iterator names) (ps.map fun p => doubled p.1) Template.empty.substitutions (doubled text) with
    | mk M r =>
      obtain ⟨subs, r⟩ := r
      have key := hl M Template.empty.substitutions subs
      rw [hr] at key
      cases r with
      | ok text' =>
        obtain ⟨new, h1, h2, h3⟩ := (key text').mp rfl
        dsimp only
        constructor
        · intro hc
          cases hc
          exact ⟨new, h1, h2, by rw [h3]⟩
        · rintro ⟨new', h1', h2', h3'⟩
          have key' := (hl left Template.empty.substitutions new' _).mpr ⟨new', h1', rfl, rfl⟩
          rw [hr] at key'
          cases key'
          obtain ⟨ss, tt⟩ := t
          simp only at h2' h3'
          subst h2' h3'
          rfl
      | error e =>
        dsimp only
        constructor
        · intro hc; cases hc
        · rintro ⟨new', h1', h2', h3'⟩
          have key' := (hl left Template.empty.substitutions new' _).mpr ⟨new', h1', rfl, rfl⟩
          rw [hr] at key'
          cases key'
  simp only [hrun]
  constructor
  · rintro ⟨left, new, h1, rfl, h3⟩
    obtain ⟨asked, h4, h5⟩ := (allIn_iff U _ hv _ left _).mp h1
    exact ⟨h3, asked, h4, (answered_iterator asked names).mp ⟨left, h5⟩⟩
  · rintro ⟨h3, asked, h4, h5⟩
    obtain ⟨left, h6⟩ := (answered_iterator asked names).mpr h5
    exact ⟨left, _, (allIn_iff U _ hv _ left _).mpr ⟨asked, h4, h6⟩, rfl, h3⟩

theorem undictionaried_in (d : Dictionary) (ss : List Substitution) : ∀ N : Container, ∃ asked N', asked.map Prod.fst = ss.map Substitution.id ∧
    Answered N asked N' ∧
    undictionariedIn d N ss = (N', (asked.filter fun a => !a.2 && !d.hasWord a.1).map Prod.fst) := by
  induction ss with
  | nil => intro N; exact ⟨[], N, rfl, rfl, rfl⟩
  | cons s ss ih =>
    intro N
    unfold undictionariedIn
    cases ha : N.ask s.id with
    | mk b M =>
      obtain ⟨asked, N', h1, h2, h3⟩ := ih M
      refine ⟨(s.id, b) :: asked, N', by simp [h1], ⟨by rw [ha], by rw [ha]; exact h2⟩, ?_⟩
      cases b with
      | true => simp only [h3, List.filter_cons, Bool.not_true, Bool.false_and, Bool.false_eq_true, if_false]
      | false =>
        dsimp only
        by_cases hw : d.hasWord s.id = true
        · simp only [hw, if_true, h3, List.filter_cons, Bool.not_true, Bool.and_false, Bool.false_eq_true, if_false]
        · simp only [hw, if_false, h3, List.filter_cons, Bool.not_false, Bool.true_and, Bool.false_eq_true, if_true, List.map_cons]

/-- C147: the same for `get_undictionaried_words`, which asks for the variables in turn. -/
theorem C147_iterator_check (t : Template) (names : List Str) (dictionary : Dictionary) :
    ∃ asked, asked.map Prod.fst = t.substitutions.map Substitution.id ∧ FoundInOrder names asked ∧
      (t.getUndictionariedWordsIn (.iterator names) dictionary).2 =
        (asked.filter fun a => !a.2 && !dictionary.hasWord a.1).map Prod.fst := by
  obtain ⟨asked, N', h1, h2, h3⟩ := undictionaried_in dictionary t.substitutions (.iterator names)
  exact ⟨asked, h1, (answered_iterator asked names).mp ⟨N', h2⟩, by unfold Template.getUndictionariedWordsIn; rw [h3]⟩

/-- Names that come in the order of the iterator are found. -/
theorem foundInOrder_all {names qs : List Str} (h : qs.Sublist names) : FoundInOrder names (qs.map fun q => (q, true)) := by
  intro i q b hi
  rw [List.getElem?_map] at hi
  cases hq : qs[i]? with
  | none => rw [hq] at hi; cases hi
  | some x =>
    rw [hq] at hi
    simp only [Option.map_some, Option.some.injEq, Prod.mk.injEq] at hi
    obtain ⟨rfl, rfl⟩ := hi
    simp only [List.map_map, true_iff]
    have : (Prod.fst ∘ fun q : Str => (q, true)) = id := rfl
    rw [this, List.map_id]
    exact (List.take_sublist _ _).trans h

/-- `[а|y|x]`: with a list both `x` and `y` are names; an iterator that has `x` first is past it when `x` is asked for. -/
example : (∃ t, Template.empty.parse exPy (str! "[а|y|x]") [str! "x", str! "y"] = .ok t) ∧
    (Template.empty.parseIn exPy (str! "[а|y|x]") (.iterator [str! "x", str! "y"])).2.2 = some (.UnknownVerboseIdError (str! "x")) ∧
    (Template.empty.parseIn exPy (str! "[а|x|y]") (.iterator [str! "x", str! "y"])).2.2 = none := by
  refine ⟨⟨_, (by decide +kernel : _ = Except.ok ⟨[⟨str! "а", [.ext (str! "y"), .ext (str! "x")]⟩], some (str! "%s")⟩)⟩, ?_, ?_⟩ <;> decide +kernel
/-- After a property that is no name nothing is left of the iterator. -/
example : (Template.empty.parseIn exPy (str! "[а|мн|x]") (.iterator [str! "x"])).2.2 = some (.UnknownVerboseIdError (str! "x")) := by
  decide +kernel
/-- With a string instead of a list of one string, a property that is a part of the name is taken for a name. -/
example : (Template.empty.parseIn exPy (str! "[а|мн]") (.text (str! "имн"))).2 =
    (⟨[⟨str! "а", [.ext (str! "мн")]⟩], some (str! "%s")⟩, none) := by decide +kernel
example : Holds (.text (str! "ab")) [[], str! "a", str! "b", str! "ab"] := by
  intro x
  constructor
  · intro hx
    simp only [List.mem_cons, List.not_mem_nil, or_false] at hx
    rcases hx with rfl | rfl | rfl | rfl
    · exact ⟨[], str! "ab", rfl⟩
    · exact ⟨[], str! "b", rfl⟩
    · exact ⟨str! "a", [], rfl⟩
    · exact ⟨[], [], rfl⟩
  · rintro ⟨a, b, e⟩
    have : x ∈ (str! "ab").tails.flatMap List.inits := by
      simp only [List.mem_flatMap, List.mem_tails, List.mem_inits]
      exact ⟨x ++ b, ⟨a, by rw [e]; simp⟩, b, rfl⟩
    revert this
    simp [List.tails, List.inits]
    tauto

end Utg
