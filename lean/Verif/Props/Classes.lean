import Verif.Spec.Classes
import Verif.Props.Grammar
import Verif.Props.Phrase
/-!
# C155: only the class of a number matters
-/

namespace Utg
open Py Spec

theorem natDigits_digits (n : Nat) : natDigits n ≠ [] ∧ ∀ c ∈ natDigits n, c.isDigit = true := by
  induction n using Nat.strongRecOn with
  | _ n ih =>
    by_cases h : n < 10
    · rw [natDigits_lt h]
      refine ⟨by simp, fun c hc => ?_⟩
      rw [List.mem_singleton.mp hc]
      exact (digit_toNat h).1
    · rw [natDigits_ge h]
      refine ⟨by simp, fun c hc => ?_⟩
      rcases List.mem_append.mp hc with hc | hc
      · exact (ih (n / 10) (by omega)).2 c hc
      · rw [List.mem_singleton.mp hc]
        exact (digit_toNat (Nat.mod_lt _ (by omega))).1

/-- The first character of a number is no letter. -/
theorem pyStr_first (n : Int) : ∃ c s, pyStr n = c :: s ∧ CONSONANTS.contains c = false ∧ NOT_J_VOWELS.contains c = false := by
  have hletters : ∀ c : Char, (c.isDigit = true ∨ c = '-') → CONSONANTS.contains c = false ∧ NOT_J_VOWELS.contains c = false := by
    have h : ∀ x ∈ CONSONANTS ++ NOT_J_VOWELS, x.isDigit = false ∧ x ≠ '-' := by decide +kernel
    intro c hc
    constructor
    · rw [Bool.eq_false_iff]
      intro hm
      obtain ⟨h1, h2⟩ := h c (List.mem_append_left _ (List.contains_iff_mem.mp hm))
      rcases hc with hc | hc
      · rw [h1] at hc; cases hc
      · exact h2 hc
    · rw [Bool.eq_false_iff]
      intro hm
      obtain ⟨h1, h2⟩ := h c (List.mem_append_right _ (List.contains_iff_mem.mp hm))
      rcases hc with hc | hc
      · rw [h1] at hc; cases hc
      · exact h2 hc
  unfold pyStr
  split
  · exact ⟨_, _, rfl, hletters _ (.inr rfl)⟩
  · obtain ⟨h1, h2⟩ := natDigits_digits n.natAbs
    cases h : natDigits n.natAbs with
    | nil => exact absurd h h1
    | cons c s => exact ⟨c, s, rfl, hletters c (.inl (h2 c (by rw [h]; exact List.mem_cons_self ..)))⟩

/-- A preposition before a number is as it is. -/
theorem preposition_number (U : PyUni) (w : Word) (p : Properties) (n : Int) :
    prepositionAny U w p (integerForm n) = match w.normalForm with
      | .error e => .error e
      | .ok s => match Py.last s with
        | .error e => .error e
        | .ok _ => .ok p := by
  obtain ⟨c, s, hs, h1, h2⟩ := pyStr_first n
  have hf : (integerForm n).form U = .ok (c :: s) := by rw [integerForm_form, hs]
  have hcl : (integerForm n).startsWithConsonantCluster U = .ok false := by
    unfold WordForm.startsWithConsonantCluster
    rw [hf]
    cases s with
    | nil => simp only [bind, Except.bind, consonantCluster, h1]
    | cons d s => simp only [bind, Except.bind, consonantCluster, h1, Bool.false_and]
  unfold prepositionAny
  cases w.normalForm with
  | error e => rfl
  | ok slave =>
    simp only [bind, Except.bind]
    cases Py.last slave with
    | error e => rfl
    | ok l =>
      simp only
      cases CONSONANTS.contains l with
      | true =>
        unfold consonantPrepositionAny
        rw [hf, hcl]
        simp only [bind, Except.bind, if_true, Bool.false_eq_true, if_false, Py.first, pure, Except.pure]
        by_cases hv : slave = str! "в" ∨ slave = str! "с"
        · rw [if_pos hv]
          by_cases hc : slave = [c]
          · rw [if_pos hc]
          · rw [if_neg hc]
        · rw [if_neg hv]
      | false =>
        unfold vowelsPrepositionAny
        rw [hf]
        simp only [bind, Except.bind, Bool.false_eq_true, if_false, Py.first, h2, pure, Except.pure]
        rw [if_neg]
        rintro ⟨-, hm⟩
        have : ∀ x ∈ [str! "всех", str! "мне", str! "всём", str! "что", str! "всей"], x.head?.map CONSONANTS.contains = some true := by
          decide +kernel
        have := this _ hm
        simp only [List.head?_cons, Option.map, h1] at this
        cases this

theorem transform_number (U : PyUni) (w : Word) (p : Properties) (n m : Int) :
    transform U w p (integerForm n) = transform U w p (integerForm m) := by
  by_cases h : w.type = .PREPOSITION
  · unfold transform
    rw [h]
    show prepositionAny U w p (integerForm n) = prepositionAny U w p (integerForm m)
    rw [preposition_number, preposition_number]
  · unfold transform
    show (match w.type, WordType.INTEGER with | _, _ => _) = _
    generalize w.type = t at *
    cases t <;> first | rfl | exact absurd rfl h

theorem integer_properties {n m : Int} (h : TreatedAlike n m) : (classifyInteger n.natAbs).properties = (classifyInteger m.natAbs).properties := by
  rw [classify_properties, classify_properties, h.1, h.2]

/-- The same word form, or the two numbers. -/
def Twin (n m : Int) (f f' : WordForm) : Prop := f = f' ∨ f = integerForm n ∧ f' = integerForm m

theorem twin_properties {n m : Int} (h : TreatedAlike n m) {f f' : WordForm} (ht : Twin n m f f') :
    f.properties = f'.properties ∧ f.word.type = f'.word.type ∧ f.word.properties = f'.word.properties := by
  rcases ht with rfl | ⟨rfl, rfl⟩
  · exact ⟨rfl, rfl, rfl⟩
  · unfold integerForm
    rw [integer_properties h]
    exact ⟨rfl, rfl, rfl⟩

theorem replaced_get {name : Str} {n m : Int} {ext ext' : Externals} (h : NumberReplaced name n m ext ext') (x : Str) :
    (ext.get? x = none ∧ ext'.get? x = none) ∨ ∃ f f', ext.get? x = some f ∧ ext'.get? x = some f' ∧ Twin n m f f' ∧ (x ≠ name → f = f') ∧
      (x = name → f = integerForm n ∧ f' = integerForm m) := by
  by_cases hx : x = name
  · subst hx
    obtain ⟨f, hf, h1⟩ := h.before
    obtain ⟨f', hf', h2⟩ := h.after
    rw [constructIntegerFresh_eq] at hf hf'
    injection hf with hf; injection hf' with hf'
    subst hf hf'
    exact .inr ⟨_, _, h1, h2, .inr ⟨rfl, rfl⟩, fun h => absurd rfl h, fun _ => ⟨rfl, rfl⟩⟩
  · have := h.others x hx
    cases hg : ext.get? x with
    | none => exact .inl ⟨rfl, by rw [← this, hg]⟩
    | some f => exact .inr ⟨f, f, rfl, by rw [← this, hg], .inl rfl, fun _ => rfl, fun h => absurd h hx⟩

theorem list_replaced {name : Str} {n m : Int} {ext ext' : Externals} (h : NumberReplaced name n m ext ext') (ha : TreatedAlike n m) (deps : List Dep) :
    (∃ e, listProperties ext deps = .error e ∧ listProperties ext' deps = .error e) ∨
    ∃ ps fs fs', listProperties ext deps = .ok (ps, fs) ∧ listProperties ext' deps = .ok (ps, fs') ∧ List.Forall₂ (Twin n m) fs fs' := by
  induction deps with
  | nil => exact .inr ⟨[], [], [], rfl, rfl, .nil⟩
  | cons a deps ih =>
    cases a with
    | props p =>
      rcases ih with ⟨e, h1, h2⟩ | ⟨ps, fs, fs', h1, h2, h3⟩
      · exact .inl ⟨e, by simp only [listProperties, h1, bind, Except.bind], by simp only [listProperties, h2, bind, Except.bind]⟩
      · exact .inr ⟨p :: ps, fs, fs', by simp only [listProperties, h1, bind, Except.bind], by simp only [listProperties, h2, bind, Except.bind], h3⟩
    | ext x =>
      rcases replaced_get h x with ⟨g1, g2⟩ | ⟨f, f', g1, g2, ht, -, -⟩
      · exact .inl ⟨.ExternalDependecyNotFoundError x, by simp only [listProperties, g1], by simp only [listProperties, g2]⟩
      · rcases ih with ⟨e, h1, h2⟩ | ⟨ps, fs, fs', h1, h2, h3⟩
        · exact .inl ⟨e, by simp only [listProperties, g1, h1, bind, Except.bind], by simp only [listProperties, g2, h2, bind, Except.bind]⟩
        · refine .inr ⟨f.properties :: ps, f :: fs, f' :: fs', by simp only [listProperties, g1, h1, bind, Except.bind], ?_, .cons ht h3⟩
          simp only [listProperties, g2, h2, bind, Except.bind, (twin_properties ha ht).1]

theorem transforms_replaced {U : PyUni} {n m : Int} (w : Word) {fs fs' : List WordForm} (h : List.Forall₂ (Twin n m) fs fs') :
    ∀ p, fs.foldlM (fun ps external => transform U w ps external) p = fs'.foldlM (fun ps external => transform U w ps external) p := by
  induction h with
  | nil => intro p; rfl
  | @cons f f' fs fs' h _ ih =>
    intro p
    rw [List.foldlM_cons, List.foldlM_cons]
    have : transform U w p f = transform U w p f' := by
      rcases h with rfl | ⟨rfl, rfl⟩
      · rfl
      · exact transform_number U w p n m
    rw [this]
    congr 1
    funext q
    exact ih q

/-- C155: a number in the externals is replaced by one that is treated alike: every other variable and word has the same form, prepositions
included. -/
theorem C155_other_places (U : PyUni) (s : Substitution) (ext ext' : Externals) (d : Dictionary) (name : Str) (n m : Int)
    (h : NumberReplaced name n m ext ext') (ha : TreatedAlike n m) (hid : s.id ≠ name) : s.getText U ext d = s.getText U ext' d := by
  have hb : s.baseForm ext d = s.baseForm ext' d := by
    unfold Substitution.baseForm
    rw [h.others s.id hid]
  unfold Substitution.getText
  rw [hb]
  cases s.baseForm ext' d with
  | error e => rfl
  | ok f =>
    simp only [bind, Except.bind]
    rcases list_replaced h ha s.dependencies with ⟨e, h1, h2⟩ | ⟨ps, fs, fs', h1, h2, h3⟩
    · rw [h1, h2]
    · rw [h1, h2]
      simp only
      rw [transforms_replaced f.word h3]

theorem integer_raw (n : Int) (p : Properties) : (integerForm n).word.formRaw p = .ok (pyStr n) := by
  have hk : ∀ p : Properties, p.getRawKey WordType.INTEGER.schema = [] := fun p => rfl
  unfold Word.formRaw
  show (do
    let cache ← rawWordsCache .INTEGER
    match cache.get? (p.getRawKey WordType.INTEGER.schema) with
    | none => .error .KeyError
    | some index => match [pyStr n][index]? with
      | none => .error .IndexError
      | some f => .ok f) = _
  rw [hk]
  have : ∃ cache, rawWordsCache .INTEGER = .ok cache ∧ cache.get? [] = some 0 := ⟨_, rfl, by decide +kernel⟩
  obtain ⟨cache, h1, h2⟩ := this
  rw [h1]
  simp only [bind, Except.bind, h2]
  rfl

/-- C155: and where the number is printed, the other is. -/
theorem C155_own_place (U : PyUni) (s : Substitution) (ext ext' : Externals) (d : Dictionary) (name : Str) (n m : Int)
    (h : NumberReplaced name n m ext ext') (ha : TreatedAlike n m) (hid : s.id = name) :
    (∃ e, s.getText U ext d = .error e ∧ s.getText U ext' d = .error e) ∨
    ∃ upper, s.getText U ext d = inCase U upper (pyStr n) ∧ s.getText U ext' d = inCase U upper (pyStr m) := by
  obtain ⟨f, f', g1, g2, -, -, hn⟩ := (replaced_get h s.id).resolve_left (by
    rintro ⟨h1, -⟩
    obtain ⟨f, -, h2⟩ := h.before
    rw [hid, h2] at h1
    cases h1)
  obtain ⟨rfl, rfl⟩ := hn hid
  have hb : s.baseForm ext d = .ok (integerForm n) := by unfold Substitution.baseForm; rw [g1]
  have hb' : s.baseForm ext' d = .ok (integerForm m) := by unfold Substitution.baseForm; rw [g2]
  rcases list_replaced h ha s.dependencies with ⟨e, h1, h2⟩ | ⟨ps, fs, fs', h1, h2, h3⟩
  · refine .inl ⟨e, ?_, ?_⟩
    · unfold Substitution.getText; rw [hb, h1]; rfl
    · unfold Substitution.getText; rw [hb', h2]; rfl
  · have hid : ∀ (k : Int) (fs : List WordForm) p, fs.foldlM (fun ps external => transform U (integerForm k).word ps external) p = .ok p := by
      intro k fs
      induction fs with
      | nil => intro p; rfl
      | cons f fs ih =>
        intro p
        rw [List.foldlM_cons]
        have : transform U (integerForm k).word p f = .ok p := by
          unfold transform
          show (match WordType.INTEGER, f.word.type with | _, _ => _) = _
          cases f.word.type <;> rfl
        rw [this]
        exact ih p
    obtain ⟨hp1, -, hp2⟩ := twin_properties ha (.inr ⟨rfl, rfl⟩ : Twin n m (integerForm n) (integerForm m))
    refine .inr ?_
    have key : ∀ (k : Int) (q : Properties), ∀ wc, q.getRec .WORD_CASE = .ok wc →
        WordForm.getForm U (integerForm k).word q = inCase U (decide (wc = .WORD_CASE_UPPER)) (pyStr k) := by
      intro k q wc hwc
      unfold WordForm.getForm
      rw [integer_raw, hwc]
      simp only [bind, Except.bind]
      by_cases hu : wc = .WORD_CASE_UPPER
      · rw [if_pos hu, decide_eq_true hu]; cases pyStr k <;> rfl
      · rw [if_neg hu, decide_eq_false hu]; rfl
    obtain ⟨wc, hwc⟩ : ∃ wc, ((integerForm n).properties.clone ((ps ++ [(integerForm n).word.properties]).map .props)).getRec .WORD_CASE = .ok wc := by
      unfold Properties.getRec Properties.get
      split
      · next h => split at h <;> cases h
      · exact ⟨_, rfl⟩
    refine ⟨decide (wc = .WORD_CASE_UPPER), ?_, ?_⟩
    · unfold Substitution.getText
      rw [hb, h1]
      simp only [bind, Except.bind]
      rw [hid]
      exact key n _ wc hwc
    · unfold Substitution.getText
      rw [hb', h2]
      simp only [bind, Except.bind]
      rw [hid]
      rw [hp1, hp2] at hwc
      exact key m _ wc hwc

/-- C155: the text of a template for one number is that for another that is treated alike, with the other number in place of the first. -/
theorem C155_text (U : PyUni) (names : List Str) (text l : Str) (ps : List (Str × Str)) (t : Template) (ext ext' : Externals) (d : Dictionary)
    (name : Str) (n m : Int) (hp : Pieces text l ps) (ht : Template.empty.parse U text names = .ok t)
    (h : NumberReplaced name n m ext ext') (ha : TreatedAlike n m) :
    (∃ e, t.substitute U ext d = .error e ∧ t.substitute U ext' d = .error e) ∨
    ∃ texts texts' : List Str, t.substitute U ext d = .ok (filled l texts (ps.map Prod.snd)) ∧
      t.substitute U ext' d = .ok (filled l texts' (ps.map Prod.snd)) ∧
      List.Forall₂ (fun s (x : Str × Str) => if s.id = name then ∃ upper, inCase U upper (pyStr n) = .ok x.1 ∧ inCase U upper (pyStr m) = .ok x.2
        else x.1 = x.2) t.substitutions (texts.zip texts') := by
  obtain ⟨hf, htm⟩ := (C45_parse U names text l ps t hp).mp ht
  obtain ⟨subs, template⟩ := t
  simp only at hf htm ⊢
  subst htm
  rw [substitute_parsed hf.length_eq, substitute_parsed hf.length_eq]
  have key : (∃ e, subs.mapM (fun s => s.getText U ext d) = .error e ∧ subs.mapM (fun s => s.getText U ext' d) = .error e) ∨
      ∃ texts texts' : List Str, subs.mapM (fun s => s.getText U ext d) = .ok texts ∧ subs.mapM (fun s => s.getText U ext' d) = .ok texts' ∧
      List.Forall₂ (fun s (x : Str × Str) => if s.id = name then ∃ upper, inCase U upper (pyStr n) = .ok x.1 ∧ inCase U upper (pyStr m) = .ok x.2
        else x.1 = x.2) subs (texts.zip texts') := by
    clear hf hp ht
    induction subs with
    | nil => exact .inr ⟨[], [], rfl, rfl, .nil⟩
    | cons s subs ih =>
      have hs : (∃ e, s.getText U ext d = .error e ∧ s.getText U ext' d = .error e) ∨ ∃ x x', s.getText U ext d = .ok x ∧ s.getText U ext' d = .ok x' ∧
          if s.id = name then ∃ upper, inCase U upper (pyStr n) = .ok x ∧ inCase U upper (pyStr m) = .ok x' else x = x' := by
        by_cases hid : s.id = name
        · rcases C155_own_place U s ext ext' d name n m h ha hid with he | ⟨upper, h1, h2⟩
          · exact .inl he
          · obtain ⟨c, r, hc, -⟩ := pyStr_first n
            obtain ⟨c', r', hc', -⟩ := pyStr_first m
            have g : ∀ c r, ∃ x, inCase U upper (c :: r) = .ok x := by intro c r; cases upper <;> exact ⟨_, rfl⟩
            obtain ⟨x, hx⟩ := g c r
            obtain ⟨x', hx'⟩ := g c' r'
            rw [← hc] at hx
            rw [← hc'] at hx'
            refine .inr ⟨x, x', h1.trans hx, h2.trans hx', ?_⟩
            rw [if_pos hid]
            exact ⟨upper, hx, hx'⟩
        · have := C155_other_places U s ext ext' d name n m h ha hid
          cases hg : s.getText U ext d with
          | error e => exact .inl ⟨e, rfl, by rw [← this, hg]⟩
          | ok x => exact .inr ⟨x, x, rfl, by rw [← this, hg], by rw [if_neg hid]⟩
      rcases hs with ⟨e, h1, h2⟩ | ⟨x, x', h1, h2, h3⟩
      · exact .inl ⟨e, by rw [List.mapM_cons, h1]; rfl, by rw [List.mapM_cons, h2]; rfl⟩
      · rcases ih with ⟨e, g1, g2⟩ | ⟨xs, xs', g1, g2, g3⟩
        · exact .inl ⟨e, by rw [List.mapM_cons, h1, g1]; rfl, by rw [List.mapM_cons, h2, g2]; rfl⟩
        · exact .inr ⟨x :: xs, x' :: xs', by rw [List.mapM_cons, h1, g1]; rfl, by rw [List.mapM_cons, h2, g2]; rfl, .cons h3 g3⟩
  rcases key with ⟨e, h1, h2⟩ | ⟨texts, texts', h1, h2, h3⟩
  · rw [h1, h2]; exact .inl ⟨e, rfl, rfl⟩
  · rw [h1, h2]; exact .inr ⟨texts, texts', rfl, rfl, h3⟩

/-- C155: numbers above four with the same two last digits are treated alike, but for a million and a billion; so are a number and its
negative. -/
theorem C155_alike (n m : Int) :
    (5 ≤ n.natAbs → 5 ≤ m.natAbs → n.natAbs ≠ 10 ^ 6 → n.natAbs ≠ 10 ^ 9 → m.natAbs ≠ 10 ^ 6 → m.natAbs ≠ 10 ^ 9 →
      n.natAbs % 100 = m.natAbs % 100 → TreatedAlike n m) ∧ TreatedAlike n (-n) := by
  constructor
  · intro h1 h2 h3 h4 h5 h6 h7
    unfold TreatedAlike
    rw [agreementClass_eq, agreementClass_eq]
    unfold grammaticalNumber
    have h8 : n.natAbs % 10 = m.natAbs % 10 := by omega
    constructor
    · simp only [h3, h4, h5, h6, h7, h8]
      simp [show n.natAbs ≠ 2 by omega, show n.natAbs ≠ 3 by omega, show n.natAbs ≠ 4 by omega, show m.natAbs ≠ 2 by omega, show m.natAbs ≠ 3 by omega,
        show m.natAbs ≠ 4 by omega]
    · rw [if_neg (by omega), if_neg (by omega)]
  · unfold TreatedAlike
    rw [agreementClass_eq, agreementClass_eq]
    unfold grammaticalNumber
    rw [Int.natAbs_neg]
    exact ⟨rfl, rfl⟩

example : TreatedAlike 125 (-1225) ∧ ¬ TreatedAlike 1 21 ∧ ¬ TreatedAlike 2 22 := by
  refine ⟨⟨?_, rfl⟩, fun h => ?_, fun h => ?_⟩
  · rw [agreementClass_eq, agreementClass_eq]; decide
  · have := h.2; revert this; decide
  · have := h.1; rw [agreementClass_eq, agreementClass_eq] at this; revert this; decide

example (f : WordForm) : NumberReplaced (str! "n") 125 225 [(str! "n", integerForm 125), (str! "x", f)] [(str! "n", integerForm 225), (str! "x", f)] := by
  refine ⟨⟨_, constructIntegerFresh_eq _, rfl⟩, ⟨_, constructIntegerFresh_eq _, rfl⟩, fun x hx => ?_⟩
  simp only [Dict.get?, Ne.symm hx, if_false]

/-- A word before two numbers that are treated alike: a preposition too. -/
example : Substitution.getText exPy ⟨str! "p", [.ext (str! "n")]⟩ [(str! "p", WordForm.new exPrep), (str! "n", integerForm 125)] [] = .ok (str! "в") := by
  decide +kernel

end Utg
