import Verif.Spec.ParseThreads
import Verif.Props.Templates
/-!
# C141: a template that is used while it is parsed in another thread
-/

namespace Utg
open Py Spec

/-- Where the only parse stands. -/
inductive Stage (U : PyUni) (text : Str) (names : List Str) : List ParsePc → Template → Prop
  | before : Stage U text names [] Template.empty
  | during (vs : List Str) (x : Str) (subs : List Substitution) :
      parseLoop U names vs subs x =
        parseLoop U names (findall (replaceChar '%' (str! "%%") text)) [] (replaceChar '%' (str! "%%") text) →
      Stage U text names [.loop names vs x] ⟨subs, none⟩
  | done (t : Template) (r : Option PyErr) : Template.parseState U Template.empty text names = (t, r) → Stage U text names [.ended r] t

theorem parseLoop_prefix (U : PyUni) (names vs : List Str) (subs : List Substitution) (x : Str) : subs <+: (parseLoop U names vs subs x).1 := by
  induction vs generalizing subs x with
  | nil => exact List.prefix_refl _
  | cons v vs ih =>
    unfold parseLoop
    cases Substitution.parse U v names with
    | error e => exact List.prefix_refl _
    | ok s => exact (List.prefix_append _ _).trans (ih _ _)

theorem parseState_subs (U : PyUni) (text : Str) (names : List Str) : (Template.parseState U Template.empty text names).1.substitutions =
    (parseLoop U names (findall (replaceChar '%' (str! "%%") text)) [] (replaceChar '%' (str! "%%") text)).1 := by
  unfold Template.parseState
  dsimp only
  cases h : parseLoop U names (findall (replaceChar '%' (str! "%%") text)) Template.empty.substitutions (replaceChar '%' (str! "%%") text) with
  | mk subs r =>
    have h' : parseLoop U names (findall (replaceChar '%' (str! "%%") text)) [] (replaceChar '%' (str! "%%") text) = (subs, r) := h
    rw [h']
    cases r <;> rfl

theorem Stage.subs_prefix {U : PyUni} {text : Str} {names : List Str} {pcs : List ParsePc} {t : Template} (h : Stage U text names pcs t) :
    t.substitutions <+: (Template.parseState U Template.empty text names).1.substitutions := by
  cases h with
  | before => exact List.nil_prefix
  | during vs x subs h => rw [parseState_subs, ← h]; exact parseLoop_prefix U names vs subs x
  | done t r h => rw [h]; exact List.prefix_refl _

theorem Stage.of_nil {U : PyUni} {text : Str} {names : List Str} {t : Template} (h : Stage U text names [] t) : t = Template.empty := by
  cases h
  rfl

theorem Stage.single {U : PyUni} {text : Str} {names : List Str} {pcs : List ParsePc} {t : Template} (h : Stage U text names pcs t) {i : Nat}
    {pc : ParsePc} (hi : pcs[i]? = some pc) : pcs = [pc] ∧ i = 0 := by
  cases h with
  | before => simp at hi
  | during vs x subs h =>
    cases i with
    | zero => simp at hi; exact ⟨by rw [hi], rfl⟩
    | succ i => simp at hi
  | done t r h =>
    cases i with
    | zero => simp at hi; exact ⟨by rw [hi], rfl⟩
    | succ i => simp at hi

theorem Stage.begin (U : PyUni) (text : Str) (names : List Str) : Stage U text names [.begin text names] Template.empty :=
  .during _ _ _ rfl

theorem Stage.step {U : PyUni} {text : Str} {names : List Str} {pc : ParsePc} {t : Template} (h : Stage U text names [pc] t) :
    Stage U text names [(pc.step U t).2] (pc.step U t).1 := by
  cases h with
  | during vs x subs h =>
    cases vs with
    | nil =>
      refine .done _ _ ?_
      unfold Template.parseState
      dsimp only
      rw [show Template.empty.substitutions = [] from rfl, ← h]
      rfl
    | cons v vs =>
      unfold ParsePc.step
      rw [show parseLoop U names (v :: vs) subs x = (match Substitution.parse U v names with
        | .error e => (subs, .error e)
        | .ok s => parseLoop U names vs (subs ++ [s]) (replaceFirst v (str! "%s") x)) from rfl] at h
      dsimp only
      cases hv : Substitution.parse U v names with
      | error e =>
        rw [hv] at h
        refine .done _ _ ?_
        unfold Template.parseState
        dsimp only
        rw [show Template.empty.substitutions = [] from rfl, ← h]
        rfl
      | ok s =>
        rw [hv] at h
        exact .during _ _ _ h
  | done t r h => exact .done _ _ h

/-! ## reading calls -/

theorem mapM_take_succ {α β : Type} {f : α → Except PyErr β} {l : List α} {i : Nat} {a : α} {bs : List β} {b : β} (hi : l[i]? = some a)
    (h : (l.take i).mapM f = .ok bs) (ha : f a = .ok b) : (l.take (i + 1)).mapM f = .ok (bs ++ [b]) := by
  rw [List.take_add_one, hi, Option.toList_some, List.mapM_append, h]
  simp [ha, bind, Except.bind, pure, Except.pure]

theorem mapM_error_at {α β : Type} {f : α → Except PyErr β} {l : List α} {i : Nat} {a : α} {bs : List β} {e : PyErr} (hi : l[i]? = some a)
    (h : (l.take i).mapM f = .ok bs) (ha : f a = .error e) : l.mapM f = .error e := by
  have hl : l = l.take i ++ a :: l.drop (i + 1) := by
    obtain ⟨hlt, rfl⟩ := List.getElem?_eq_some_iff.mp hi
    rw [List.getElem_cons_drop, List.take_append_drop]
  rw [hl, List.mapM_append, h]
  simp [ha, bind, Except.bind]

/-- The only parse has ended. -/
def parseEnded : List ParsePc → Bool
  | [.ended _] => true
  | _ => false

/-- What is known of a reading call; `e`: the parse has ended; `c`: it had ended when the call began. -/
def ReadInv (U : PyUni) (d : Dictionary) (final : Template) (e c : Bool) : ReadPc → Prop
  | .fill ext i texts => i ≤ final.substitutions.length ∧ (final.substitutions.take i).mapM (fun s => s.getText U ext d) = .ok texts
  | .format ext texts => ∃ i, i ≤ final.substitutions.length ∧ (c = true → i = final.substitutions.length) ∧
      (final.substitutions.take i).mapM (fun s => s.getText U ext d) = .ok texts
  | .filled ext r => r = final.substitute U ext d ∨ c = false ∧ r = .error .TypeError
  | .save => True
  | .saving tm i subs => i ≤ final.substitutions.length ∧ subs = (final.substitutions.take i).map Substitution.serialize ∧
      (c = true → tm = final.template) ∧ (tm ≠ none → e = true ∧ tm = final.template)
  | .saved data => data = final.serialize ∨
      c = false ∧ data.template = none ∧ data.substitutions <+: final.serialize.substitutions
  | .ask ext i words => i ≤ final.substitutions.length ∧
      words = Template.getUndictionariedWords ⟨final.substitutions.take i, final.template⟩ ext d
  | .asked ext words => words = final.getUndictionariedWords ext d ∨ c = false ∧ words <+: final.getUndictionariedWords ext d

theorem undictionaried_take {subs : List Substitution} {tm : Option Str} {i : Nat} {s : Substitution} (hi : subs[i]? = some s) (ext : List Str)
    (d : Dictionary) :
    Template.getUndictionariedWords ⟨subs.take (i + 1), tm⟩ ext d =
      if s.id ∈ ext then Template.getUndictionariedWords ⟨subs.take i, tm⟩ ext d
      else if d.hasWord s.id then Template.getUndictionariedWords ⟨subs.take i, tm⟩ ext d
      else Template.getUndictionariedWords ⟨subs.take i, tm⟩ ext d ++ [s.id] := by
  unfold Template.getUndictionariedWords
  rw [List.take_add_one, hi, Option.toList_some, List.filterMap_append]
  by_cases h1 : s.id ∈ ext
  · simp [h1]
  · by_cases h2 : d.hasWord s.id = true
    · simp [h1, h2]
    · simp [h1, h2]

theorem undictionaried_prefix (subs : List Substitution) (tm : Option Str) (i : Nat) (ext : List Str) (d : Dictionary) :
    Template.getUndictionariedWords ⟨subs.take i, tm⟩ ext d <+: Template.getUndictionariedWords ⟨subs, tm⟩ ext d := by
  unfold Template.getUndictionariedWords
  dsimp only
  conv_rhs => rw [← List.take_append_drop i subs]
  rw [List.filterMap_append]
  exact List.prefix_append _ _

/-- In a template that was parsed, there is a place for each substitution. -/
theorem format_short {U : PyUni} {text : Str} {names : List Str} {t : Template} {r : Option PyErr} {tm : Str}
    (h : Template.parseState U Template.empty text names = (t, r)) (ht : t.template = some tm) (texts : List Str)
    (hl : texts.length ≠ t.substitutions.length) : pyFormat U tm texts = .error .TypeError := by
  obtain ⟨l, ps, hp, -⟩ := C45_pieces_unique text
  have hparse : Template.empty.parse U text names = .ok t := by
    unfold Template.parse
    rw [h]
    cases r with
    | none => rfl
    | some e =>
      exfalso
      unfold Template.parseState at h
      dsimp only at h
      cases hloop : parseLoop U names (findall (replaceChar '%' (str! "%%") text)) Template.empty.substitutions
        (replaceChar '%' (str! "%%") text) with
      | mk subs res =>
        rw [hloop] at h
        cases res with
        | ok x => injection h with _ h; cases h
        | error err => injection h with h _; rw [← h] at ht; cases ht
  obtain ⟨h1, h2⟩ := (C45_parse U names text l ps t hp).mp hparse
  rw [h2] at ht
  injection ht with ht
  subst ht
  exact pyFormat_template_short U l ps texts (by rw [h1.length_eq]; exact hl)

theorem readInv_step {U : PyUni} {d : Dictionary} {text : Str} {names : List Str} {pcs : List ParsePc} {t : Template}
    (hst : Stage U text names pcs t) {c : Bool} (hce : c = true → parseEnded pcs = true) {pc : ReadPc}
    (h : ReadInv U d (Template.parseState U Template.empty text names).1 (parseEnded pcs) c pc) :
    ReadInv U d (Template.parseState U Template.empty text names).1 (parseEnded pcs) c (pc.step U d t) := by
  have he : parseEnded pcs = true → t = (Template.parseState U Template.empty text names).1 := by
    intro he
    cases hst with
    | before => cases he
    | during => cases he
    | done t r h => rw [h]
  have hc := fun hct => he (hce hct)
  have hpre := hst.subs_prefix
  generalize hfin : (Template.parseState U Template.empty text names).1 = final at *
  have hget : ∀ {i : Nat} {s : Substitution}, t.substitutions[i]? = some s → final.substitutions[i]? = some s ∧ i + 1 ≤ final.substitutions.length := by
    intro i s hi
    obtain ⟨rest, hrest⟩ := hpre
    have hlt := (List.getElem?_eq_some_iff.mp hi).1
    rw [← hrest]
    refine ⟨by rw [List.getElem?_append_left hlt]; exact hi, by simp; omega⟩
  have hend : ∀ {i : Nat}, t.substitutions[i]? = none → i ≤ final.substitutions.length → c = true → i = final.substitutions.length := by
    intro i hi hle hct
    have := List.getElem?_eq_none_iff.mp hi
    rw [hc hct] at this
    omega
  cases pc with
  | fill ext i texts =>
    obtain ⟨h1, h2⟩ := h
    cases hi : t.substitutions[i]? with
    | none => simp only [ReadPc.step, hi]; exact ⟨i, h1, hend hi h1, h2⟩
    | some s =>
      obtain ⟨hs, hle⟩ := hget hi
      cases htx : s.getText U ext d with
      | ok x => simp only [ReadPc.step, hi, htx]; exact ⟨hle, mapM_take_succ hs h2 htx⟩
      | error e =>
        simp only [ReadPc.step, hi, htx]
        refine .inl ?_
        unfold Template.substitute
        rw [mapM_error_at hs h2 htx]
        rfl
  | format ext texts =>
    obtain ⟨i, h1, h2, h3⟩ := h
    cases htm : t.template with
    | none =>
      simp only [ReadPc.step, htm]
      cases hcc : c with
      | false => exact .inr ⟨rfl, rfl⟩
      | true =>
        refine .inl ?_
        have hi := h2 hcc
        have hte := hc hcc
        unfold Template.substitute
        rw [hi, List.take_length] at h3
        rw [h3, ← hte]
        simp only [bind, Except.bind, htm]
    | some tm =>
      simp only [ReadPc.step, htm]
      have hdone : ∃ r, Template.parseState U Template.empty text names = (t, r) := by
        cases hst with
        | before => cases htm
        | during => cases htm
        | done t r h => exact ⟨r, h⟩
      obtain ⟨r, hdone⟩ := hdone
      have hte : t = final := by rw [← hfin, hdone]
      have hlen : texts.length = i := by
        have := (forall₂_of_mapM h3).length_eq
        rw [List.length_take] at this
        omega
      by_cases hi : i = final.substitutions.length
      · refine .inl ?_
        unfold Template.substitute
        rw [hi, List.take_length] at h3
        rw [h3, ← hte]
        simp only [bind, Except.bind, htm]
      · refine .inr ⟨?_, ?_⟩
        · cases hcc : c with
          | false => rfl
          | true => exact absurd (h2 hcc) hi
        · exact format_short hdone htm texts (by rw [hte, hlen]; exact hi)
  | filled ext r => exact h
  | save =>
    refine ⟨Nat.zero_le _, by simp, fun hct => by rw [hc hct], fun hne => ?_⟩
    have : parseEnded pcs = true := by
      cases hst with
      | before => exact absurd rfl hne
      | during => exact absurd rfl hne
      | done t r h => rfl
    exact ⟨this, by rw [he this]⟩
  | saving tm i subs =>
    obtain ⟨h1, h2, h3, h4⟩ := h
    cases hi : t.substitutions[i]? with
    | none =>
      simp only [ReadPc.step, hi]
      have complete : parseEnded pcs = true → tm = final.template → (⟨tm, subs⟩ : TemplateData) = final.serialize := by
        intro h5 h6
        have := List.getElem?_eq_none_iff.mp hi
        rw [he h5] at this
        have hi' : i = final.substitutions.length := by omega
        rw [h2, h6, hi', List.take_length]
        rfl
      cases hcc : c with
      | true => exact .inl (complete (hce hcc) (h3 hcc))
      | false =>
        cases htm : tm with
        | some x => obtain ⟨h5, h6⟩ := h4 (by rw [htm]; simp); rw [← htm]; exact .inl (complete h5 h6)
        | none =>
          refine .inr ⟨rfl, rfl, ?_⟩
          rw [h2]
          exact (List.take_prefix _ _).map _
    | some s =>
      simp only [ReadPc.step, hi]
      obtain ⟨hs, hle⟩ := hget hi
      refine ⟨hle, ?_, h3, h4⟩
      rw [List.take_add_one, hs, Option.toList_some, List.map_append, ← h2]
      rfl
  | saved data => exact h
  | ask ext i words =>
    obtain ⟨h1, h2⟩ := h
    cases hi : t.substitutions[i]? with
    | none =>
      simp only [ReadPc.step, hi]
      cases hcc : c with
      | true =>
        refine .inl ?_
        rw [h2, hend hi h1 hcc, List.take_length]
      | false => exact .inr ⟨rfl, by rw [h2]; exact undictionaried_prefix _ _ _ _ _⟩
    | some s =>
      simp only [ReadPc.step, hi]
      obtain ⟨hs, hle⟩ := hget hi
      refine ⟨hle, ?_⟩
      rw [undictionaried_take hs, ← h2]
  | asked ext words => exact h

/-! ## schedules -/

theorem ReadInv.mono {U : PyUni} {d : Dictionary} {final : Template} {e e' c : Bool} (he : e = true → e' = true) {pc : ReadPc}
    (h : ReadInv U d final e c pc) : ReadInv U d final e' c pc := by
  cases pc with
  | saving tm i subs =>
    obtain ⟨h1, h2, h3, h4⟩ := h
    exact ⟨h1, h2, h3, fun hne => ⟨he (h4 hne).1, (h4 hne).2⟩⟩
  | _ => exact h

section
variable {U : PyUni} {d : Dictionary} {text : Str} {names : List Str}

theorem stage_step {s : ParseThreads} (hs : Stage U text names s.parses s.template) {e : ParseEvent}
    (he : parsedTexts [e] = [] ∨ s.parses = [] ∧ parsedTexts [e] = [(text, names)]) :
    Stage U text names (s.step U d e).parses (s.step U d e).template ∧
    (parseEnded s.parses = true → parseEnded (s.step U d e).parses = true) := by
  cases e with
  | parse x ns =>
    rcases he with he | ⟨hp, he⟩
    · simp [parsedTexts] at he
    · simp only [parsedTexts, List.cons.injEq, Prod.mk.injEq, and_true] at he
      obtain ⟨rfl, rfl⟩ := he
      rw [hp] at hs
      have ht : s.template = Template.empty := hs.of_nil
      simp only [ParseThreads.step, hp, ht, List.nil_append]
      exact ⟨Stage.begin U x ns, fun h => by cases h⟩
  | runParse i =>
    simp only [ParseThreads.step]
    cases hi : s.parses[i]? with
    | none => exact ⟨hs, id⟩
    | some pc =>
      dsimp only
      have hpcs : s.parses = [pc] ∧ i = 0 := hs.single hi
      obtain ⟨hp, rfl⟩ := hpcs
      rw [hp] at hs ⊢
      refine ⟨hs.step, fun h => ?_⟩
      cases pc with
      | loop => cases h
      | ended => rfl
  | substitute ext => exact ⟨hs, id⟩
  | serialize => exact ⟨hs, id⟩
  | undictionaried ext => exact ⟨hs, id⟩
  | runRead i =>
    simp only [ParseThreads.step]
    cases s.reads[i]? <;> exact ⟨hs, id⟩

theorem readInv_begin {final : Template} {e c : Bool} :
    (∀ ext, ReadInv U d final e c (.fill ext 0 [])) ∧ ReadInv U d final e c .save ∧ ∀ ext, ReadInv U d final e c (.ask ext 0 []) :=
  ⟨fun ext => ⟨Nat.zero_le _, by simp [pure, Except.pure]⟩, trivial, fun ext => ⟨Nat.zero_le _, by simp [Template.getUndictionariedWords]⟩⟩

theorem reads_step {s : ParseThreads} (hs : Stage U text names s.parses s.template) {e : ParseEvent}
    (he : parsedTexts [e] = [] ∨ s.parses = [] ∧ parsedTexts [e] = [(text, names)]) {c : Bool} (hce : c = true → parseEnded s.parses = true)
    {n : Nat} (h : ∀ j pc, n ≤ j → s.reads[j]? = some pc →
      ReadInv U d (Template.parseState U Template.empty text names).1 (parseEnded s.parses) c pc) :
    ∀ j pc, n ≤ j → (s.step U d e).reads[j]? = some pc →
      ReadInv U d (Template.parseState U Template.empty text names).1 (parseEnded (s.step U d e).parses) c pc := by
  have hmono := (stage_step (d := d) hs he).2
  have happend : ∀ pc0, ReadInv U d (Template.parseState U Template.empty text names).1 (parseEnded s.parses) c pc0 →
      ∀ j pc, n ≤ j → (s.reads ++ [pc0])[j]? = some pc →
        ReadInv U d (Template.parseState U Template.empty text names).1 (parseEnded s.parses) c pc := by
    intro pc0 h0 j pc hj hpc
    by_cases hlt : j < s.reads.length
    · rw [List.getElem?_append_left hlt] at hpc; exact h j pc hj hpc
    · rw [List.getElem?_append_right (by omega)] at hpc
      have := List.mem_of_getElem? hpc
      rw [List.mem_singleton.mp this]; exact h0
  cases e with
  | parse x ns => intro j pc hj hpc; exact (h j pc hj hpc).mono hmono
  | runParse i =>
    intro j pc hj hpc
    refine ReadInv.mono hmono (h j pc hj ?_)
    simp only [ParseThreads.step] at hpc
    cases hi : s.parses[i]? with
    | none => rw [hi] at hpc; exact hpc
    | some pc' => rw [hi] at hpc; exact hpc
  | substitute ext => exact happend _ (readInv_begin.1 ext)
  | serialize => exact happend _ readInv_begin.2.1
  | undictionaried ext => exact happend _ (readInv_begin.2.2 ext)
  | runRead i =>
    intro j pc hj hpc
    simp only [ParseThreads.step] at hpc ⊢
    cases hi : s.reads[i]? with
    | none => rw [hi] at hpc; exact h j pc hj hpc
    | some pc' =>
      rw [hi] at hpc
      dsimp only at hpc ⊢
      rw [List.getElem?_set] at hpc
      split at hpc
      · rename_i hij
        subst hij
        split at hpc
        · injection hpc with hpc
          rw [← hpc]
          exact readInv_step hs hce (h i pc' hj hi)
        · cases hpc
      · exact h j pc hj hpc

theorem parsedTexts_append (es fs : List ParseEvent) : parsedTexts (es ++ fs) = parsedTexts es ++ parsedTexts fs := by
  induction es with
  | nil => rfl
  | cons e es ih => cases e <;> simp [parsedTexts, ih]

theorem parses_nil_step {s : ParseThreads} {e : ParseEvent} : (s.step U d e).parses = [] ↔ s.parses = [] ∧ parsedTexts [e] = [] := by
  cases e with
  | parse x ns => simp [ParseThreads.step, parsedTexts]
  | runParse i =>
    simp only [ParseThreads.step, parsedTexts, and_true]
    cases hi : s.parses[i]? with
    | none => rfl
    | some pc => simp
  | runRead i =>
    simp only [ParseThreads.step, parsedTexts, and_true]
    cases s.reads[i]? <;> rfl
  | substitute ext => simp [ParseThreads.step, parsedTexts]
  | serialize => simp [ParseThreads.step, parsedTexts]
  | undictionaried ext => simp [ParseThreads.step, parsedTexts]

theorem parse_after {events : List ParseEvent} (h : parsedTexts events = [] ∨ parsedTexts events = [(text, names)]) :
    let s := ParseThreads.after U d events
    Stage U text names s.parses s.template ∧ (s.parses = [] ↔ parsedTexts events = []) ∧
    ∀ j pc, 0 ≤ j → s.reads[j]? = some pc →
      ReadInv U d (Template.parseState U Template.empty text names).1 (parseEnded s.parses) false pc := by
  induction events using List.reverseRecOn with
  | nil => exact ⟨.before, by simp [ParseThreads.after, parsedTexts], by simp [ParseThreads.after]⟩
  | append_singleton es e ih =>
    rw [parsedTexts_append] at h
    have hes : parsedTexts es = [] ∨ parsedTexts es = [(text, names)] := by
      rcases h with h | h
      · exact .inl (List.append_eq_nil_iff.mp h).1
      · rcases List.append_eq_singleton_iff.mp h with ⟨h1, -⟩ | ⟨h1, -⟩
        · exact .inl h1
        · exact .inr h1
    obtain ⟨h1, h2, h3⟩ := ih hes
    have he : parsedTexts [e] = [] ∨ (ParseThreads.after U d es).parses = [] ∧ parsedTexts [e] = [(text, names)] := by
      rcases h with h | h
      · exact .inl (List.append_eq_nil_iff.mp h).2
      · rcases List.append_eq_singleton_iff.mp h with ⟨h4, h5⟩ | ⟨-, h5⟩
        · exact .inr ⟨h2.mpr h4, h5⟩
        · exact .inl h5
    have hstep : ParseThreads.after U d (es ++ [e]) = (ParseThreads.after U d es).step U d e := by simp [ParseThreads.after]
    rw [hstep]
    refine ⟨(stage_step h1 he).1, ?_, reads_step h1 he (fun h => by cases h) h3⟩
    rw [parses_nil_step, h2, parsedTexts_append]
    simp

theorem parse_since {s : ParseThreads} (hs : Stage U text names s.parses s.template) (hend : parseEnded s.parses = true) (n : Nat)
    (h : ∀ j pc, n ≤ j → s.reads[j]? = some pc →
      ReadInv U d (Template.parseState U Template.empty text names).1 (parseEnded s.parses) true pc) (es : List ParseEvent)
    (hes : parsedTexts es = []) :
    ∀ j pc, n ≤ j → (es.foldl (ParseThreads.step U d) s).reads[j]? = some pc →
      ReadInv U d (Template.parseState U Template.empty text names).1 (parseEnded (es.foldl (ParseThreads.step U d) s).parses) true pc := by
  induction es generalizing s with
  | nil => exact h
  | cons e es ih =>
    rw [show e :: es = [e] ++ es from rfl, parsedTexts_append] at hes
    obtain ⟨h1, h2⟩ := List.append_eq_nil_iff.mp hes
    simp only [List.foldl_cons]
    obtain ⟨g1, g2⟩ := stage_step (d := d) hs (.inl h1)
    exact ih g1 (g2 hend) (reads_step hs (.inl h1) (fun _ => hend) h) h2

end

/-- C141: while a template is parsed, for the first time, in one thread, `substitute` in others gives what it gives afterwards, or raises
`TypeError`; `serialize` gives what it gives afterwards, or data without text, with some of the first substitutions;
`get_undictionaried_words` gives the first of the words that it gives afterwards. -/
theorem C141_while_parsing (U : PyUni) (d : Dictionary) (text : Str) (names : List Str) (events : List ParseEvent)
    (h : parsedTexts events = [(text, names)]) :
    let final := (Template.parseState U Template.empty text names).1
    (∀ ext r, .filled ext r ∈ (ParseThreads.after U d events).reads → r = final.substitute U ext d ∨ r = .error .TypeError) ∧
    (∀ data, .saved data ∈ (ParseThreads.after U d events).reads →
      data = final.serialize ∨ data.template = none ∧ data.substitutions <+: final.serialize.substitutions) ∧
    (∀ ext words, .asked ext words ∈ (ParseThreads.after U d events).reads → words <+: final.getUndictionariedWords ext d) := by
  obtain ⟨-, -, h3⟩ := parse_after (U := U) (d := d) (.inr h)
  have hmem : ∀ pc ∈ (ParseThreads.after U d events).reads, ReadInv U d (Template.parseState U Template.empty text names).1
      (parseEnded (ParseThreads.after U d events).parses) false pc := fun pc hpc => by
    obtain ⟨j, hj⟩ := List.mem_iff_getElem?.mp hpc
    exact h3 j pc (Nat.zero_le _) hj
  refine ⟨fun ext r hr => ?_, fun data hd => ?_, fun ext words hw => ?_⟩
  · rcases hmem _ hr with e | ⟨-, e⟩
    · exact .inl e
    · exact .inr e
  · rcases hmem _ hd with e | ⟨-, e⟩
    · exact .inl e
    · exact .inr e
  · rcases hmem _ hw with e | ⟨-, e⟩
    · rw [e]; exact List.prefix_refl _
    · exact e

/-- C141: the calls do not disturb the parse: the template becomes what it becomes if nobody looks, and the same exception is raised, if any. -/
theorem C141_parse_undisturbed (U : PyUni) (d : Dictionary) (text : Str) (names : List Str) (events : List ParseEvent)
    (h : parsedTexts events = [(text, names)]) (e : Option PyErr) (he : .ended e ∈ (ParseThreads.after U d events).parses) :
    ((ParseThreads.after U d events).template, e) = Template.parseState U Template.empty text names := by
  obtain ⟨h1, -, -⟩ := parse_after (U := U) (d := d) (.inr h)
  generalize (ParseThreads.after U d events).parses = pcs at *
  generalize (ParseThreads.after U d events).template = t at *
  cases h1 with
  | before => simp at he
  | during => simp at he
  | done t r h => simp at he; rw [he, h]

/-- C141: calls that begin when the parse has ended give exactly what the parsed template gives. -/
theorem C141_after_parsing (U : PyUni) (d : Dictionary) (text : Str) (names : List Str) (es fs : List ParseEvent)
    (h : parsedTexts (es ++ fs) = [(text, names)]) (e : Option PyErr) (he : .ended e ∈ (ParseThreads.after U d es).parses) (j : Nat)
    (hj : (ParseThreads.after U d es).reads.length ≤ j) :
    let final := (Template.parseState U Template.empty text names).1
    (∀ ext r, (ParseThreads.after U d (es ++ fs)).reads[j]? = some (.filled ext r) → r = final.substitute U ext d) ∧
    (∀ data, (ParseThreads.after U d (es ++ fs)).reads[j]? = some (.saved data) → data = final.serialize) ∧
    (∀ ext words, (ParseThreads.after U d (es ++ fs)).reads[j]? = some (.asked ext words) → words = final.getUndictionariedWords ext d) := by
  have hes : parsedTexts es = [] ∨ parsedTexts es = [(text, names)] := by
    rw [parsedTexts_append] at h
    rcases List.append_eq_singleton_iff.mp h with ⟨h1, -⟩ | ⟨h1, -⟩
    · exact .inl h1
    · exact .inr h1
  obtain ⟨h1, h2, -⟩ := parse_after (U := U) (d := d) hes
  have hend : parseEnded (ParseThreads.after U d es).parses = true := by
    generalize (ParseThreads.after U d es).parses = pcs at *
    generalize (ParseThreads.after U d es).template = t at *
    cases h1 with
    | before => simp at he
    | during => simp at he
    | done t r h => rfl
  have hfs : parsedTexts fs = [] := by
    rw [parsedTexts_append] at h
    rcases List.append_eq_singleton_iff.mp h with ⟨h4, -⟩ | ⟨-, h4⟩
    · rw [h2.mpr h4] at he; simp at he
    · exact h4
  have key := parse_since (d := d) h1 hend (ParseThreads.after U d es).reads.length (by
    intro i pc hi hpc
    have := (List.getElem?_eq_some_iff.mp hpc).1
    exfalso
    omega) fs hfs
  have hfold : fs.foldl (ParseThreads.step U d) (ParseThreads.after U d es) = ParseThreads.after U d (es ++ fs) := by
    simp [ParseThreads.after]
  rw [hfold] at key
  refine ⟨fun ext r hr => ?_, fun data hd => ?_, fun ext words hw => ?_⟩
  · rcases key j _ hj hr with e | ⟨e, -⟩
    · exact e
    · cases e
  · rcases key j _ hj hd with e | ⟨e, -⟩
    · exact e
    · cases e
  · rcases key j _ hj hw with e | ⟨e, -⟩
    · exact e
    · cases e


/-! ## the calls end -/

/-- How many steps a reading call still needs. -/
def ReadPc.left (n : Nat) : ReadPc → Nat
  | .fill _ i _ => n - i + 2
  | .format _ _ => 1
  | .save => n + 2
  | .saving _ i _ => n - i + 1
  | .ask _ i _ => n - i + 1
  | _ => 0

theorem readEnded_of_left {n : Nat} {pc : ReadPc} (h : pc.left n = 0) : ReadEnded pc := by
  cases pc with
  | fill => simp [ReadPc.left] at h
  | format => simp [ReadPc.left] at h
  | save => simp [ReadPc.left] at h
  | saving => simp [ReadPc.left] at h
  | ask => simp [ReadPc.left] at h
  | filled => trivial
  | saved => trivial
  | asked => trivial

theorem left_step (U : PyUni) (d : Dictionary) {t : Template} {n : Nat} (hn : t.substitutions.length ≤ n) (pc : ReadPc) :
    (pc.step U d t).left n ≤ pc.left n - 1 := by
  have hlt : ∀ {i : Nat} {s : Substitution}, t.substitutions[i]? = some s → i < n := fun h =>
    Nat.lt_of_lt_of_le (List.getElem?_eq_some_iff.mp h).1 hn
  cases pc with
  | fill ext i texts =>
    cases hi : t.substitutions[i]? with
    | none => simp [ReadPc.step, hi, ReadPc.left]
    | some s =>
      have := hlt hi
      cases htx : s.getText U ext d with
      | ok x => simp only [ReadPc.step, hi, htx, ReadPc.left]; omega
      | error e => simp [ReadPc.step, hi, htx, ReadPc.left]
  | format ext texts => cases htm : t.template <;> simp [ReadPc.step, htm, ReadPc.left]
  | save => simp [ReadPc.step, ReadPc.left]
  | saving tm i subs =>
    cases hi : t.substitutions[i]? with
    | none => simp [ReadPc.step, hi, ReadPc.left]
    | some s => have := hlt hi; simp only [ReadPc.step, hi, ReadPc.left]; omega
  | ask ext i words =>
    cases hi : t.substitutions[i]? with
    | none => simp [ReadPc.step, hi, ReadPc.left]
    | some s => have := hlt hi; simp only [ReadPc.step, hi, ReadPc.left]; omega
  | filled => simp [ReadPc.step, ReadPc.left]
  | saved => simp [ReadPc.step, ReadPc.left]
  | asked => simp [ReadPc.step, ReadPc.left]

/-- One event: a reading call that has its turn comes nearer to its end, the others stay. -/
theorem reads_left_step (U : PyUni) (d : Dictionary) {s : ParseThreads} {n : Nat} (hn : s.template.substitutions.length ≤ n) {j : Nat} {pc : ReadPc}
    (hpc : s.reads[j]? = some pc) (e : ParseEvent) :
    ∃ pc', (s.step U d e).reads[j]? = some pc' ∧ pc'.left n ≤ pc.left n - readTurns j [e] := by
  have hlt := (List.getElem?_eq_some_iff.mp hpc).1
  cases e with
  | parse x ns => exact ⟨pc, hpc, by simp [readTurns]⟩
  | runParse i =>
    refine ⟨pc, ?_, by simp [readTurns]⟩
    simp only [ParseThreads.step]
    cases s.parses[i]? <;> exact hpc
  | substitute ext => exact ⟨pc, by simp only [ParseThreads.step]; rw [List.getElem?_append_left hlt]; exact hpc, by simp [readTurns]⟩
  | serialize => exact ⟨pc, by simp only [ParseThreads.step]; rw [List.getElem?_append_left hlt]; exact hpc, by simp [readTurns]⟩
  | undictionaried ext => exact ⟨pc, by simp only [ParseThreads.step]; rw [List.getElem?_append_left hlt]; exact hpc, by simp [readTurns]⟩
  | runRead i =>
    simp only [ParseThreads.step]
    by_cases hij : i = j
    · subst hij
      rw [hpc]
      refine ⟨pc.step U d s.template, ?_, by simpa [readTurns] using left_step U d hn pc⟩
      simp [hlt]
    · refine ⟨pc, ?_, by simp [readTurns, hij]⟩
      cases s.reads[i]? with
      | none => exact hpc
      | some pc' => dsimp only; rw [List.getElem?_set_ne hij]; exact hpc

theorem readTurns_append (j : Nat) (es fs : List ParseEvent) : readTurns j (es ++ fs) = readTurns j es + readTurns j fs := by
  induction es with
  | nil => simp [readTurns]
  | cons e es ih => cases e <;> simp [readTurns, ih]; omega

theorem parseTurns_append (j : Nat) (es fs : List ParseEvent) : parseTurns j (es ++ fs) = parseTurns j es + parseTurns j fs := by
  induction es with
  | nil => simp [parseTurns]
  | cons e es ih => cases e <;> simp [parseTurns, ih]; omega

theorem ReadInv.left_le {U : PyUni} {d : Dictionary} {final : Template} {e c : Bool} {pc : ReadPc} (_ : ReadInv U d final e c pc) :
    pc.left final.substitutions.length ≤ final.substitutions.length + 2 := by
  cases pc <;> simp [ReadPc.left] <;> omega

/-- C141: a reading call ends, whatever the others do, when it has had two steps and one for each substitution of the parsed template. -/
theorem C141_calls_end (U : PyUni) (d : Dictionary) (text : Str) (names : List Str) (before later : List ParseEvent)
    (h : parsedTexts (before ++ later) = [(text, names)]) (j : Nat) (hj : j < (ParseThreads.after U d before).reads.length)
    (ht : (Template.parseState U Template.empty text names).1.substitutions.length + 2 ≤ readTurns j later) :
    ∃ pc, (ParseThreads.after U d (before ++ later)).reads[j]? = some pc ∧ ReadEnded pc := by
  suffices H : ∃ pc, (ParseThreads.after U d (before ++ later)).reads[j]? = some pc ∧
      pc.left (Template.parseState U Template.empty text names).1.substitutions.length ≤
        (Template.parseState U Template.empty text names).1.substitutions.length + 2 - readTurns j later by
    obtain ⟨pc, h1, h2⟩ := H
    exact ⟨pc, h1, readEnded_of_left (n := (Template.parseState U Template.empty text names).1.substitutions.length) (by omega)⟩
  clear ht
  replace h : parsedTexts (before ++ later) = [] ∨ parsedTexts (before ++ later) = [(text, names)] := .inr h
  induction later using List.reverseRecOn with
  | nil =>
    rw [List.append_nil] at h ⊢
    obtain ⟨h1, -, h3⟩ := parse_after (U := U) (d := d) h
    exact ⟨_, List.getElem?_eq_getElem hj, (h3 j _ (Nat.zero_le _) (List.getElem?_eq_getElem hj)).left_le⟩
  | append_singleton later e ih =>
    rw [← List.append_assoc] at h ⊢
    have hb : parsedTexts (before ++ later) = [] ∨ parsedTexts (before ++ later) = [(text, names)] := by
      rw [parsedTexts_append] at h
      rcases h with h | h
      · exact .inl (List.append_eq_nil_iff.mp h).1
      · rcases List.append_eq_singleton_iff.mp h with ⟨h1, -⟩ | ⟨h1, -⟩
        · exact .inl h1
        · exact .inr h1
    obtain ⟨pc, g1, g2⟩ := ih hb
    obtain ⟨h1, -, -⟩ := parse_after (U := U) (d := d) hb
    obtain ⟨pc', g3, g4⟩ := reads_left_step U d h1.subs_prefix.length_le g1 e
    refine ⟨pc', ?_, ?_⟩
    · rw [← g3]; simp [ParseThreads.after]
    · rw [readTurns_append]; omega

/-- How many steps a parse still needs. -/
def ParsePc.left : ParsePc → Nat
  | .loop _ vs _ => vs.length + 1
  | .ended _ => 0

theorem parses_left_step (U : PyUni) (d : Dictionary) {s : ParseThreads} {j : Nat} {pc : ParsePc} (hpc : s.parses[j]? = some pc) (e : ParseEvent) :
    ∃ pc', (s.step U d e).parses[j]? = some pc' ∧ pc'.left ≤ pc.left - parseTurns j [e] := by
  have hlt := (List.getElem?_eq_some_iff.mp hpc).1
  cases e with
  | parse x ns => exact ⟨pc, by simp only [ParseThreads.step]; rw [List.getElem?_append_left hlt]; exact hpc, by simp [parseTurns]⟩
  | runRead i =>
    refine ⟨pc, ?_, by simp [parseTurns]⟩
    simp only [ParseThreads.step]
    cases s.reads[i]? <;> exact hpc
  | substitute ext => exact ⟨pc, hpc, by simp [parseTurns]⟩
  | serialize => exact ⟨pc, hpc, by simp [parseTurns]⟩
  | undictionaried ext => exact ⟨pc, hpc, by simp [parseTurns]⟩
  | runParse i =>
    simp only [ParseThreads.step]
    by_cases hij : i = j
    · subst hij
      rw [hpc]
      refine ⟨(pc.step U s.template).2, by simp [hlt], ?_⟩
      cases pc with
      | ended e => simp [ParsePc.step, ParsePc.left]
      | loop ns vs x =>
        cases vs with
        | nil => simp [ParsePc.step, ParsePc.left, parseTurns]
        | cons v vs =>
          cases hv : Substitution.parse U v ns <;> simp [ParsePc.step, hv, ParsePc.left, parseTurns]
    · refine ⟨pc, ?_, by simp [parseTurns, hij]⟩
      cases s.parses[i]? with
      | none => exact hpc
      | some pc' => dsimp only; rw [List.getElem?_set_ne hij]; exact hpc

theorem parses_length (U : PyUni) (d : Dictionary) (events : List ParseEvent) :
    (ParseThreads.after U d events).parses.length = (parsedTexts events).length := by
  induction events using List.reverseRecOn with
  | nil => rfl
  | append_singleton es e ih =>
    rw [show ParseThreads.after U d (es ++ [e]) = (ParseThreads.after U d es).step U d e by simp [ParseThreads.after], parsedTexts_append,
      List.length_append, ← ih]
    cases e with
    | parse x ns => simp [ParseThreads.step, parsedTexts]
    | runParse i =>
      simp only [ParseThreads.step, parsedTexts, List.length_nil, Nat.add_zero]
      cases (ParseThreads.after U d es).parses[i]? with
      | none => rfl
      | some pc => simp
    | runRead i =>
      simp only [ParseThreads.step, parsedTexts, List.length_nil, Nat.add_zero]
      cases (ParseThreads.after U d es).reads[i]? <;> rfl
    | substitute ext => rfl
    | serialize => rfl
    | undictionaried ext => rfl

/-- C141: a parse ends, whatever the others do, when it has had one step for each variable of its text and one more; here any number of
texts are parsed. -/
theorem C141_parse_ends (U : PyUni) (d : Dictionary) (text : Str) (names : List Str) (before later : List ParseEvent) (l : Str)
    (ps : List (Str × Str)) (hp : Pieces text l ps)
    (ht : ps.length + 1 ≤ parseTurns (parsedTexts before).length later) :
    ∃ e, (ParseThreads.after U d (before ++ .parse text names :: later)).parses[(parsedTexts before).length]? = some (.ended e) := by
  suffices H : ∃ pc, (ParseThreads.after U d (before ++ .parse text names :: later)).parses[(parsedTexts before).length]? = some pc ∧
      pc.left ≤ ps.length + 1 - parseTurns (parsedTexts before).length later by
    obtain ⟨pc, h1, h2⟩ := H
    cases pc with
    | ended e => exact ⟨e, h1⟩
    | loop => simp only [ParsePc.left] at h2; omega
  clear ht
  induction later using List.reverseRecOn with
  | nil =>
    refine ⟨.begin text names, ?_, ?_⟩
    · simp only [ParseThreads.after, List.foldl_append, List.foldl_cons, List.foldl_nil]
      rw [show before.foldl (ParseThreads.step U d) ⟨Template.empty, [], []⟩ = ParseThreads.after U d before from rfl]
      simp only [ParseThreads.step]
      rw [← parses_length U d before]
      simp
    · simp only [ParsePc.begin, ParsePc.left, replaceChar_eq_doubled, findall_pieces (pieces_doubled hp), parseTurns, List.length_map]
      omega
  | append_singleton later e ih =>
    obtain ⟨pc, g1, g2⟩ := ih
    obtain ⟨pc', g3, g4⟩ := parses_left_step U d g1 e
    refine ⟨pc', ?_, ?_⟩
    · rw [← g3]; simp [ParseThreads.after]
    · rw [parseTurns_append]; omega

/-! ## examples -/

/-- Two externals. -/
def exTwo : Externals := [(str! "a", WordForm.new ⟨.TEXT, [str! "мир"], .new []⟩), (str! "b", WordForm.new ⟨.TEXT, [str! "май"], .new []⟩)]

/-- C141: if two texts are parsed by one template, even one after the other, a call of `substitute` can mix them: the word of the first
text in the second. -/
theorem C141_two_texts_mixed : ∃ (events : List ParseEvent) (r : Str),
    parsedTexts events = [(str! "[a]!", [str! "a", str! "b"]), (str! "[b]?", [str! "a", str! "b"])] ∧
    (∃ t, Template.empty.parse exPy (str! "[a]!") [str! "a", str! "b"] = .ok t ∧ t.substitute exPy exTwo [] = .ok (str! "мир!")) ∧
    (∃ t, Template.empty.parse exPy (str! "[b]?") [str! "a", str! "b"] = .ok t ∧ t.substitute exPy exTwo [] = .ok (str! "май?")) ∧
    (ParseThreads.after exPy [] events).reads = [.filled exTwo (.ok r)] ∧ r = str! "мир?" := by
  refine ⟨[.parse (str! "[a]!") [str! "a", str! "b"], .runParse 0, .runParse 0, .substitute exTwo, .runRead 0, .runRead 0,
    .parse (str! "[b]?") [str! "a", str! "b"], .runParse 1, .runParse 1, .runRead 0], str! "мир?", rfl,
    ⟨⟨[⟨str! "a", []⟩], some (str! "%s!")⟩, by decide +kernel, by decide +kernel⟩,
    ⟨⟨[⟨str! "b", []⟩], some (str! "%s?")⟩, by decide +kernel, by decide +kernel⟩, ?_, rfl⟩
  rfl

/-- C141 applies: `[a] и [b]` is parsed; a call that begins before the second variable is read raises `TypeError`, or, if it waits,
writes both words; `serialize` that looks at the text early gives data without text. -/
example : let events := [ParseEvent.parse (str! "[a] и [b]") [str! "a", str! "b"], .runParse 0, .substitute exTwo, .substitute exTwo, .serialize,
      .runRead 0, .runRead 0, .runRead 1, .runRead 2, .runParse 0, .runParse 0, .runRead 0, .runRead 1, .runRead 1, .runRead 1, .runRead 2,
      .runRead 2, .runRead 2]
    parsedTexts events = [(str! "[a] и [b]", [str! "a", str! "b"])] ∧
    (ParseThreads.after exPy [] events).parses = [.ended none] ∧
    (ParseThreads.after exPy [] events).reads = [.filled exTwo (.error .TypeError), .filled exTwo (.ok (str! "мир и май")),
      .saved ⟨none, [⟨str! "a", []⟩, ⟨str! "b", []⟩]⟩] :=
  ⟨rfl, rfl, rfl⟩

end Utg
