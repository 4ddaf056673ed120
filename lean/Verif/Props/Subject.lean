import Verif.Spec.Subject
import Verif.Props.Phrase
/-!
# C152: a subject and its verb
-/

namespace Utg
open Py Spec

theorem layout_groups (t : WordType) : ∀ m ∈ layoutNow t, (m.map Rec.group).Nodup ∧ (∀ r ∈ m, r.group ∈ t.schema) ∧
    (t = .NOUN → ∃ r ∈ m, r.group = .NOUN_FORM) ∧ (t = .VERB → ∃ r ∈ m, r.group = .VERB_FORM) ∧
    (t ≠ .NOUN → ∀ r ∈ m, r.group ≠ .NOUN_FORM) ∧ (t ≠ .VERB → ∀ r ∈ m, r.group ≠ .VERB_FORM) := by
  cases t <;> decide +kernel

theorem layout_verbs : ∀ m ∈ layoutNow .VERB, .VERB_FORM_INDICATIVE ∈ m →
    (∃ r ∈ m, r.group = .TIME) ∧ ∃ r ∈ m, r.group = .NUMBER := by decide +kernel

theorem written_at {U : PyUni} {ws : List Word} (hws : ∀ w ∈ ws, Accepted w) {word : Str} {base : WordForm}
    (hbase : (history U ws).getWord word = .ok base) (hfree : ∀ g ∈ base.word.type.schema, base.word.properties.isSpecified g = false)
    (hlow : base.word.properties.isSpecified .WORD_CASE = false) :
    ∃ (i : Nat) (m : List Rec), (layoutNow base.word.type)[i]? = some m ∧ base.word.forms[i]? = some word ∧
      ∀ g, base.properties.get g = if base.word.properties.isSpecified g then base.word.properties.get g
        else (m.find? fun r => decide (r.group = g)).or (documentedDefault g) := by
  obtain ⟨hf, hw, fs, hfs, hm⟩ := C25_lookup_sound U ws hws word base hbase
  have hacc := hws _ hw
  obtain ⟨h1, h2⟩ := accepted_iff.mp hacc
  have hlow' : base.word.properties.get .WORD_CASE = some .WORD_CASE_LOWER := by
    have := effective_eq h1 h1 .WORD_CASE
    rw [new2_get h1 h1, hlow] at this
    simp only [Bool.false_eq_true, if_false] at this
    rw [this]
    simp [effective, hlow, documentedDefault]
  obtain ⟨fs', hfs', hmap⟩ := C09_spells_slot U base.word hacc hfree hlow'
  rw [hfs] at hfs'
  injection hfs' with hfs'
  subst hfs'
  obtain ⟨i, hi⟩ := List.mem_iff_getElem?.mp hm
  have hi' : base.word.forms[i]? = some word := by
    have := congrArg (fun l => l[i]?) hmap
    simp only [List.getElem?_map, hi, Option.map_some, hf] at this
    cases hx : base.word.forms[i]? with
    | none => rw [hx] at this; simp at this
    | some x =>
      rw [hx] at this
      simp only [Option.map_some, Option.some.injEq, Except.ok.injEq] at this
      rw [this]
  rw [allForms_spec h2] at hfs
  injection hfs with hfs
  rw [← hfs, List.getElem?_map] at hi
  cases hk : (invertedCache base.word.type)[i]? with
  | none => rw [hk] at hi; cases hi
  | some k =>
    rw [hk] at hi
    injection hi with hi
    have hlay : (layoutNow base.word.type)[i]? = some (k.filterMap id) := by
      rw [layoutNow_eq, List.getElem?_map, hk]; rfl
    refine ⟨i, k.filterMap id, hlay, hi', fun g => ?_⟩
    have hnd := (layout_groups _ _ (List.mem_of_getElem? hlay)).1
    have hp : base.properties = .new [.props (propertiesOfKey k), .props base.word.properties] := by
      conv_lhs => rw [← hi]
      rfl
    rw [hp, new2_get (wf_propertiesOfKey k) h1]
    by_cases hg : base.word.properties.isSpecified g = true
    · simp [hg]
    · simp only [hg, if_false, Bool.false_eq_true]
      rw [propertiesOfKey_records]
      unfold Properties.get
      have := listed_says (ext := []) hnd g
      rw [depSays_eq] at this
      simp only [depProps] at this
      rw [this, defaultProperty_eq]
      cases (k.filterMap id).find? fun r => decide (r.group = g) <;> rfl

/-- C152: in `[subject] [word|subject]` the word takes the form whose properties are those of the subject, and otherwise those that are
recognised in the form in which it is written. -/
theorem C152_agreement (U : PyUni) (ws : List Word) (hws : ∀ w ∈ ws, Accepted w) (ext : Externals) (names : List Str)
    (subject word : Str) (base : WordForm) (s : Word)
    (h1 : Written U subject) (h2 : Written U word) (hx : subject ∈ names)
    (he : GoodExternals ext) (hsubject : ext.get? subject = some (WordForm.new s)) (hst : s.type ≠ .INTEGER)
    (hsl : s.properties.isSpecified .WORD_CASE = false)
    (hword : ext.get? word = none) (hbase : (history U ws).getWord word = .ok base) (hbt : base.word.type ≠ .PREPOSITION)
    (hfree : ∀ g ∈ base.word.type.schema, base.word.properties.isSpecified g = false)
    (hlow : base.word.properties.isSpecified .WORD_CASE = false) :
    ∃ (t : Template) (i j : Nat) (written printed : List Rec) (a b : Str),
      Template.empty.parse U (subjectText subject word) names = .ok t ∧
      (layoutNow base.word.type)[i]? = some written ∧ base.word.forms[i]? = some word ∧
      (layoutNow base.word.type)[j]? = some printed ∧ base.word.forms[j]? = some b ∧ s.normalForm = .ok a ∧
      (∀ r ∈ printed, r.group ∉ [Group.NOUN_FORM, .VERB_FORM] → wanted s written r.group = some r) ∧
      (∀ r ∈ written, r.group ∈ [Group.NOUN_FORM, .VERB_FORM] → s.properties.isSpecified r.group = false →
        r ∈ printed ∨ NoSuchForm r (wanted s written .NUMBER) (wanted s written .PERSON)) ∧
      t.substitute U ext (history U ws) = .ok (a ++ ' ' :: b) := by
  have hd : GoodDictionary (history U ws) := goodDictionary_history U ws hws
  have hacc : Accepted s := (he _ _ hsubject).1
  have hsp := (accepted_iff.mp hacc).1
  have hr : Resolves ext (history U ws) word base := .inr ⟨hword, hbase⟩
  have hb := resolves_good he hd hr
  have hwp := (accepted_iff.mp hb.1).1
  obtain ⟨i, written, w1, w2, w3⟩ := written_at hws hbase hfree hlow
  obtain ⟨v1, p1⟩ := parse_written (names := names) (slugs := []) h1 (by simp) .nil
  obtain ⟨v2, p2⟩ := parse_written (names := names) (slugs := [subject]) h2 (by simp only [List.mem_cons, List.not_mem_nil, or_false]; rintro s rfl; assumption)
    (.cons (reads_name h1 hx) .nil)
  have hsp' : IsLiteral [' '] := isLiteral_cons.mpr ⟨fun h => absurd h (by decide), isLiteral_nil⟩
  have hp : Pieces (subjectText subject word) [] [(bracketed subject [], [' ']), (bracketed word [subject], [])] := by
    have q2 := Pieces.var [' '] _ [] [] [] hsp' v2 (.last [] (isFinal_of_isLiteral isLiteral_nil))
    have q1 := Pieces.var [] _ _ _ _ isLiteral_nil v1 q2
    simpa [subjectText] using q1
  have hs1 : GoodSubstitution ⟨subject, []⟩ := by intro p hp; simp at hp
  have hs2 : GoodSubstitution ⟨word, [.ext subject]⟩ := by intro p hp; simp at hp
  have hsay : ∀ g, depSays ext (.ext subject) g = if s.properties.isSpecified g then s.properties.get g else none := by
    intro g; simp only [depSays, hsubject]; rfl
  have hi2 : ∀ g, initialReading ext base [.ext subject] g =
      if base.word.properties.isSpecified g then base.word.properties.get g else wanted s written g := by
    intro g
    simp only [initialReading, lastSay, hsay, wanted, w3]
    by_cases hw : base.word.properties.isSpecified g = true
    · simp [hw]
    simp only [hw, if_false, Bool.false_eq_true]
    by_cases hg : s.properties.isSpecified g = true
    · obtain ⟨r, hr⟩ := isSpecified_iff.mp hg
      have hr' : s.properties.get g = some r := by simp [Properties.get, hr]
      simp [hg, hr']
    · simp [hg]
  have hi1 : ∀ g, initialReading ext (WordForm.new s) [] g = s.properties.get g := by
    intro g
    simp only [initialReading, lastSay]
    show (if s.properties.isSpecified g then s.properties.get g else s.properties.get g) = _
    simp
  have hsc : s.properties.get .WORD_CASE = some .WORD_CASE_LOWER := by
    have := effective_eq hsp hsp .WORD_CASE
    rw [new2_get hsp hsp, hsl] at this
    simp only [Bool.false_eq_true, if_false] at this
    rw [this]
    simp [effective, hsl, documentedDefault]
  have hwm : written ∈ layoutNow base.word.type := List.mem_of_getElem? w1
  have hl2 : initialReading ext base [.ext subject] .WORD_CASE = some .WORD_CASE_LOWER := by
    have hno : written.find? (fun r => decide (r.group = Group.WORD_CASE)) = none := by
      rw [List.find?_eq_none]
      intro r hr h
      simp only [decide_eq_true_eq] at h
      have := (layout_groups _ _ hwm).2.1 r hr
      rw [h] at this
      revert this
      cases base.word.type <;> decide
    rw [hi2, hlow]
    simp [wanted, hsl, hno, documentedDefault]
  have hdem : ∀ ρ, demand U base.word ρ (WordForm.new s) = .ok [] := by
    intro ρ
    have : (WordForm.new s).word.type ≠ .INTEGER := hst
    unfold demand
    cases hx : base.word.type <;> simp [this]; exact absurd hx hbt
  obtain ⟨j, printed, b, r1, r2, r3, r4⟩ := spoken_slot (U := U) hb.1 (initial_proper he hb hs2) hl2
  have t2 : Substitution.getText U ⟨word, [.ext subject]⟩ ext (history U ws) = .ok b := by
    rw [getText_reading he hd hs2 hr]
    have hm : masters ext [.ext subject] = .ok [WordForm.new s] := by simp [masters, hsubject]; rfl
    simp only [hm, Except.bind, agreeAll, hdem, bind]
    exact r4
  obtain ⟨a, ha⟩ : ∃ a, s.normalForm = .ok a := by
    obtain ⟨f, hf, hform⟩ := formRaw_ok (accepted_iff.mp hacc).2 (wf_new2 hsp hsp)
    exact ⟨f, hform⟩
  have t1 : Substitution.getText U ⟨subject, []⟩ ext (history U ws) = .ok a := by
    rw [C92_own_text_partial U ext _ subject s none he hd (by simp) hsubject]
    show WordForm.getForm U s s.properties = _
    rw [getForm_lower hsc, ← ha]
    show _ = s.form s.properties
    exact formRaw_congr fun g _ => by rw [new2_get hsp hsp]; simp
  have hgroups := layout_groups base.word.type _ (List.mem_of_getElem? r1)
  have hsch : ∀ r ∈ printed, initialReading ext base [.ext subject] r.group = wanted s written r.group := by
    intro r hr
    rw [hi2, hfree _ (hgroups.2.1 r hr)]
    simp
  refine ⟨_, i, j, written, printed, a, b, parse_ok_of hp (.cons p1 (.cons p2 .nil)), w1, w2, r1, r3, ha, ?_, ?_, ?_⟩
  · intro r hr hg
    simp only [List.mem_cons, List.not_mem_nil, or_false, not_or] at hg
    have := r2 r hr
    rw [standIn_other base.word.type _ hg.1 hg.2, hsch r hr] at this
    exact this
  · intro r hr hg hfix
    have hfind : written.find? (fun x => decide (x.group = r.group)) = some r := by
      have hnd := (layout_groups _ _ hwm).1
      clear * - hnd hr
      induction written with
      | nil => cases hr
      | cons x xs ih =>
        rw [List.map_cons, List.nodup_cons] at hnd
        by_cases hx : x.group = r.group
        · rcases List.mem_cons.mp hr with rfl | hr
          · simp
          · exact absurd (hx ▸ List.mem_map_of_mem hr) hnd.1
        · rcases List.mem_cons.mp hr with rfl | hr
          · exact absurd rfl hx
          · rw [List.find?_cons_of_neg (by simpa using hx)]; exact ih hr hnd.2
    have hw : wanted s written r.group = some r := by simp [wanted, hfix, hfind]
    have hwr : ∀ g ∈ base.word.type.schema, initialReading ext base [.ext subject] g = wanted s written g := by
      intro g hg; rw [hi2, hfree g hg]; simp
    have hwg := layout_groups _ _ hwm
    have hrs := hwg.2.1 r hr
    by_cases hst : standIn base.word.type (initialReading ext base [.ext subject]) = initialReading ext base [.ext subject]
    · rw [hst] at r2
      refine .inl ?_
      simp only [List.mem_cons, List.not_mem_nil, or_false] at hg
      obtain ⟨x, hx, hxg⟩ : ∃ x ∈ printed, x.group = r.group := by
        rcases hg with hg | hg
        · have ht : base.word.type = .NOUN := by
            apply Classical.byContradiction; intro h; exact hwg.2.2.2.2.1 h r hr hg
          rw [hg]; exact hgroups.2.2.1 ht
        · have ht : base.word.type = .VERB := by
            apply Classical.byContradiction; intro h; exact hwg.2.2.2.2.2 h r hr hg
          rw [hg]; exact hgroups.2.2.2.1 ht
      have := r2 x hx
      rw [hxg, hwr _ hrs, hw] at this
      injection this with this
      rw [this]; exact hx
    · refine .inr ?_
      unfold standIn at hst
      split at hst
      · next h =>
        have hN := hwr .NOUN_FORM (by rw [h.1]; decide)
        rw [hwr .NUMBER (by rw [h.1]; decide), hN] at h
        left
        simp only [List.mem_cons, List.not_mem_nil, or_false] at hg
        rcases hg with hg | hg
        · rw [← hg, hw] at h
          exact ⟨Option.some.inj h.2.1, h.2.2⟩
        · exact absurd hg (hwg.2.2.2.2.2 (by rw [h.1]; decide) r hr)
      · split at hst
        · next h =>
          rw [hwr .NUMBER (by rw [h.1]; decide), hwr .VERB_FORM (by rw [h.1]; decide), hwr .PERSON (by rw [h.1]; decide)] at h
          right
          simp only [List.mem_cons, List.not_mem_nil, or_false] at hg
          rcases hg with hg | hg
          · exact absurd hg (hwg.2.2.2.2.1 (by rw [h.1]; decide) r hr)
          · rw [← hg, hw] at h
            exact ⟨Option.some.inj h.2.1, h.2.2⟩
        · exact absurd rfl hst
  rw [show ∀ l : List Substitution, Template.empty.substitutions ++ l = l from fun _ => rfl]
  rw [substitute_parsed rfl]
  simp only [List.mapM_cons, List.mapM_nil, bind, Except.bind, pure, Except.pure, t1, t2]
  simp [filled]

/-- C152: a verb written in the indicative stays in the indicative and in the time in which it is written; its number is the subject's,
if the subject has one of its own, and otherwise the one that is written. -/
theorem C152_verb (U : PyUni) (ws : List Word) (hws : ∀ w ∈ ws, Accepted w) (ext : Externals) (names : List Str)
    (subject word : Str) (base : WordForm) (s : Word)
    (h1 : Written U subject) (h2 : Written U word) (hx : subject ∈ names)
    (he : GoodExternals ext) (hsubject : ext.get? subject = some (WordForm.new s)) (hst : s.type ≠ .INTEGER)
    (hsl : s.properties.isSpecified .WORD_CASE = false) (hsv : s.properties.isSpecified .VERB_FORM = false)
    (hsp : s.properties.isSpecified .TIME = false)
    (hword : ext.get? word = none) (hbase : (history U ws).getWord word = .ok base) (hbt : base.word.type = .VERB)
    (hfree : ∀ g ∈ base.word.type.schema, base.word.properties.isSpecified g = false)
    (hlow : base.word.properties.isSpecified .WORD_CASE = false) :
    ∃ (t : Template) (i j : Nat) (written printed : List Rec) (a b : Str),
      Template.empty.parse U (subjectText subject word) names = .ok t ∧
      (layoutNow .VERB)[i]? = some written ∧ base.word.forms[i]? = some word ∧
      (layoutNow .VERB)[j]? = some printed ∧ base.word.forms[j]? = some b ∧ s.normalForm = .ok a ∧
      t.substitute U ext (history U ws) = .ok (a ++ ' ' :: b) ∧
      (.VERB_FORM_INDICATIVE ∈ written → .VERB_FORM_INDICATIVE ∈ printed ∧ (∀ r, r.group = .TIME → (r ∈ written ↔ r ∈ printed)) ∧
        ∃ r ∈ printed, r.group = .NUMBER ∧
          if s.properties.isSpecified .NUMBER then s.properties.get .NUMBER = some r else r ∈ written) := by
  obtain ⟨t, i, j, written, printed, a, b, e1, e2, e3, e4, e5, e6, e7, e8, e9⟩ := C152_agreement U ws hws ext names subject word base s
    h1 h2 hx he hsubject hst hsl hword hbase (by rw [hbt]; decide) hfree hlow
  rw [hbt] at e2 e4
  refine ⟨t, i, j, written, printed, a, b, e1, e2, e3, e4, e5, e6, e9, fun hi => ?_⟩
  have hp : .VERB_FORM_INDICATIVE ∈ printed := by
    rcases e8 _ hi (by decide) hsv with h | h
    · exact h
    · rcases h with h | h <;> exact absurd h.1 (by decide)
  have hwm := List.mem_of_getElem? e2
  have hpm := List.mem_of_getElem? e4
  obtain ⟨⟨tw, w1, w2⟩, nw, w3, w4⟩ := layout_verbs _ hwm hi
  obtain ⟨⟨tp, p1, p2⟩, np, p3, p4⟩ := layout_verbs _ hpm hp
  have hone : ∀ m ∈ layoutNow .VERB, ∀ x ∈ m, ∀ y ∈ m, x.group = y.group → x = y := by decide +kernel
  have hfind : ∀ x ∈ written, written.find? (fun r => decide (r.group = x.group)) = some x := by
    intro x hx
    cases hf : written.find? (fun r => decide (r.group = x.group)) with
    | none => exact absurd (List.find?_eq_none.mp hf x hx) (by simp)
    | some y =>
      have := List.find?_some hf
      simp only [decide_eq_true_eq] at this
      rw [hone _ hwm y (List.mem_of_find?_eq_some hf) x hx this]
  have ht : tw = tp := by
    have := e7 tp p1 (by rw [p2]; decide)
    have hf := hfind tw w1
    rw [w2] at hf
    rw [p2] at this
    simp only [wanted, hsp, Bool.false_eq_true, if_false, hf, Option.some_or, Option.some.injEq] at this
    exact this
  refine ⟨hp, fun r hr => ⟨fun h => ?_, fun h => ?_⟩, np, p3, p4, ?_⟩
  · rw [hone _ hwm r h tw w1 (hr.trans w2.symm), ht]; exact p1
  · rw [hone _ hpm r h tp p1 (hr.trans p2.symm), ← ht]; exact w1
  · have := e7 np p3 (by rw [p4]; decide)
    rw [p4] at this
    unfold wanted at this
    split
    · next h => rw [if_pos h] at this; exact this
    · next h =>
      rw [if_neg h] at this
      have hf := hfind nw w3
      rw [w4] at hf
      rw [hf] at this
      simp only [Option.some_or, Option.some.injEq] at this
      rw [← this]; exact w3

/-- The form of the verb `exVerb` that is written `b` (the past, singular, masculine). -/
def exVerbBase : WordForm := WordForm.new exVerb (some (propertiesOfKey ((invertedCache .VERB).getD 1 [])))

theorem exVerbBase_word : exVerbBase.word = exVerb := rfl

theorem exVerbBase_getWord : (history exPy [exVerb]).getWord (str! "b") = .ok exVerbBase := by decide +kernel

/-- The template `[mob] [b|mob]` meets the hypotheses, with the plural noun as the subject: the verb `b` (past, singular, masculine) becomes
`e` (past, plural) ... -/
example : Written exPy (str! "mob") ∧ Written exPy (str! "b") ∧ Accepted exVerb ∧ Accepted exPlural ∧
    (∀ g ∈ [Group.WORD_CASE, .VERB_FORM, .TIME], exPlural.properties.isSpecified g = false) ∧
    (history exPy [exVerb]).getWord (str! "b") = .ok exVerbBase ∧ exVerbBase.word.type = .VERB ∧
    (∀ g ∈ exVerbBase.word.type.schema, exVerbBase.word.properties.isSpecified g = false) ∧
    exVerbBase.word.properties.isSpecified .WORD_CASE = false :=
  ⟨by unfold Written; decide +kernel, by unfold Written; decide +kernel,
    accepted_iff.mpr ⟨wf_new (wfargs_records [_]), by decide +kernel⟩, accepted_iff.mpr ⟨wf_new (wfargs_records [_]), by decide +kernel⟩,
    by decide +kernel, exVerbBase_getWord, by rw [exVerbBase_word]; rfl, by rw [exVerbBase_word]; decide +kernel,
    by rw [exVerbBase_word]; decide +kernel⟩

example : subjectText (str! "mob") (str! "b") = str! "[mob] [b|mob]" := by decide

example : (Template.empty.parse exPy (str! "[mob] [b|mob]") [str! "mob"]).bind
      (fun t => t.substitute exPy [(str! "mob", WordForm.new exPlural)] (history exPy [exVerb])) = .ok (str! "g e") := by decide +kernel

/-- ... but with an ordinary noun as the subject, a verb that is written in the plural stays in the plural: a singular that is only a
default is not required of it. -/
example : exNoun.properties.get .NUMBER = some .NUMBER_SINGULAR ∧
    (Template.empty.parse exPy (str! "[mob] [e|mob]") [str! "mob"]).bind
      (fun t => t.substitute exPy [(str! "mob", WordForm.new exNoun)] (history exPy [exVerb])) = .ok (str! "a e") :=
  ⟨by decide +kernel, by decide +kernel⟩

end Utg
