import Verif.Props.Exact
import Verif.Spec.Expressive
/-!
# Every form of a known word can be asked for in a template (C105)
-/

namespace Utg
open Py Spec

/-- No combination of the list of forms names a property twice. -/
theorem layoutNow_nodup : ∀ t : WordType, ∀ m ∈ layoutNow t, (m.map Rec.group).Nodup := by
  intro t; cases t <;> decide +kernel

theorem layoutNow_no_case : ∀ t : WordType, ∀ m ∈ layoutNow t, ∀ r ∈ m, r.group ≠ .WORD_CASE := by
  intro t; cases t <;> decide +kernel

/-- The combinations that a reading with a stand-in fits. -/
theorem noun_layout_parts : ∀ m ∈ layoutNow .NOUN, Rec.NOUN_FORM_COUNTABLE ∈ m → Rec.NUMBER_PLURAL ∈ m := by decide +kernel

theorem noun_layout_form : ∀ m ∈ layoutNow .NOUN, ∃ r ∈ m, r.group = .NOUN_FORM := by decide +kernel

theorem verb_layout_form : ∀ m ∈ layoutNow .VERB, ∃ r ∈ m, r.group = .VERB_FORM := by decide +kernel

theorem verb_layout_parts : ∀ m ∈ layoutNow .VERB, Rec.VERB_FORM_IMPERATIVE ∈ m → (Rec.PERSON_SECOND ∈ m ∨ Rec.PERSON_FIRST ∈ m ∧ Rec.NUMBER_PLURAL ∈ m) := by
  decide +kernel

/-- A reading that fits a combination of the list has no stand-in. -/
theorem standIn_of_fits {t : WordType} {ρ : Reading} {m : List Rec} (hm : m ∈ layoutNow t) (hf : Fits ρ m) : standIn t ρ = ρ := by
  unfold standIn
  split
  · rename_i h
    obtain ⟨rfl, h1, h2⟩ := h
    obtain ⟨r, hr, hg⟩ := noun_layout_form m hm
    have e := hf r hr
    rw [hg, h1] at e
    injection e with e
    subst e
    have := hf _ (noun_layout_parts m hm hr)
    rw [show Rec.NUMBER_PLURAL.group = .NUMBER from rfl, h2] at this
    cases this
  · split
    · rename_i h
      obtain ⟨rfl, h1, h2⟩ := h
      obtain ⟨r, hr, hg⟩ := verb_layout_form m hm
      have e := hf r hr
      rw [hg, h1] at e
      injection e with e
      subst e
      rcases verb_layout_parts m hm hr with h3 | ⟨h3, h4⟩
      · have := hf _ h3
        rw [show Rec.PERSON_SECOND.group = .PERSON from rfl] at this
        rw [this] at h2
        simp at h2
      · have a := hf _ h3
        have b := hf _ h4
        rw [show Rec.PERSON_FIRST.group = .PERSON from rfl] at a
        rw [show Rec.NUMBER_PLURAL.group = .NUMBER from rfl] at b
        rw [a, b] at h2
        simp at h2
    · rfl

/-- A reading that fits the `i`-th combination selects it. -/
theorem slotOf_of_fits {t : WordType} {ρ : Reading} {m : List Rec} {i : Nat} (hp : Proper ρ) (hm : (layoutNow t)[i]? = some m)
    (hf : Fits ρ m) : slotOf t ρ = i := by
  obtain ⟨m', h1, h2, h3⟩ := C86_slot t ρ hp
  exact (h3 i m hm (by rw [standIn_of_fits (List.mem_of_getElem? hm) hf]; exact hf)).symm

theorem find?_group {rs : List Rec} (hn : (rs.map Rec.group).Nodup) {r : Rec} (hr : r ∈ rs) :
    (rs.find? fun q => decide (q.group = r.group)) = some r := by
  induction rs with
  | nil => cases hr
  | cons a rs ih =>
    simp only [List.map_cons, List.nodup_cons] at hn
    rw [List.find?_cons]
    rcases List.mem_cons.mp hr with rfl | h
    · simp
    · have : a.group ≠ r.group := fun e => hn.1 (by rw [e]; exact List.mem_map_of_mem h)
      simp [this, ih hn.2 h]

theorem listed_get? {rs : List Rec} (hn : (rs.map Rec.group).Nodup) {r : Rec} (hr : r ∈ rs) :
    (Properties.new (rs.map .record)).data.get? r.group = some r := by
  rw [new_get? (wfargs_records _)]
  have hn' : (rs.reverse.map Rec.group).Nodup := by rw [List.map_reverse]; exact List.nodup_reverse.mpr hn
  have hr' : r ∈ rs.reverse := List.mem_reverse.mpr hr
  rw [← List.map_reverse]
  revert hn' hr'
  generalize rs.reverse = l
  intro hn' hr'
  induction l with
  | nil => cases hr'
  | cons a l ih =>
    simp only [List.map_cons, List.nodup_cons] at hn'
    rw [List.map_cons, List.findSome?_cons]
    rcases List.mem_cons.mp hr' with rfl | h
    · simp [argGet]
    · have : a.group ≠ r.group := fun e => hn'.1 (by rw [e]; exact List.mem_map_of_mem h)
      simp [argGet, this]
      exact ih hn'.2 h

/-- What a single list of properties makes of a word: the word's own values, else the listed ones. -/
theorem initial_listed {ext : Externals} {base : WordForm} {rs : List Rec} (hn : (rs.map Rec.group).Nodup) {r : Rec} (hr : r ∈ rs)
    (hown : base.word.properties.isSpecified r.group = true → base.word.properties.get r.group = some r) :
    initialReading ext base [.props (.new (rs.map .record))] r.group = some r := by
  unfold initialReading
  split
  · rename_i h; exact hown h
  · have := listed_get? hn hr
    simp only [lastSay, depSays]
    rw [if_pos (isSpecified_iff.mpr ⟨r, this⟩)]
    simp [Properties.get, this]

theorem initial_proper {ext : Externals} {base : WordForm} {deps : List Dep} (he : GoodExternals ext) (hb : GoodForm base)
    (hp : ∀ p, Dep.props p ∈ deps → WFProps p) : Proper (initialReading ext base deps) := by
  rw [← collected_initial he hb hp]
  exact proper_get (collected_wf he hb hp)

/-- C105: asking, in any order and among others, for the properties of the `i`-th form and for lower or upper case gives the `i`-th
form of the word, if the word's own properties permit it. -/
theorem C105_form (U : PyUni) (ext : Externals) (d : Dictionary) (s : Substitution) (base : WordForm) (i : Nat) (m rs : List Rec)
    (text : Str) (upper : Bool) (he : GoodExternals ext) (hd : GoodDictionary d) (hr : Resolves ext d s.id base)
    (hm : (layoutNow base.word.type)[i]? = some m) (htext : base.word.forms[i]? = some text)
    (hs : s.dependencies = [.props (.new (rs.map .record))]) (hn : (rs.map Rec.group).Nodup) (hrs : m ++ [letterCase upper] ⊆ rs)
    (hown : Permits base.word (m ++ [letterCase upper])) :
    s.getText U ext d = inCase U upper text := by
  have hb := resolves_good he hd hr
  have hwf : ∀ p, Dep.props p ∈ s.dependencies → WFProps p := by
    intro p hp; rw [hs] at hp; simp only [List.mem_singleton, Dep.props.injEq] at hp; subst hp
    exact wf_new (wfargs_records _)
  have hfit : ∀ r ∈ m ++ [letterCase upper], initialReading ext base s.dependencies r.group = some r := by
    intro r hr'
    rw [hs]
    exact initial_listed hn (hrs hr') (hown r hr')
  rw [getText_reading he hd hwf hr]
  have hmas : masters ext s.dependencies = .ok [] := by rw [hs]; rfl
  simp only [hmas, Except.bind, agreeAll]
  have hslot : slotOf base.word.type (initialReading ext base s.dependencies) = i :=
    slotOf_of_fits (initial_proper he hb hwf) hm (fun r hr' => hfit r (List.mem_append_left _ hr'))
  have hform : formIn base.word (initialReading ext base s.dependencies) = text := by
    unfold formIn; rw [hslot]; simp [List.getD, htext]
  have hcase := hfit (letterCase upper) (by simp)
  unfold spoken
  rw [hform]
  cases upper
  · rw [show (letterCase false).group = .WORD_CASE from rfl] at hcase
    rw [hcase]; simp [letterCase, inCase]
  · rw [show (letterCase true).group = .WORD_CASE from rfl] at hcase
    rw [hcase]; simp only [letterCase, if_true]
    cases text <;> rfl

/-! ## C09: what each item of `all_forms` spells -/

theorem propertiesOfKey_records (k : Key) : propertiesOfKey k = .new ((k.filterMap id).map .record) := by
  unfold propertiesOfKey Properties.new
  congr 1
  generalize ([] : Dict Group Rec) = d
  induction k generalizing d with
  | nil => rfl
  | cons e k ih =>
    cases e with
    | none => simpa [Properties.updateOne] using ih d
    | some r => simpa using ih _

/-- C09: the `i`-th item of `all_forms` is spelled as the word is with the properties of the `i`-th slot, its own ones coming first. -/
theorem C09_spoken (U : PyUni) (w : Word) (hw : Accepted w) : ∃ fs, w.allForms = .ok fs ∧ fs.length = w.forms.length ∧
    ∀ (i : Nat) (m : List Rec) (wf : WordForm), (layoutNow w.type)[i]? = some m → fs[i]? = some wf →
      wf.form U = spoken U w (effective w (.new (m.map .record))) := by
  obtain ⟨h1, h2⟩ := accepted_iff.mp hw
  refine ⟨_, allForms_spec h2, by simp [h2], ?_⟩
  intro i m wf hm hwf
  rw [List.getElem?_map] at hwf
  rw [layoutNow_eq, List.getElem?_map] at hm
  cases hk : (invertedCache w.type)[i]? with
  | none => rw [hk] at hm; simp at hm
  | some k =>
    rw [hk] at hm hwf
    simp only [Option.map_some, Option.some.injEq] at hm hwf
    subst hm hwf
    rw [C86_word_form U _ (goodForm_new hw (by rintro x ⟨⟩; exact wf_propertiesOfKey k) (by simp))]
    congr 1
    funext g
    simp only [WordForm.new]
    rw [effective_eq h1 (wf_propertiesOfKey k), propertiesOfKey_records]

/-- C09: so it spells the `i`-th form, with a capital letter if the word demands one, whenever the word's own properties permit the slot. -/
theorem C09_permitted (U : PyUni) (w : Word) (hw : Accepted w) (upper : Bool) (hcase : w.properties.get .WORD_CASE = some (letterCase upper)) :
    ∃ fs, w.allForms = .ok fs ∧ ∀ (i : Nat) (m : List Rec) (text : Str) (wf : WordForm), (layoutNow w.type)[i]? = some m → Permits w m →
      w.forms[i]? = some text → fs[i]? = some wf → wf.form U = inCase U upper text := by
  obtain ⟨h1, -⟩ := accepted_iff.mp hw
  obtain ⟨fs, hfs, -, hall⟩ := C09_spoken U w hw
  refine ⟨fs, hfs, ?_⟩
  intro i m text wf hm hper ht hwf
  rw [hall i m wf hm hwf]
  have hmem := List.mem_of_getElem? hm
  have hwfp : WFProps (.new (m.map .record)) := wf_new (wfargs_records m)
  have hfit : Fits (effective w (.new (m.map .record))) m := by
    intro r hr
    have hg := listed_get? (layoutNow_nodup _ m hmem) hr
    unfold effective
    split
    · rename_i h; exact hper r hr h
    · rw [if_pos (isSpecified_iff.mpr ⟨r, hg⟩)]
      simp [Properties.get, hg]
  have hprop : Proper (effective w (.new (m.map .record))) := by
    have : effective w (.new (m.map .record)) = (Properties.new [.props (.new (m.map .record)), .props w.properties]).get := by
      funext g; exact (effective_eq h1 hwfp g).symm
    rw [this]
    exact proper_get (wf_new2 hwfp h1)
  have hslot := slotOf_of_fits hprop hm hfit
  have hform : formIn w (effective w (.new (m.map .record))) = text := by
    unfold formIn; rw [hslot]; simp [List.getD, ht]
  have hc : effective w (.new (m.map .record)) .WORD_CASE = some (letterCase upper) := by
    unfold effective
    split
    · exact hcase
    · rename_i hns
      have hno : (Properties.new (m.map .record)).isSpecified .WORD_CASE = false := by
        rw [Bool.eq_false_iff]
        intro h
        obtain ⟨r, hr⟩ := isSpecified_iff.mp h
        rw [new_get? (wfargs_records m)] at hr
        obtain ⟨a, ha, hra⟩ := List.exists_of_findSome?_eq_some hr
        simp only [List.mem_reverse, List.mem_map] at ha
        obtain ⟨q, hq, rfl⟩ := ha
        simp only [argGet] at hra
        split at hra
        · rename_i hgq; exact layoutNow_no_case _ m hmem q hq hgq
        · simp at hra
      simp only [hno, Bool.false_eq_true, if_false]
      rw [← hcase]
      have hn : w.properties.data.get? .WORD_CASE = none := by
        cases h : w.properties.data.get? .WORD_CASE with
        | none => rfl
        | some r => exact absurd (isSpecified_iff.mpr ⟨r, h⟩) hns
      simp [Properties.get, hn, defaultProperty_eq]
  unfold spoken
  rw [hform, hc]
  cases upper
  · simp [letterCase, inCase]
  · simp only [letterCase, if_true]
    cases text <;> rfl

/-- A plural-only noun with a capital letter: its plural slots are permitted. -/
example : Accepted (Word.mk .NOUN (List.replicate 18 (str! "весы")) (.new [.record .NUMBER_PLURAL, .record .WORD_CASE_UPPER])) ∧
    (Word.mk .NOUN (List.replicate 18 (str! "весы")) (.new [.record .NUMBER_PLURAL, .record .WORD_CASE_UPPER])).properties.get .WORD_CASE =
      some (letterCase true) ∧
    ∃ m, (layoutNow .NOUN)[7]? = some m ∧
      Permits (Word.mk .NOUN (List.replicate 18 (str! "весы")) (.new [.record .NUMBER_PLURAL, .record .WORD_CASE_UPPER])) m :=
  ⟨accepted_iff.mpr ⟨wf_new (wfargs_records [_, _]), by decide +kernel⟩, by decide +kernel, [.NOUN_FORM_NORMAL, .NUMBER_PLURAL, .CASE_GENITIVE], by decide +kernel⟩

/-- The comma separated list of the ids of some properties is read as these properties, if it is in lower case and no external has
that name. -/
theorem reads_ids {U : PyUni} {names : List Str} {rs : List Rec} (hrs : rs ≠ []) {slug : Str}
    (hslug : Stripped U (U.lower slug) ([','].intercalate (rs.map Rec.verboseId)))
    (hnames : [','].intercalate (rs.map Rec.verboseId) ∉ names) : Reads U names slug (.props (.new (rs.map .record))) := by
  refine ⟨_, hslug, .inr ⟨hnames, rs.map Rec.verboseId, rs, rfl, by simpa using hrs, ?_, ?_, rfl⟩⟩
  · intro id hid
    obtain ⟨r, -, rfl⟩ := List.mem_map.mp hid
    cases r <;> decide
  · rw [List.filter_eq_self.mpr]
    intro id hid
    obtain ⟨r, -, rfl⟩ := List.mem_map.mp hid
    cases r <;> decide

/-- C105, in a text: `[слово|рд,мн,строч]`, where the word is known under the lower-case text of the head. Whoever has a dictionary
that knows a word can write a template for each of its forms that the word permits. -/
theorem C105_in_text (U : PyUni) (ws : List Word) (hws : ∀ w ∈ ws, Accepted w) (names : List Str) (head slug : Str) (c : Char) (cs : Str)
    (base : WordForm) (i : Nat) (m rs : List Rec) (text : Str) (upper : Bool)
    (hbar : '|' ∉ head ∧ '|' ∉ slug) (hbr : ']' ∉ head ∧ ']' ∉ slug) (hpc : '%' ∉ head ∧ '%' ∉ slug)
    (hs : Stripped U head (c :: cs)) (hc : U.isUpper c = false)
    (hw : (history U ws).getWord (U.lower (c :: cs)) = .ok base)
    (hm : (layoutNow base.word.type)[i]? = some m) (htext : base.word.forms[i]? = some text)
    (hslug : Stripped U (U.lower slug) ([','].intercalate (rs.map Rec.verboseId)))
    (hnames : [','].intercalate (rs.map Rec.verboseId) ∉ names)
    (hn : (rs.map Rec.group).Nodup) (hrs : m ++ [letterCase upper] ⊆ rs) (hown : Permits base.word (m ++ [letterCase upper])) :
    ∃ t, Template.empty.parse U (bracketed head [slug]) names = .ok t ∧
      ∀ ext : Externals, GoodExternals ext → ext.get? (U.lower (c :: cs)) = none →
        t.substitute U ext (history U ws) = inCase U upper text := by
  have hv : IsVariable (bracketed head [slug]) := ⟨head ++ '|' :: slug, by simp [bracketed], by simp [hbr]⟩
  have hp : Pieces (bracketed head [slug]) [] [(bracketed head [slug], [])] := by
    have := Pieces.var [] (bracketed head [slug]) [] [] [] isLiteral_nil hv (.last [] (isFinal_of_isLiteral isLiteral_nil))
    simpa using this
  have hd : doubled (bracketed head [slug]) = bracketed head [slug] := doubled_of_not_mem (by simp [bracketed, hpc])
  have hparse := C46_parse U names head [slug] _ c cs hbar.1 (by simpa using hbar.2) hs
    (.cons (reads_ids (by rintro rfl; exact absurd (hrs (List.mem_append_right m (List.mem_singleton.mpr rfl))) (by simp)) hslug hnames) .nil)
  simp only [hc, if_false, Bool.false_eq_true, List.append_nil] at hparse
  refine ⟨_, parse_ok_of (subs := [_]) hp (.cons (by rw [hd]; exact hparse) .nil), ?_⟩
  intro ext he hx
  rw [show (Template.empty.substitutions ++ [(⟨U.lower (c :: cs), [.props (.new (rs.map .record))]⟩ : Substitution)]) =
    [⟨U.lower (c :: cs), [.props (.new (rs.map .record))]⟩] from rfl]
  rw [substitute_parsed (ps := [(bracketed head [slug], [])]) rfl]
  simp only [List.mapM_cons, List.mapM_nil, bind, Except.bind, pure, Except.pure]
  rw [C105_form U ext (history U ws) ⟨_, _⟩ base i m rs text upper he (goodDictionary_history U ws hws) (.inr ⟨hx, hw⟩) hm htext rfl hn hrs hown]
  cases inCase U upper text with
  | error e => rfl
  | ok x => simp [filled]

theorem standIn_other (t : WordType) (ρ : Reading) {g : Group} (h1 : g ≠ .NOUN_FORM) (h2 : g ≠ .VERB_FORM) : standIn t ρ g = ρ g := by
  unfold standIn
  split
  · exact upd_other (by intro e; exact h1 e.symm)
  · split
    · exact upd_other (by intro e; exact h2 e.symm)
    · rfl

/-- C105, the other direction: whatever properties a template asks for, it gets a form that the word permits, the stand-ins for a
singular countable form and for a missing imperative apart. -/
theorem C105_permitted (U : PyUni) (ext : Externals) (d : Dictionary) (s : Substitution) (base : WordForm) (text : Str)
    (he : GoodExternals ext) (hd : GoodDictionary d) (hgs : GoodSubstitution s) (hr : Resolves ext d s.id base)
    (hdeps : ∀ n, Dep.ext n ∉ s.dependencies) (h : s.getText U ext d = .ok text) :
    ∃ (i : Nat) (m : List Rec) (form : Str) (upper : Bool), (layoutNow base.word.type)[i]? = some m ∧ base.word.forms[i]? = some form ∧ inCase U upper form = .ok text ∧
      ∀ r ∈ m ++ [letterCase upper], r.group ≠ .NOUN_FORM → r.group ≠ .VERB_FORM →
        base.word.properties.isSpecified r.group = true → base.word.properties.get r.group = some r := by
  have hb := resolves_good he hd hr
  have hpr := initial_proper (deps := s.dependencies) he hb hgs
  obtain ⟨m, h1, h2, -⟩ := C86_slot base.word.type _ hpr
  have hmas : masters ext s.dependencies = .ok [] := by
    have : ∀ deps : List Dep, (∀ n, Dep.ext n ∉ deps) → masters ext deps = .ok [] := by
      intro deps hdeps
      induction deps with
      | nil => rfl
      | cons dep deps ih =>
        cases dep with
        | props p => exact ih fun n hn => hdeps n (List.mem_cons_of_mem _ hn)
        | ext n => exact absurd List.mem_cons_self (hdeps n)
    exact this _ hdeps
  rw [getText_reading he hd hgs hr] at h
  simp only [hmas, Except.bind, agreeAll] at h
  have hlen : (layoutNow base.word.type).length = base.word.forms.length := by
    rw [(accepted_iff.mp hb.1).2, layoutNow_eq, List.length_map]
  have hlt : slotOf base.word.type (initialReading ext base s.dependencies) < base.word.forms.length := by
    rw [← hlen]; exact (List.getElem?_eq_some_iff.mp h1).1
  have hform : formIn base.word (initialReading ext base s.dependencies) =
      base.word.forms[slotOf base.word.type (initialReading ext base s.dependencies)] := by
    unfold formIn; simp [List.getD, hlt]
  have hown : ∀ g, base.word.properties.isSpecified g = true →
      initialReading ext base s.dependencies g = base.word.properties.get g := by
    intro g hg; unfold initialReading; rw [if_pos hg]
  obtain ⟨r0, hr0, e0⟩ := hpr .WORD_CASE (by decide)
  have hu : r0 = letterCase (decide (r0 = .WORD_CASE_UPPER)) := by
    simp [Group.records] at hr0
    rcases hr0 with rfl | rfl <;> rfl
  refine ⟨_, m, _, decide (r0 = .WORD_CASE_UPPER), h1, List.getElem?_eq_getElem hlt, ?_, ?_⟩
  · unfold spoken at h
    rw [hform, e0] at h
    by_cases hx : r0 = .WORD_CASE_UPPER
    · subst hx
      simp only [if_true] at h
      simp only [decide_true]
      revert h
      generalize base.word.forms[slotOf base.word.type (initialReading ext base s.dependencies)] = form
      cases form <;> exact id
    · rw [if_neg (by simpa using hx)] at h
      simpa [hx, inCase] using h
  · intro r hr' hg1 hg2 hsp
    rw [← hown _ hsp]
    rcases List.mem_append.mp hr' with hr' | hr'
    · rw [← standIn_other base.word.type (initialReading ext base s.dependencies) hg1 hg2]; exact h2 r hr'
    · simp only [List.mem_singleton] at hr'
      rw [← hu] at hr'
      subst hr'
      rw [← mem_records_iff.mp hr0] at e0
      exact e0

/-- C105 applies to every form of the example noun, which fixes its gender and animality ... -/
example : Accepted exNoun ∧ exNoun.forms.length = (layoutNow exNoun.type).length ∧
    ∀ m ∈ layoutNow exNoun.type, Permits exNoun (m ++ [letterCase false]) := by
  refine ⟨exNoun_accepted, by decide +kernel, by decide +kernel⟩

/-- ... and `[a| РД,мн,нс,строч]` is such a text; the form is `h`, not the looked-up `a`. -/
example : ∃ (i : Nat) (m rs : List Rec) (base : WordForm), (layoutNow .NOUN)[i]? = some m ∧ exNoun.forms[i]? = some (str! "h") ∧
    Stripped exPy (exPy.lower (str! " РД,мн,нс,строч")) ([','].intercalate (rs.map Rec.verboseId)) ∧
    (rs.map Rec.group).Nodup ∧ m ++ [letterCase false] ⊆ rs ∧
    (history exPy [exNoun]).getWord (exPy.lower (str! "a")) = .ok base ∧ base.word = exNoun :=
  ⟨7, _, [.CASE_GENITIVE, .NUMBER_PLURAL, .NOUN_FORM_NORMAL, .WORD_CASE_LOWER], ((Dict.get? (history exPy [exNoun]) (str! "a")).getD (WordForm.new exNoun)),
    rfl, by decide +kernel, ⟨[' '], [], by decide +kernel, by decide +kernel, by simp, by decide +kernel, by decide +kernel⟩,
    by decide +kernel, by decide +kernel, by decide +kernel, by decide +kernel⟩

end Utg
