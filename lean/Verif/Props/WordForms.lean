import Verif.Proofs.WordForms
import Verif.Props.Words
import Verif.Props.Properties
/-! # Properties C09, C15-C19, C55-C57: word forms, serialization of words, equality and hash -/

namespace Utg
open Py Spec

/-- C09: `all_forms` yields one word form of the word per slot; unless the word demands an upper-case initial, each one
spells some form of the word. -/
theorem C09_all_forms (U : PyUni) (w : Word) (hw : Accepted w) :
    ∃ fs, w.allForms = .ok fs ∧ fs.length = w.forms.length ∧
      ∀ wf ∈ fs, wf.word = w ∧
        (w.properties.get .WORD_CASE = some .WORD_CASE_LOWER → ∃ f ∈ w.forms, wf.form U = .ok f) := by
  obtain ⟨h1, h2⟩ := accepted_iff.mp hw
  refine ⟨_, allForms_spec h2, by simp [h2], ?_⟩
  intro wf hwf
  simp only [List.mem_map] at hwf
  obtain ⟨k, hk, rfl⟩ := hwf
  refine ⟨rfl, ?_⟩
  intro hlow
  have hwc := (allForms_wordCase h1 hk).trans hlow
  obtain ⟨f, hf, hform⟩ := formRaw_ok h2 (wf_new2 (wf_propertiesOfKey k) h1)
  refine ⟨f, hf, ?_⟩
  exact (getForm_lower hwc).trans hform

/-- C09: for a word that fixes neither a schema property nor the upper case, the `i`-th item spells `forms[i]`. -/
theorem C09_spells_slot (U : PyUni) (w : Word) (hw : Accepted w)
    (hfree : ∀ g ∈ w.type.schema, w.properties.isSpecified g = false)
    (hlow : w.properties.get .WORD_CASE = some .WORD_CASE_LOWER) :
    ∃ fs, w.allForms = .ok fs ∧ fs.map (WordForm.form U) = w.forms.map Except.ok := by
  obtain ⟨h1, h2⟩ := accepted_iff.mp hw
  obtain ⟨fs, hfs, hlen, hall⟩ := C09_all_forms U w hw
  refine ⟨fs, hfs, ?_⟩
  rw [allForms_spec h2] at hfs
  injection hfs with hfs
  apply List.ext_getElem?
  intro i
  by_cases hi : i < w.forms.length
  · have hik : i < (invertedCache w.type).length := by omega
    subst hfs
    rw [List.getElem?_map, List.getElem?_map, List.getElem?_map, List.getElem?_eq_getElem hik, List.getElem?_eq_getElem hi]
    simp only [Option.map_some, Option.some.injEq]
    set k := (invertedCache w.type)[i] with hk
    have hkm : k ∈ invertedCache w.type := List.getElem_mem hik
    -- the text is the form of the slot
    obtain ⟨j, f, hf, hj, hu⟩ := formRaw_spec h2 (wf_new2 (wf_propertiesOfKey k) h1)
    have hij : j = i := by
      apply hu i k (by rw [hk]; simp)
      have hfit := invertedCache_fits hkm
      have hlen' : k.length = w.type.schema.length := hfit.length_eq
      rw [List.forall₂_iff_get]
      refine ⟨hlen', ?_⟩
      intro n hn1 hn2
      simp only [List.get_eq_getElem]
      cases hx : k[n] with
      | none => exact Or.inl rfl
      | some r =>
        right
        rw [new2_get (wf_propertiesOfKey k) h1, hfree _ (List.getElem_mem hn2)]
        have := propertiesOfKey_schema (schema_nodup _) hfit (j := n) (g := w.type.schema[n]) (r := r) (by simp)
          (by rw [List.getElem?_eq_getElem hn1, hx])
        simp [Properties.get, this]
    subst hij
    have hcase : WordForm.form U (WordForm.new w (some (propertiesOfKey k))) = .ok f :=
      (getForm_lower ((allForms_wordCase h1 hkm).trans hlow)).trans hf
    rw [hcase]
    rw [List.getElem?_eq_getElem hi] at hj
    simpa using hj.symm
  · rw [List.getElem?_eq_none (by simp; omega), List.getElem?_eq_none (by simp; omega)]

example : Accepted exNoun ∧ (∀ g ∈ exNoun.type.schema, exNoun.properties.isSpecified g = false) ∧
    exNoun.properties.get .WORD_CASE = some .WORD_CASE_LOWER := ⟨exNoun_accepted, by decide +kernel, by decide +kernel⟩

/-- C15: words survive serialization. -/
theorem C15_roundtrip (w : Word) (hw : Accepted w) : Word.deserialize w.serialize = .ok w := by
  obtain ⟨h1, h2⟩ := accepted_iff.mp hw
  have ht : wordTypeOfValue (w.type.value : Int) = some w.type := by cases w.type <;> decide
  unfold Word.deserialize Word.serialize
  simp only [ht, C13_roundtrip_exact _ h1, bind, Except.bind]
  obtain ⟨_, _, _, _, h, _⟩ := C07_slot_bijection w.type
  unfold Word.getFormsNumber at h
  exact (C08_constructor w.type w.forms w.properties).1 (by rw [← h, wordsCache_length, h2])

/-- C15: words survive serialization also when the property keys became strings or changed order on the way. -/
theorem C15_roundtrip_json (w : Word) (hw : Accepted w) (d d' : Dict JKey Int)
    (hj : List.Forall₂ ViaJson w.properties.serialize d) (hperm : d'.Perm d) :
    ∃ w', Word.deserialize { w.serialize with properties := d' } = .ok w' ∧ w'.eq w = true := by
  obtain ⟨h1, h2⟩ := accepted_iff.mp hw
  have ht : wordTypeOfValue (w.type.value : Int) = some w.type := by cases w.type <;> decide
  obtain ⟨q, hq, he⟩ := C13_roundtrip _ h1 d d' hj hperm
  refine ⟨⟨w.type, w.forms, q⟩, ?_, by simp [Word.eq, he]⟩
  unfold Word.deserialize Word.serialize
  simp only [ht, hq, bind, Except.bind]
  obtain ⟨_, _, _, _, h, _⟩ := C07_slot_bijection w.type
  unfold Word.getFormsNumber at h
  exact (C08_constructor w.type w.forms q).1 (by rw [← h, wordsCache_length, h2])

/-- C15: how loading a word can fail, for property dictionaries with integer-like keys: an unknown type code, or a wrong
number of forms, and nothing else. -/
theorem C15_deserialize_outcome (d : WordData) (h : ∀ kv ∈ d.properties, ∃ n, kv.1.toInt = .ok n) :
    ((∀ t : WordType, (t.value : Int) ≠ d.type) → Word.deserialize d = .error (.RelsLookupError d.type)) ∧
    (∀ t : WordType, (t.value : Int) = d.type →
      (d.forms.length = slotCount t → ∃ w, Word.deserialize d = .ok w ∧ Accepted w ∧ w.type = t ∧ w.forms = d.forms ∧
        Properties.deserialize d.properties = .ok w.properties) ∧
      (d.forms.length ≠ slotCount t →
        Word.deserialize d = .error (.WrongFormsNumberError d.forms.length (slotCount t) d.forms))) := by
  obtain ⟨p, hp, hwf, _⟩ := C14_deserialize_known d.properties h
  constructor
  · intro hn
    have : wordTypeOfValue d.type = none := by
      unfold wordTypeOfValue
      rw [List.find?_eq_none]
      intro t _; simp [hn t]
    unfold Word.deserialize; rw [this]
  · intro t ht
    have : wordTypeOfValue d.type = some t := by rw [← ht]; cases t <;> decide
    have hd : Word.deserialize d = Word.new t d.forms p := by
      unfold Word.deserialize; rw [this]; simp only [hp, bind, Except.bind]
    constructor
    · intro hl
      have := (C08_constructor t d.forms p).1 hl
      exact ⟨_, hd.trans this, ⟨t, d.forms, p, hwf, this⟩, rfl, rfl, hp⟩
    · intro hl; rw [hd]; exact (C08_constructor t d.forms p).2 hl

example : Word.deserialize ⟨0, [str! "x"], []⟩ = .error (.WrongFormsNumberError 1 18 [str! "x"]) ∧
    Word.deserialize ⟨77, [str! "x"], []⟩ = .error (.RelsLookupError 77) := by decide +kernel

/-- C16: word equality is an equivalence relation. -/
theorem C16_eq_equivalence :
    (∀ w, Accepted w → w.eq w = true) ∧
    (∀ v w, Accepted v → Accepted w → v.eq w = true → w.eq v = true) ∧
    (∀ u v w, Accepted u → Accepted v → Accepted w → u.eq v = true → v.eq w = true → u.eq w = true) := by
  obtain ⟨hr, hs, ht⟩ := C12_eq_equivalence
  refine ⟨?_, ?_, ?_⟩
  · intro w hw; simp [Word.eq, hr _ (accepted_iff.mp hw).1]
  · intro v w hv hw h
    simp only [Word.eq, Bool.and_eq_true, decide_eq_true_eq] at h ⊢
    exact ⟨⟨h.1.1.symm, hs _ _ (accepted_iff.mp hv).1 (accepted_iff.mp hw).1 h.1.2⟩, h.2.symm⟩
  · intro u v w hu hv hw h1 h2
    simp only [Word.eq, Bool.and_eq_true, decide_eq_true_eq] at h1 h2 ⊢
    exact ⟨⟨h1.1.1.trans h2.1.1, ht _ _ _ (accepted_iff.mp hu).1 (accepted_iff.mp hv).1 (accepted_iff.mp hw).1 h1.1.2 h2.1.2⟩,
      h1.2.trans h2.2⟩

/-- C16: words are equal iff they have the same type, the same forms and the same properties. -/
theorem C16_eq_iff (v w : Word) (hv : Accepted v) (hw : Accepted w) :
    v.eq w = true ↔ v.type = w.type ∧ v.forms = w.forms ∧
      ∀ g, v.properties.isSpecified g = w.properties.isSpecified g ∧ v.properties.get g = w.properties.get g := by
  have h1 := (accepted_iff.mp hv).1
  have h2 := (accepted_iff.mp hw).1
  simp only [Word.eq, Bool.and_eq_true, decide_eq_true_eq]
  rw [eq_iff_get? h1 h2]
  constructor
  · rintro ⟨⟨a, b⟩, c⟩
    refine ⟨a, c, fun g => ⟨?_, get_congr (b g)⟩⟩
    simp [Properties.isSpecified, Dict.contains, b g]
  · rintro ⟨a, c, b⟩
    refine ⟨⟨a, fun g => ?_⟩, c⟩
    rw [get?_eq_ite, get?_eq_ite, (b g).1, (b g).2]

/-- C16: equal words have equal hashes, whatever the hash of pairs and of word types is. -/
theorem C16_hash_of_eq (pairHash : Int → Int → Int) (typeHash : WordType → Int) (v w : Word) (hv : Accepted v)
    (hw : Accepted w) (h : v.eq w = true) : v.hash pairHash typeHash = w.hash pairHash typeHash := by
  simp only [Word.eq, Bool.and_eq_true, decide_eq_true_eq] at h
  unfold Word.hash
  rw [h.1.1, C12_hash_of_eq _ _ (accepted_iff.mp hv).1 (accepted_iff.mp hw).1 h.1.2]

example : Accepted exPlural ∧ exPlural.eq { exPlural with properties := .new [.record .NUMBER_SINGULAR, .record .NUMBER_PLURAL] } = true ∧
    exPlural.eq exNoun = false := ⟨exPlural_accepted, by decide +kernel, by decide +kernel⟩

/-- C17, the part that holds: word forms built without `form_properties` that are equal have equal hashes. Missing: word
forms built with `form_properties`, for which the claim is false (`C17_violated`). -/
theorem C17_hash_of_eq_partial (pairHash : Int → Int → Int) (typeHash : WordType → Int) (v w : Word) (p q : Option Properties)
    (hv : Accepted v) (hw : Accepted w) (hp : ∀ x, p = some x → WFProps x) (hq : ∀ x, q = some x → WFProps x)
    (h : (WordForm.new v p).eq (WordForm.new w q) = true) :
    (WordForm.new v p).hash pairHash typeHash = (WordForm.new w q).hash pairHash typeHash := by
  have hv' := (accepted_iff.mp hv).1
  have hw' := (accepted_iff.mp hw).1
  simp only [WordForm.eq, Bool.and_eq_true] at h
  have h1 : WFProps (WordForm.new v p).properties := by
    cases p with
    | none => exact hv'
    | some x => exact wf_new2 (hp x rfl) hv'
  have h2 : WFProps (WordForm.new w q).properties := by
    cases q with
    | none => exact hw'
    | some x => exact wf_new2 (hq x rfl) hw'
  have hh := C12_hash_of_eq _ _ h1 h2 h.2
  have e1 : (WordForm.new v p).formProperties = (WordForm.new v p).properties := rfl
  have e2 : (WordForm.new w q).formProperties = (WordForm.new w q).properties := rfl
  unfold WordForm.hash
  rw [e1, e2, hh]
  exact congrArg (fun x => pairHash x _) (C16_hash_of_eq pairHash typeHash _ _ hv hw h.1)

example : (WordForm.new exNoun (some exRequest)).eq (WordForm.new exNoun (some (.new [.record .NUMBER_PLURAL, .record .CASE_INSTRUMENTAL]))) = true := by
  decide +kernel

/-- C17 is false of the code: whatever the hash functions are, as long as the hash of a pair tells its second components
apart, there are two equal word forms with different hashes. -/
theorem C17_violated (pairHash : Int → Int → Int) (typeHash : WordType → Int)
    (hinj : ∀ a b c, pairHash a b = pairHash a c → b = c) :
    ∃ f g : WordForm, Accepted f.word ∧ Accepted g.word ∧ WFProps f.formProperties ∧ WFProps g.formProperties ∧
      (∃ p q fp fq, f = WordForm.new exNoun (some p) (some fp) ∧ g = WordForm.new exNoun (some q) (some fq)) ∧
      f.eq g = true ∧ f.hash pairHash typeHash ≠ g.hash pairHash typeHash := by
  refine ⟨WordForm.new exNoun (some (.new [])) (some (.new [.record .CASE_DATIVE])), WordForm.new exNoun (some (.new [])) (some (.new [])),
    exNoun_accepted, exNoun_accepted, wf_new2 (wf_new (by intro p hp; simp at hp)) (accepted_iff.mp exNoun_accepted).1,
    wf_new2 wf_empty (accepted_iff.mp exNoun_accepted).1, ⟨_, _, _, _, rfl, rfl⟩, by decide +kernel, ?_⟩
  intro h
  have := hinj _ _ _ h
  revert this
  decide +kernel

/-- C18: asking for nothing but properties the word itself specifies gives the normal form. -/
theorem C18_normal_form (w : Word) (q : Properties) (hw : Accepted w) (hq : WFProps q)
    (h : ∀ g, q.isSpecified g = true → w.properties.isSpecified g = true) : w.form q = w.normalForm := by
  have hw' := (accepted_iff.mp hw).1
  unfold Word.normalForm
  refine formRaw_congr fun g _ => ?_
  rw [new2_get hq hw', new2_get hw' hw']
  cases hs : w.properties.isSpecified g with
  | true => rfl
  | false =>
    have hqs : q.isSpecified g = false := by
      cases hx : q.isSpecified g with
      | false => rfl
      | true => rw [h g hx] at hs; simp at hs
    rw [get_eq_ite_default q, get_eq_ite_default w.properties, hqs, hs]
    simp

/-- C18: the normal form of a word that fixes no schema property is its first form. -/
theorem C18_normal_form_first (w : Word) (hw : Accepted w)
    (hfree : ∀ g ∈ w.type.schema, w.properties.isSpecified g = false) :
    ∃ f, w.forms[0]? = some f ∧ w.normalForm = .ok f := by
  have hk : ∀ t : WordType, ∃ k, (Word.getKeys t = .ok (some k :: ((invertedCache t).tail.map some))) ∧
      ∀ (j : Nat) (g : Group) (r : Rec), t.schema[j]? = some g → k[j]? = some (some r) → documentedDefault g = some r := by
    intro t
    refine ⟨(invertedCache t).head (invertedCache_ne_nil t), ?_, ?_⟩
    · rw [getKeys_eq]
      congr 1
      conv_lhs => rw [← List.cons_head_tail (invertedCache_ne_nil t)]
      rw [List.map_cons]
    · have hall : ∀ j < 6, ∀ g, t.schema[j]? = some g → ∀ r, ((invertedCache t).head (invertedCache_ne_nil t))[j]? = some (some r) →
          documentedDefault g = some r := by
        have hb : ∀ t : WordType, ((invertedCache t).head (invertedCache_ne_nil t)) = t.schema.map documentedDefault ∨
            t = .VERB ∧ ((invertedCache t).head (invertedCache_ne_nil t)) = [some .VERB_FORM_INFINITIVE, none, none, none, none] := by
          intro t; cases t <;> decide +kernel
        intro j hj g hg r hr
        rcases hb t with hb | ⟨rfl, hb⟩
        · rw [hb, List.getElem?_map, hg] at hr
          simpa using hr
        · rw [hb] at hr
          match j, hr with
          | 0, hr =>
            simp [WordType.schema] at hg hr
            rw [← hg, ← hr]; rfl
          | 1, hr | 2, hr | 3, hr | 4, hr => simp at hr
          | n + 5, hr => simp at hr
      intro j g r hg hr
      have hlen : t.schema.length ≤ 6 := by cases t <;> decide
      have : j < 6 := by have := (List.getElem?_eq_some_iff.mp hg).1; omega
      exact hall j this g hg r hr
  obtain ⟨k, hk1, hk2⟩ := hk w.type
  have hw' := (accepted_iff.mp hw).1
  refine C02_form_in_slot w w.properties _ 0 k hw hw' hk1 rfl ?_
  intro j g r hg hr
  have hs := hfree g (List.mem_of_getElem? hg)
  unfold effective
  simp only [hs, Bool.false_eq_true, if_false]
  exact hk2 j g r hg hr

example : exPlural.normalForm = .ok (str! "g") ∧ exNoun.normalForm = .ok (str! "a") := by decide +kernel

/-- C19: the same word form in lower and in upper case: the lower-case text is one of the word's forms, the upper-case one
differs only in that its first character is upper-cased, and the only failure is the `IndexError` on an empty form. -/
theorem C19_upper_case (U : PyUni) (w : Word) (p : Properties) (hw : Accepted w) (hp : WFProps p)
    (hfree : w.properties.isSpecified .WORD_CASE = false) :
    ∃ s ∈ w.forms, w.form p = .ok s ∧
      (WordForm.new w (some (p.clone [.record .WORD_CASE_LOWER]))).form U = .ok s ∧
      (∀ c cs, s = c :: cs → (WordForm.new w (some (p.clone [.record .WORD_CASE_UPPER]))).form U = .ok (U.upperC c ++ cs)) ∧
      (s = [] → (WordForm.new w (some (p.clone [.record .WORD_CASE_UPPER]))).form U = .error .IndexError) := by
  obtain ⟨h1, h2⟩ := accepted_iff.mp hw
  obtain ⟨s, hs, hform⟩ := formRaw_ok h2 (wf_new2 hp h1)
  have hnot : Group.WORD_CASE ∉ w.type.schema := by cases w.type <;> decide
  have hcl : ∀ r : Rec, r.group = .WORD_CASE → WFProps (p.clone [.record r]) ∧
      (p.clone [.record r]).get .WORD_CASE = some r ∧ (p.clone [.record r]).isSpecified .WORD_CASE = true ∧
      ∀ g, g ≠ .WORD_CASE → (p.clone [.record r]).get g = p.get g := by
    intro r hr
    have hwa : WFArgs [.props p, .record r] := by
      intro q hq; simp at hq; subst hq; exact hp
    have hg : ∀ g, (p.clone [.record r]).data.get? g = if g = .WORD_CASE then some r else p.data.get? g := by
      intro g
      unfold Properties.clone
      rw [new_get? hwa]
      simp only [List.reverse_cons, List.reverse_nil, List.nil_append, List.cons_append, List.findSome?_cons, argGet, hr]
      by_cases hgw : Group.WORD_CASE = g
      · subst hgw; simp
      · have : ¬ g = .WORD_CASE := fun e => hgw e.symm
        simp only [hgw, this, if_false]
        cases p.data.get? g <;> simp
    refine ⟨wf_new hwa, by simp [Properties.get, hg], by simp [Properties.isSpecified, Dict.contains, hg], ?_⟩
    intro g hne
    unfold Properties.get; rw [hg, if_neg hne]
  have hraw : ∀ r : Rec, r.group = .WORD_CASE →
      w.formRaw (.new [.props (p.clone [.record r]), .props w.properties]) = .ok s := by
    intro r hr
    rw [← hform]
    obtain ⟨hwf, _, _, hsame⟩ := hcl r hr
    refine formRaw_congr fun g hg => ?_
    rw [new2_get hwf h1, new2_get hp h1, hsame g (fun e => hnot (e ▸ hg))]
  have hget : ∀ r : Rec, r.group = .WORD_CASE →
      (Properties.new [.props (p.clone [.record r]), .props w.properties]).get .WORD_CASE = some r := by
    intro r hr
    obtain ⟨hwf, hg, _, _⟩ := hcl r hr
    rw [new2_get hwf h1, hfree]; simpa using hg
  refine ⟨s, hs, hform, ?_, ?_, ?_⟩
  · exact (getForm_lower (hget .WORD_CASE_LOWER rfl)).trans (hraw .WORD_CASE_LOWER rfl)
  · intro c cs hs'
    subst hs'
    refine (getForm_upper (hget .WORD_CASE_UPPER rfl)).trans ?_
    show (w.formRaw _).bind _ = _
    rw [hraw .WORD_CASE_UPPER rfl]; rfl
  · intro hs'
    subst hs'
    refine (getForm_upper (hget .WORD_CASE_UPPER rfl)).trans ?_
    show (w.formRaw _).bind _ = _
    rw [hraw .WORD_CASE_UPPER rfl]; rfl

/-- C19: a word form says the form of its word for `form_properties`, or for `properties` if `form_properties` is not given; the first
letter is capital exactly if these properties, overridden by those of the word, say so. -/
theorem C19_word_form (U : PyUni) (w : Word) (q : Properties) (f : WordForm) (hw : Accepted w) (hq : WFProps q)
    (hf : f = WordForm.new w (some q) ∨ ∃ ps, f = WordForm.new w ps (some q)) :
    ∃ s ∈ w.forms, w.form q = .ok s ∧
      (effective w q .WORD_CASE = some .WORD_CASE_LOWER → f.form U = .ok s) ∧
      (effective w q .WORD_CASE = some .WORD_CASE_UPPER → ∀ c cs, s = c :: cs → f.form U = .ok (U.upperC c ++ cs)) ∧
      (effective w q .WORD_CASE = some .WORD_CASE_UPPER → s = [] → f.form U = .error .IndexError) := by
  obtain ⟨h1, h2⟩ := accepted_iff.mp hw
  obtain ⟨s, hs, hform⟩ := formRaw_ok h2 (wf_new2 hq h1)
  have hfp : f.form U = WordForm.getForm U w (.new [.props q, .props w.properties]) := by
    rcases hf with rfl | ⟨ps, rfl⟩ <;> rfl
  have heff : (Properties.new [.props q, .props w.properties]).get .WORD_CASE = effective w q .WORD_CASE := effective_eq h1 hq .WORD_CASE
  refine ⟨s, hs, hform, fun hc => ?_, fun hc c cs hs' => ?_, fun hc hs' => ?_⟩
  · rw [hfp, getForm_lower (heff.trans hc), hform]
  · rw [hfp, getForm_upper (heff.trans hc), hform, hs']; rfl
  · rw [hfp, getForm_upper (heff.trans hc), hform, hs']; rfl

example : effective exNoun exRequest .WORD_CASE = some .WORD_CASE_LOWER ∧
    effective exNoun (.new [.props exRequest, .record .WORD_CASE_UPPER]) .WORD_CASE = some .WORD_CASE_UPPER := by decide +kernel

example : Accepted exNoun ∧ WFProps exRequest ∧ exNoun.properties.isSpecified .WORD_CASE = false :=
  ⟨exNoun_accepted, exRequest_wf, by decide +kernel⟩

theorem mem_VOWELS {c : Char} : c ∈ VOWELS ↔ isVowel c := by
  have : VOWELS = str! "аеёиоуыэюя" ++ str! "АЕЁИОУЫЭЮЯ" := rfl
  rw [this, List.mem_append]; rfl

theorem mem_CONSONANTS {c : Char} : c ∈ CONSONANTS ↔ isConsonant c := by
  have : CONSONANTS = str! "бвгджзйклмнпрстфхцчшщъь" ++ str! "БВГДЖЗЙКЛМНПРСТФХЦЧШЩЪЬ" := rfl
  rw [this, List.mem_append]; rfl

theorem VOWELS_nodup : VOWELS.Nodup := by decide

theorem sum_count_eq {vs : List Char} (hv : vs.Nodup) (s : Str) :
    (vs.map fun c => s.count c).sum = (s.filter fun c => decide (c ∈ vs)).length := by
  induction s with
  | nil => simp
  | cons x s ih =>
    have h1 : (vs.map fun c => (x :: s).count c).sum = (vs.map fun c => s.count c).sum + vs.count x := by
      clear ih hv
      induction vs with
      | nil => simp
      | cons v vs ih =>
        simp only [List.map_cons, List.sum_cons]; rw [ih]; simp only [List.count_cons]
        by_cases hx : x = v
        · subst hx; simp; omega
        · have hx' : ¬ v = x := fun e => hx e.symm
          simp [hx, hx']; omega
    rw [h1, ih]
    by_cases hx : x ∈ vs
    · rw [List.count_eq_one_of_mem hv hx]; simp [hx]
    · rw [List.count_eq_zero_of_not_mem hx]; simp [hx]

/-- C55: `number_of_syllables` is the number of vowels in the first form, at least 1. -/
theorem C55_syllables (w : Word) (hw : Accepted w) :
    ∃ f, w.forms[0]? = some f ∧ w.numberOfSyllables = .ok (max 1 (f.filter fun c => decide (isVowel c)).length) := by
  obtain ⟨_, h2⟩ := accepted_iff.mp hw
  have hpos : 0 < w.forms.length := by rw [h2]; exact List.length_pos_iff.mpr (invertedCache_ne_nil _)
  unfold Word.numberOfSyllables
  cases hf : w.forms with
  | nil => rw [hf] at hpos; simp at hpos
  | cons f fs =>
    refine ⟨f, by simp, ?_⟩
    simp only [sum_count_eq VOWELS_nodup]
    have : (fun c => decide (c ∈ VOWELS)) = fun c => decide (isVowel c) := by
      funext c; exact decide_eq_decide.mpr mem_VOWELS
    rw [this]

example : Word.numberOfSyllables ⟨.TEXT, [str! "молоко"], .new []⟩ = .ok 3 ∧
    Word.numberOfSyllables ⟨.TEXT, [str! "в"], .new []⟩ = .ok 1 := by decide +kernel

/-- C56: `has_fluent_vowel` is true iff some other non-empty form has a vowel sequence that does not start with the vowel
sequence of the first form. -/
theorem C56_fluent_vowel (w : Word) (hw : Accepted w) :
    ∃ b, w.hasFluentVowel = .ok b ∧ (b = true ↔
      ∃ (f g : Str) (i : Nat), w.forms[0]? = some f ∧ w.forms[i + 1]? = some g ∧ g ≠ [] ∧
        ¬ (f.filter fun c => decide (isVowel c)) <+: (g.filter fun c => decide (isVowel c))) := by
  obtain ⟨_, h2⟩ := accepted_iff.mp hw
  have hpos : 0 < w.forms.length := by rw [h2]; exact List.length_pos_iff.mpr (invertedCache_ne_nil _)
  have hvow : ∀ s, vowelsOf s = s.filter fun c => decide (isVowel c) := by
    intro s; unfold vowelsOf
    congr 1; funext c
    rw [List.contains_eq_mem]; exact decide_eq_decide.mpr mem_VOWELS
  unfold Word.hasFluentVowel
  cases hf : w.forms with
  | nil => rw [hf] at hpos; simp at hpos
  | cons f fs =>
    refine ⟨_, rfl, ?_⟩
    simp only [List.any_eq_true, Bool.and_eq_true, decide_eq_true_eq, Bool.not_eq_true', hvow]
    constructor
    · rintro ⟨g, hg, hne, hpre⟩
      obtain ⟨i, hi⟩ := List.mem_iff_getElem?.mp hg
      refine ⟨f, g, i, by simp, by simpa using hi, hne, ?_⟩
      rw [← List.isPrefixOf_iff_prefix, hpre]; simp
    · rintro ⟨f', g, i, hf', hi, hne, hpre⟩
      simp at hf'; subst hf'
      refine ⟨g, List.mem_of_getElem? (by simpa using hi), hne, ?_⟩
      rw [← List.isPrefixOf_iff_prefix] at hpre
      exact Bool.eq_false_iff.mpr hpre

/-- C57: `starts_with_consonant_cluster` looks at the first two letters of the spelled form. -/
theorem C57_consonant_cluster (U : PyUni) (f : WordForm) :
    (∀ e, f.form U = .error e → f.startsWithConsonantCluster U = .error e) ∧
    (f.form U = .ok [] → f.startsWithConsonantCluster U = .error .IndexError) ∧
    (∀ c cs, f.form U = .ok (c :: cs) → ∃ b, f.startsWithConsonantCluster U = .ok b ∧
      (b = true ↔ isConsonant c ∧ ∀ d, cs[0]? = some d → isConsonant d)) := by
  unfold WordForm.startsWithConsonantCluster
  refine ⟨?_, ?_, ?_⟩
  · intro e h; rw [h]; rfl
  · intro h; rw [h]; rfl
  · intro c cs h
    rw [h]
    cases cs with
    | nil =>
      refine ⟨_, rfl, ?_⟩
      simp [List.contains_eq_mem, mem_CONSONANTS]
    | cons d ds =>
      refine ⟨_, rfl, ?_⟩
      simp [List.contains_eq_mem, mem_CONSONANTS]

example : (WordForm.new ⟨.TEXT, [str! "страх"], .new []⟩).form ⟨id, fun c => [c], fun _ => false, fun _ => false, fun _ => true⟩ = .ok (str! "страх") := by
  decide +kernel

end Utg
