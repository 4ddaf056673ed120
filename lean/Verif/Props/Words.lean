import Verif.Proofs.Words
/-! # Properties C01-C09: forms, slots, the constructor -/

namespace Utg
open Py Spec

/-- Concrete word used in the examples below: a noun with 18 distinct forms `a`, `b`, … that fixes its gender and
animality. -/
def exNoun : Word :=
  ⟨.NOUN, (List.range 18).map (fun i => [Char.ofNat (97 + i)]), .new [.record .GENDER_FEMININE, .record .ANIMALITY_INANIMATE]⟩

/-- A plural-only noun. -/
def exPlural : Word :=
  ⟨.NOUN, (List.range 18).map (fun i => [Char.ofNat (97 + i)]), .new [.record .NUMBER_PLURAL]⟩

theorem exNoun_accepted : Accepted exNoun :=
  ⟨exNoun.type, exNoun.forms, exNoun.properties, built_wf (.new _ (by simp)), by decide +kernel⟩

theorem exPlural_accepted : Accepted exPlural :=
  ⟨exPlural.type, exPlural.forms, exPlural.properties, built_wf (.new _ (by simp)), by decide +kernel⟩

/-- A request: instrumental plural. -/
def exRequest : Properties := .new [.record .CASE_INSTRUMENTAL, .record .NUMBER_PLURAL]

theorem exRequest_wf : WFProps exRequest := wf_new (by intro p hp; simp at hp)

/-- C01: an accepted word answers every request with one of its forms. -/
theorem C01_form_total (w : Word) (p : Properties) (hw : Accepted w) (hp : WFProps p) :
    ∃ f ∈ w.forms, w.form p = .ok f := by
  obtain ⟨h1, h2⟩ := accepted_iff.mp hw
  exact formRaw_ok h2 (wf_new2 hp h1)

example : Accepted exNoun ∧ WFProps exRequest := ⟨exNoun_accepted, exRequest_wf⟩

/-- C02: if the effective properties agree with the key of slot `i` wherever that key is not open, the answer is the form in
slot `i`. -/
theorem C02_form_in_slot (w : Word) (p : Properties) (ks : List (Option Key)) (i : Nat) (k : Key)
    (hw : Accepted w) (hp : WFProps p) (hks : Word.getKeys w.type = .ok ks) (hk : ks[i]? = some (some k))
    (h : ∀ (j : Nat) (g : Group) (r : Rec), w.type.schema[j]? = some g → k[j]? = some (some r) → effective w p g = some r) :
    ∃ f, w.forms[i]? = some f ∧ w.form p = .ok f := by
  obtain ⟨h1, h2⟩ := accepted_iff.mp hw
  rw [getKeys_eq] at hks
  injection hks with hks; subst hks
  have hk' : (invertedCache w.type)[i]? = some k := by
    rw [List.getElem?_map] at hk
    cases hx : (invertedCache w.type)[i]? <;> simp [hx] at hk
    rw [hk]
  obtain ⟨j, f, hf, hj, huniq⟩ := formRaw_spec h2 (wf_new2 hp h1)
  refine ⟨f, ?_, hf⟩
  have hfit := invertedCache_fits (List.mem_of_getElem? hk')
  have hlen : k.length = w.type.schema.length := hfit.length_eq
  rw [← huniq i k hk' ?_]
  · exact hj
  · rw [List.forall₂_iff_get]
    refine ⟨hlen, ?_⟩
    intro n hn1 hn2
    simp only [List.get_eq_getElem]
    cases hx : k[n] with
    | none => exact Or.inl rfl
    | some r =>
      right
      rw [effective_eq h1 hp, h n (w.type.schema[n]) r (by simp) (by rw [List.getElem?_eq_getElem hn1, hx])]

example : Accepted exNoun ∧ WFProps exRequest ∧ exNoun.form exRequest = .ok (str! "k") ∧
    (∃ ks, Word.getKeys exNoun.type = .ok ks ∧
      ks[10]? = some (some [some .NOUN_FORM_NORMAL, some .NUMBER_PLURAL, some .CASE_INSTRUMENTAL])) ∧
    effective exNoun exRequest .CASE = some .CASE_INSTRUMENTAL ∧ effective exNoun exRequest .NOUN_FORM = some .NOUN_FORM_NORMAL :=
  ⟨exNoun_accepted, exRequest_wf, by decide +kernel, ⟨_, getKeys_eq _, by decide +kernel⟩, by decide +kernel, by decide +kernel⟩

/-- C02: the slots of nouns, verbs and prepositions are the documented ones, in the documented order. -/
theorem C02_documented_slots :
    Word.getKeys .NOUN = .ok (nounSlots.map some) ∧ Word.getKeys .VERB = .ok (verbSlots.map some) ∧
    Word.getKeys .PREPOSITION = .ok (prepositionSlots.map some) ∧
    Word.getKeys .INTEGER = .ok [some []] ∧ Word.getKeys .TEXT = .ok [some []] := by
  refine ⟨?_, ?_, ?_, ?_, ?_⟩ <;> rw [getKeys_eq] <;> decide +kernel

/-- C03: every full combination has exactly one pattern. -/
theorem C03_pattern_unique (schema : List Group) (rs : Restrictions) (c : List Rec) (hc : FullCombination schema c) :
    ∃ k, IsPattern rs schema c k ∧ Matches k c ∧ ∀ k', IsPattern rs schema c k' → k' = k := by
  have hl := fullCombination_length hc
  refine ⟨patternFrom rs [] schema c, (isPattern_patternFrom rs schema c hl _).mpr rfl, patternFrom_matches _ _ _ _ hl, ?_⟩
  intro k' hk'
  exact (isPattern_patternFrom rs schema c hl _).mp hk'

/-- C03: two slots never match the same combination. -/
theorem C03_slots_disjoint (schema : List Group) (rs : Restrictions) (parts : List (List Rec)) (c : List Rec) (k k' : Key)
    (hk : k ∈ (getCache schema rs parts).2) (hk' : k' ∈ (getCache schema rs parts).2) (hm : Matches k c) (hm' : Matches k' c) :
    k = k' := by
  obtain ⟨d, hd, rfl⟩ := (mem_keysGenerator rs [] schema k).mp (mem_restrictedKeys.mp hk).1
  obtain ⟨d', hd', rfl⟩ := (mem_keysGenerator rs [] schema k').mp (mem_restrictedKeys.mp hk').1
  rw [patternFrom_unique _ _ _ _ _ (fullCombination_length hd) hm, patternFrom_unique _ _ _ _ _ (fullCombination_length hd') hm']

/-- C03: the slots are listed without repetition, and they are exactly the patterns that contain no forbidden part. -/
theorem C03_slots_are_patterns (schema : List Group) (rs : Restrictions) (parts : List (List Rec)) :
    (getCache schema rs parts).2.Nodup ∧ ∀ k, k ∈ (getCache schema rs parts).2 ↔
      (∃ c, FullCombination schema c ∧ IsPattern rs schema c k) ∧ ∀ part ∈ parts, ¬ ContainsPart part k := by
  refine ⟨getCache_snd_nodup _ _ _, fun k => ?_⟩
  refine (mem_restrictedKeys (left := [])).trans (and_congr ?_ Iff.rfl)
  rw [mem_keysGenerator]
  constructor
  · rintro ⟨c, hc, rfl⟩; exact ⟨c, hc, (isPattern_patternFrom _ _ _ (fullCombination_length hc) _).mpr rfl⟩
  · rintro ⟨c, hc, h⟩; exact ⟨c, hc, (isPattern_patternFrom _ _ _ (fullCombination_length hc) _).mp h⟩

/-- C03: a combination has a slot iff its pattern contains no forbidden part; that slot is the pattern. -/
theorem C03_slot_iff (schema : List Group) (rs : Restrictions) (parts : List (List Rec)) (c : List Rec)
    (hc : FullCombination schema c) (k : Key) :
    (k ∈ (getCache schema rs parts).2 ∧ Matches k c) ↔ (IsPattern rs schema c k ∧ ∀ part ∈ parts, ¬ ContainsPart part k) := by
  have hl := fullCombination_length hc
  rw [isPattern_patternFrom rs schema c hl]
  constructor
  · rintro ⟨h1, h2⟩
    have h3 := mem_restrictedKeys.mp h1
    obtain ⟨d, hd, rfl⟩ := (mem_keysGenerator rs [] schema k).mp h3.1
    exact ⟨patternFrom_unique _ _ _ _ _ (fullCombination_length hd) h2, h3.2⟩
  · rintro ⟨rfl, h2⟩
    exact ⟨mem_restrictedKeys.mpr ⟨(mem_keysGenerator _ _ _ _).mpr ⟨c, hc, rfl⟩, h2⟩, patternFrom_matches _ _ _ _ hl⟩

example : FullCombination WordType.VERB.schema
      [.VERB_FORM_INDICATIVE, .TIME_PAST, .NUMBER_PLURAL, .PERSON_SECOND, .GENDER_FEMININE] ∧
    [some .VERB_FORM_INDICATIVE, some .TIME_PAST, some .NUMBER_PLURAL, none, none] ∈
      (getCache WordType.VERB.schema (RESTRICTIONS .VERB) (RESTRICTED_KEY_PARTS .VERB)).2 := by
  refine ⟨?_, by decide +kernel⟩
  unfold FullCombination WordType.schema
  repeat (first | exact List.Forall₂.nil | refine List.Forall₂.cons (by decide) ?_)

/-- C04: properties outside the schema never influence the form. -/
theorem C04_outside_schema_irrelevant (w : Word) (p q : Properties) (hw : Accepted w) (hp : WFProps p) (hq : WFProps q)
    (h : ∀ g ∈ w.type.schema, p.get g = q.get g) : w.form p = w.form q := by
  have hw' := (accepted_iff.mp hw).1
  refine formRaw_congr fun g hg => ?_
  rw [new2_get hp hw', new2_get hq hw', h g hg]

example : ∀ g ∈ exNoun.type.schema, exRequest.get g = (exRequest.clone [.record .TIME_FUTURE, .record .WORD_CASE_UPPER]).get g := by
  decide +kernel

/-- C05: what the request says about a property the word specifies is irrelevant. -/
theorem C05_own_properties_win (w : Word) (p q : Properties) (hw : Accepted w) (hp : WFProps p) (hq : WFProps q)
    (h : ∀ g, w.properties.isSpecified g = false → p.get g = q.get g) : w.form p = w.form q := by
  have hw' := (accepted_iff.mp hw).1
  refine formRaw_congr fun g hg => ?_
  rw [new2_get hp hw', new2_get hq hw']
  cases hs : w.properties.isSpecified g with
  | true => rfl
  | false => rw [h g hs]

example : Accepted exPlural ∧ (∀ g, exPlural.properties.isSpecified g = false →
      exRequest.get g = (exRequest.clone [.record .NUMBER_SINGULAR]).get g) ∧
    exRequest.get .NUMBER ≠ (exRequest.clone [.record .NUMBER_SINGULAR]).get .NUMBER :=
  ⟨exPlural_accepted, by intro g; cases g <;> decide +kernel, by decide +kernel⟩

/-- C06: the countable singular of a noun is its normal singular in the same case. -/
theorem C06_countable_singular (w : Word) (p q : Properties) (hw : Accepted w) (hp : WFProps p) (hq : WFProps q)
    (ht : w.type = .NOUN)
    (h1 : effective w p .NOUN_FORM = some .NOUN_FORM_COUNTABLE) (h2 : effective w p .NUMBER = some .NUMBER_SINGULAR)
    (h3 : effective w q .NOUN_FORM = some .NOUN_FORM_NORMAL) (h4 : effective w q .NUMBER = some .NUMBER_SINGULAR)
    (h5 : effective w p .CASE = effective w q .CASE) : w.form p = w.form q := by
  have hw' := (accepted_iff.mp hw).1
  obtain ⟨r, hr, hcase⟩ := get_mem_records (wf_new2 hp hw') (g := .CASE) (by decide)
  have key : ∀ s : Properties, s.getRawKey w.type.schema = [s.get .NOUN_FORM, s.get .NUMBER, s.get .CASE] := by
    intro s; rw [ht]; rfl
  have hcache : ∀ r ∈ Group.CASE.records,
      (rawWordsCache .NOUN).map (fun c => c.get? [some .NOUN_FORM_COUNTABLE, some .NUMBER_SINGULAR, some r]) =
      (rawWordsCache .NOUN).map (fun c => c.get? [some .NOUN_FORM_NORMAL, some .NUMBER_SINGULAR, some r]) := by
    decide +kernel
  have := hcache r hr
  obtain ⟨cache, hc, _⟩ := rawWordsCache_spec .NOUN
  unfold Word.form Word.formRaw
  rw [key, key, effective_eq hw' hp, effective_eq hw' hp, effective_eq hw' hp, effective_eq hw' hq, effective_eq hw' hq,
    effective_eq hw' hq, h1, h2, h3, h4, ← h5, ← effective_eq hw' hp, hcase, ht]
  rw [hc] at this ⊢
  simp only [Except.map, Except.ok.injEq] at this
  simp only [bind, Except.bind, this]

example : exNoun.form (.new [.record .NOUN_FORM_COUNTABLE, .record .CASE_DATIVE]) = .ok (str! "c") := by decide +kernel

/-- C06: the missing imperatives of a verb (third person; first person singular) are its infinitive, slot 0. -/
theorem C06_missing_imperative (w : Word) (p : Properties) (hw : Accepted w) (hp : WFProps p) (ht : w.type = .VERB)
    (h1 : effective w p .VERB_FORM = some .VERB_FORM_IMPERATIVE)
    (h2 : effective w p .PERSON = some .PERSON_THIRD ∨
      effective w p .PERSON = some .PERSON_FIRST ∧ effective w p .NUMBER = some .NUMBER_SINGULAR) :
    ∃ f, w.forms[0]? = some f ∧ w.form p = .ok f := by
  obtain ⟨hw', hlen⟩ := accepted_iff.mp hw
  have key : ∀ s : Properties, s.getRawKey w.type.schema =
      [s.get .VERB_FORM, s.get .TIME, s.get .NUMBER, s.get .PERSON, s.get .GENDER] := by
    intro s; rw [ht]; rfl
  have hcache : ∀ t ∈ Group.TIME.records, ∀ n ∈ Group.NUMBER.records, ∀ q ∈ Group.PERSON.records, ∀ g ∈ Group.GENDER.records,
      (q = .PERSON_THIRD ∨ (q = .PERSON_FIRST ∧ n = .NUMBER_SINGULAR)) →
      (rawWordsCache .VERB).map (fun c => c.get? [some .VERB_FORM_IMPERATIVE, some t, some n, some q, some g]) =
        .ok (some 0) := by
    decide +kernel
  obtain ⟨t, ht1, ht2⟩ := get_mem_records (wf_new2 hp hw') (g := .TIME) (by decide)
  obtain ⟨n, hn1, hn2⟩ := get_mem_records (wf_new2 hp hw') (g := .NUMBER) (by decide)
  obtain ⟨q, hq1, hq2⟩ := get_mem_records (wf_new2 hp hw') (g := .PERSON) (by decide)
  obtain ⟨g, hg1, hg2⟩ := get_mem_records (wf_new2 hp hw') (g := .GENDER) (by decide)
  have h2' : q = .PERSON_THIRD ∨ (q = .PERSON_FIRST ∧ n = .NUMBER_SINGULAR) := by
    rw [← effective_eq hw' hp, ← effective_eq hw' hp, hq2, hn2] at h2
    simpa using h2
  have h0 := hcache t ht1 n hn1 q hq1 g hg1 h2'
  have hlt : 0 < w.forms.length := by
    rw [hlen]; exact List.length_pos_iff.mpr (invertedCache_ne_nil _)
  obtain ⟨cache, hc, _⟩ := rawWordsCache_spec .VERB
  refine ⟨w.forms[0], by simp, ?_⟩
  unfold Word.form Word.formRaw
  rw [key, effective_eq hw' hp, h1, ht2, hn2, hq2, hg2, ht]
  rw [hc] at h0 ⊢
  simp only [Except.map, Except.ok.injEq] at h0
  simp only [bind, Except.bind, h0]
  rw [List.getElem?_eq_getElem hlt]

/-- A verb with 20 distinct forms. -/
def exVerb : Word := ⟨.VERB, (List.range 20).map (fun i => [Char.ofNat (97 + i)]), .new [.record .ASPECT_PERFECTIVE]⟩

example : Accepted exVerb ∧ effective exVerb (.new [.record .VERB_FORM_IMPERATIVE]) .PERSON = some .PERSON_FIRST ∧
    effective exVerb (.new [.record .VERB_FORM_IMPERATIVE]) .NUMBER = some .NUMBER_SINGULAR ∧
    exVerb.form (.new [.record .VERB_FORM_IMPERATIVE]) = .ok (str! "a") ∧
    exVerb.form (.new [.record .VERB_FORM_IMPERATIVE, .record .PERSON_SECOND]) = .ok (str! "r") :=
  ⟨⟨exVerb.type, exVerb.forms, exVerb.properties, built_wf (.new _ (by simp)), by decide +kernel⟩,
    by decide +kernel, by decide +kernel, by decide +kernel, by decide +kernel⟩

/-- C07: `get_keys` lists every slot key exactly once and in slot order; looking a key up gives back its position. -/
theorem C07_slot_bijection (t : WordType) : ∃ ks : List Key,
    Word.getKeys t = .ok (ks.map some) ∧ ks.Nodup ∧ ks.length = Word.getFormsNumber t ∧ Word.getFormsNumber t = slotCount t ∧
    (∀ (k : Key) (i : Nat), (wordsCache t).get? k = some i ↔ ks[i]? = some k) ∧
    (∀ k, k ∈ ks ↔ (∃ c, FullCombination t.schema c ∧ IsPattern (RESTRICTIONS t) t.schema c k) ∧
      ∀ part ∈ RESTRICTED_KEY_PARTS t, ¬ ContainsPart part k) := by
  refine ⟨invertedCache t, getKeys_eq t, invertedCache_nodup t, (wordsCache_length t).symm, ?_, fun k i => wordsCache_get?, ?_⟩
  · unfold Word.getFormsNumber; rw [wordsCache_length]; cases t <;> decide +kernel
  · exact (C03_slots_are_patterns _ _ _).2

/-- C08: the constructor accepts exactly the right number of forms and stores its arguments unchanged. -/
theorem C08_constructor (t : WordType) (forms : List Str) (ps : Properties) :
    (forms.length = slotCount t → Word.new t forms ps = .ok ⟨t, forms, ps⟩) ∧
    (forms.length ≠ slotCount t → Word.new t forms ps = .error (.WrongFormsNumberError forms.length (slotCount t) forms)) := by
  obtain ⟨_, _, _, _, h, _⟩ := C07_slot_bijection t
  unfold Word.getFormsNumber at h
  unfold Word.new
  rw [h]
  constructor
  · intro e; rw [if_neg (by simp [e])]
  · intro e; rw [if_pos e]

example : Word.new .TEXT [str! "a", str! "b"] = .error (.WrongFormsNumberError 2 1 [str! "a", str! "b"]) := by decide +kernel

end Utg
