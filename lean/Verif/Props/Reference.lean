import Verif.Spec.Reference
import Verif.Props.Checked
import Verif.Props.Dictionary
import Verif.Proofs.Layout
import Verif.Props.Readme
/-! # C86: substitution computes the reference semantics -/

namespace Utg
open Py Spec

/-- Every property has one of its values. -/
def Proper (ρ : Reading) : Prop := ∀ g, g ≠ .WORD_TYPE → ∃ r ∈ g.records, ρ g = some r

theorem proper_get {p : Properties} (hp : WFProps p) : Proper p.get := fun _ hg => get_mem_records hp hg

theorem upd_self {ρ : Reading} {r : Rec} : (ρ.upd [r]) r.group = some r := by simp [Reading.upd]

theorem upd_other {ρ : Reading} {r : Rec} {g : Group} (h : r.group ≠ g) : (ρ.upd [r]) g = ρ g := by simp [Reading.upd, h]

theorem proper_upd {ρ : Reading} (h : Proper ρ) (r : Rec) : Proper (ρ.upd [r]) := by
  intro g hg
  by_cases e : r.group = g
  · subst e; exact ⟨r, mem_records_iff.mpr rfl, upd_self⟩
  · rw [upd_other e]; exact h g hg

theorem proper_standIn {ρ : Reading} (t : WordType) (h : Proper ρ) : Proper (standIn t ρ) := by
  unfold standIn
  split
  · exact proper_upd h _
  · split
    · exact proper_upd h _
    · exact h

theorem standIn_parts {ρ : Reading} (t : WordType) : ∀ part ∈ RESTRICTED_KEY_PARTS t, ¬ Fits (standIn t ρ) part := by
  intro part hpart hf
  have hupd : ∀ (r : Rec), r.group = .NOUN_FORM ∨ r.group = .VERB_FORM → ∀ x ∈ part, x.group = r.group → x ≠ r → ¬ Fits (ρ.upd [r]) part := by
    intro r _ x hx hg hne hf
    have := hf x hx
    rw [hg, upd_self] at this
    injection this with this; exact hne this.symm
  cases t <;> simp only [RESTRICTED_KEY_PARTS, List.mem_cons, List.not_mem_nil, or_false] at hpart
  · subst hpart
    unfold standIn at hf
    split at hf
    · exact hupd .NOUN_FORM_NORMAL (.inl rfl) .NOUN_FORM_COUNTABLE (by simp) rfl (by decide) hf
    · rename_i hn
      simp only [reduceCtorEq, false_and, if_false] at hf
      exact hn ⟨rfl, hf .NOUN_FORM_COUNTABLE (by simp), hf .NUMBER_SINGULAR (by simp)⟩
  · unfold standIn at hf
    simp only [reduceCtorEq, false_and, if_false, true_and] at hf
    split at hf
    · rcases hpart with rfl | rfl <;> exact hupd .VERB_FORM_INFINITIVE (.inr rfl) .VERB_FORM_IMPERATIVE (by simp) rfl (by decide) hf
    · rename_i hn
      rcases hpart with rfl | rfl
      · exact hn ⟨hf .VERB_FORM_IMPERATIVE (by simp), .inl (hf .PERSON_THIRD (by simp))⟩
      · exact hn ⟨hf .VERB_FORM_IMPERATIVE (by simp), .inr ⟨hf .PERSON_FIRST (by simp), hf .NUMBER_SINGULAR (by simp)⟩⟩

/-- The full combination of a reading. -/
theorem proper_combination {ρ : Reading} (h : Proper ρ) {schema : List Group} (hs : Group.WORD_TYPE ∉ schema) :
    ∃ c, FullCombination schema c ∧ schema.map ρ = c.map some := by
  induction schema with
  | nil => exact ⟨[], .nil, rfl⟩
  | cons g gs ih =>
    obtain ⟨c, h1, h2⟩ := ih (fun hm => hs (List.mem_cons_of_mem _ hm))
    obtain ⟨r, hr, hr'⟩ := h g (fun e => hs (by simp [e]))
    exact ⟨r :: c, .cons hr h1, by simp [h2, hr']⟩

theorem fits_iff {ρ : Reading} {schema : List Group} {c : List Rec} (hc : schema.map ρ = c.map some) {k : Key} (hk : FitsSchema schema k) :
    Fits ρ (k.filterMap id) ↔ Matches k c := by
  induction hk generalizing c with
  | nil => cases c with
    | nil => simp [Fits, Matches]
    | cons => simp at hc
  | @cons o g k gs ho hk ih =>
    cases c with
    | nil => simp at hc
    | cons r c =>
      simp only [List.map_cons, List.cons.injEq] at hc
      unfold Matches
      rw [List.forall₂_cons]
      have ih := ih hc.2
      unfold Matches at ih
      rw [← ih]
      cases o with
      | none => simp [Fits]
      | some x =>
        have hx : x.group = g := mem_records_iff.mp (ho x rfl)
        subst hx
        simp only [Fits, List.filterMap_cons_some (show id (some x) = some x from rfl), List.mem_cons, forall_eq_or_imp, hc.1,
          Option.some.injEq, reduceCtorEq, false_or]
        exact and_congr_left fun _ => eq_comm

/-- The slot of a proper reading: a combination it fits, the only one. -/
theorem slotOf_spec {ρ : Reading} (t : WordType) (h : Proper ρ) :
    ∃ k, (invertedCache t)[slotOf t ρ]? = some k ∧ Fits (standIn t ρ) (k.filterMap id) ∧
      ∀ (j : Nat) k', (invertedCache t)[j]? = some k' → Fits (standIn t ρ) (k'.filterMap id) → j = slotOf t ρ := by
  obtain ⟨c, hfull, hc⟩ := proper_combination (proper_standIn t h) (schema_not_wordType t)
  have hmem : patternFrom (RESTRICTIONS t) [] t.schema c ∈ invertedCache t := by
    rw [mem_invertedCache]
    refine ⟨⟨c, hfull, rfl⟩, ?_⟩
    intro part hp hcon
    refine standIn_parts (ρ := ρ) t part hp ?_
    have hm := patternFrom_matches (RESTRICTIONS t) [] t.schema c (fullCombination_length hfull)
    have hf := (fits_iff hc (patternFrom_fits hfull)).mpr hm
    intro r hr
    exact hf r (by rw [List.mem_filterMap]; exact ⟨_, hcon r hr, rfl⟩)
  have hex : ∃ m ∈ layoutNow t, Fits (standIn t ρ) m := by
    rw [layoutNow_eq]
    exact ⟨_, List.mem_map_of_mem hmem, (fits_iff hc (patternFrom_fits hfull)).mpr (patternFrom_matches _ _ _ _ (fullCombination_length hfull))⟩
  have hlt : slotOf t ρ < (layoutNow t).length := by
    unfold slotOf; rw [List.findIdx_lt_length]
    obtain ⟨m, h1, h2⟩ := hex
    exact ⟨m, h1, by simpa using h2⟩
  have hat : Fits (standIn t ρ) (layoutNow t)[slotOf t ρ] :=
    of_decide_eq_true (List.findIdx_getElem (xs := layoutNow t) (p := fun m => decide (Fits (standIn t ρ) m)) (w := hlt))
  have hlt' : slotOf t ρ < (invertedCache t).length := by rw [layoutNow_eq, List.length_map] at hlt; exact hlt
  have e : (layoutNow t)[slotOf t ρ]? = ((invertedCache t)[slotOf t ρ]?).map (·.filterMap id) := by
    conv_lhs => rw [layoutNow_eq]
    rw [List.getElem?_map]
  rw [List.getElem?_eq_getElem hlt, List.getElem?_eq_getElem hlt'] at e
  simp only [Option.map_some, Option.some.injEq] at e
  refine ⟨(invertedCache t)[slotOf t ρ], List.getElem?_eq_getElem hlt', ?_, ?_⟩
  · rw [← e]; exact hat
  · intro j k' hj hk'
    have hk1 := List.mem_of_getElem? hj
    have hm1 := (fits_iff hc (invertedCache_fits hk1)).mp hk'
    have hm2 := (fits_iff hc (invertedCache_fits (List.getElem_mem hlt'))).mp (by rw [← e]; exact hat)
    have := invertedCache_unique hk1 (List.getElem_mem hlt') hm1 hm2
    subst this
    obtain ⟨hj1, hj2⟩ := List.getElem?_eq_some_iff.mp hj
    exact (List.Nodup.getElem_inj_iff (invertedCache_nodup t)).mp hj2

theorem noun_stand_in : ∀ r ∈ Group.CASE.records,
    (rawWordsCache .NOUN).map (fun c => c.get? [some .NOUN_FORM_COUNTABLE, some .NUMBER_SINGULAR, some r]) =
    (rawWordsCache .NOUN).map (fun c => c.get? [some .NOUN_FORM_NORMAL, some .NUMBER_SINGULAR, some r]) := by
  decide +kernel

theorem verb_stand_in : ∀ t ∈ Group.TIME.records, ∀ n ∈ Group.NUMBER.records, ∀ q ∈ Group.PERSON.records, ∀ g ∈ Group.GENDER.records,
    (q = .PERSON_THIRD ∨ (q = .PERSON_FIRST ∧ n = .NUMBER_SINGULAR)) →
    (rawWordsCache .VERB).map (fun c => c.get? [some .VERB_FORM_IMPERATIVE, some t, some n, some q, some g]) =
      (rawWordsCache .VERB).map (fun c => c.get? [some .VERB_FORM_INFINITIVE, some t, some n, some q, some g]) := by
  decide +kernel

/-- The cache treats a reading as its stand-in. -/
theorem cache_standIn {ρ : Reading} (t : WordType) (h : Proper ρ) {cache : Dict Key Nat} (hc : rawWordsCache t = .ok cache) :
    cache.get? (t.schema.map ρ) = cache.get? (t.schema.map (standIn t ρ)) := by
  unfold standIn
  split
  · rename_i hn
    obtain ⟨rfl, h1, h2⟩ := hn
    obtain ⟨r, hr, h3⟩ := h .CASE (by decide)
    have := noun_stand_in r hr
    rw [hc] at this
    simp only [Except.map, Except.ok.injEq] at this
    simpa [WordType.schema, h1, h2, h3, Reading.upd, Rec.group] using this
  · split
    · rename_i hn
      obtain ⟨rfl, h1, h2⟩ := hn
      obtain ⟨t, ht1, ht2⟩ := h .TIME (by decide)
      obtain ⟨n, hn1, hn2⟩ := h .NUMBER (by decide)
      obtain ⟨q, hq1, hq2⟩ := h .PERSON (by decide)
      obtain ⟨g, hg1, hg2⟩ := h .GENDER (by decide)
      have := verb_stand_in t ht1 n hn1 q hq1 g hg1 (by rw [hq2, hn2] at h2; simpa using h2)
      rw [hc] at this
      simp only [Except.map, Except.ok.injEq] at this
      simpa [WordType.schema, h1, ht2, hn2, hq2, hg2, Reading.upd, Rec.group] using this
    · rfl

theorem formRaw_formIn {w : Word} {p : Properties} (hw : w.forms.length = (invertedCache w.type).length) (hp : WFProps p) :
    w.formRaw p = .ok (formIn w p.get) ∧ slotOf w.type p.get < w.forms.length := by
  obtain ⟨cache, hc, hs⟩ := rawWordsCache_spec w.type
  obtain ⟨k, hk, hfit, -⟩ := slotOf_spec w.type (proper_get hp)
  obtain ⟨c, hfull, hraw⟩ := proper_combination (proper_standIn w.type (proper_get hp)) (schema_not_wordType w.type)
  have hm := (fits_iff hraw (invertedCache_fits (List.mem_of_getElem? hk))).mp hfit
  have hget := hs.slot _ _ _ hk hfull hm
  rw [← hraw, ← cache_standIn w.type (proper_get hp) hc] at hget
  have hlt : slotOf w.type p.get < w.forms.length := by rw [hw]; exact (List.getElem?_eq_some_iff.mp hk).1
  refine ⟨?_, hlt⟩
  have hkey : p.getRawKey w.type.schema = w.type.schema.map p.get := rfl
  unfold Word.formRaw
  rw [hc, hkey]
  simp only [bind, Except.bind, hget]
  rw [List.getElem?_eq_getElem hlt]
  simp [formIn, hlt]

theorem getForm_spoken {U : PyUni} {w : Word} {p : Properties} (hw : Accepted w) (hp : WFProps p) :
    WordForm.getForm U w p = spoken U w p.get := by
  have h := (formRaw_formIn (accepted_iff.mp hw).2 hp).1
  obtain ⟨r, hr, hr'⟩ := get_mem_records hp (g := .WORD_CASE) (by decide)
  unfold spoken
  simp only [Group.records, List.mem_cons, List.not_mem_nil, or_false] at hr
  rcases hr with rfl | rfl
  · rw [getForm_lower hr', h, hr']; simp
  · rw [getForm_upper hr', h, hr']
    simp only [if_true, Except.bind]
    cases formIn w p.get <;> rfl

/-! ## Agreement -/

theorem sets_upd {p q : Properties} {rs : List Rec} (h : Sets p q rs) : q.get = Reading.upd p.get rs := by
  funext g
  unfold Reading.upd
  cases hf : rs.find? fun r => decide (r.group = g) with
  | some r =>
    have h1 := List.find?_some hf
    simp only [decide_eq_true_eq] at h1
    subst h1
    exact (h.1 r (List.mem_of_find?_eq_some hf)).1
  | none =>
    rw [List.find?_eq_none] at hf
    exact (h.2 g (fun r hr e => hf r hr (decide_eq_true e))).1

theorem upd_nil (ρ : Reading) : ρ.upd [] = ρ := rfl

theorem prepositionDemand_eq {prep next : Str} {w : Word} {form : Option Rec} (h : prepositionAgreement prep next w form) :
    prepositionDemand prep next w = form.toList := by
  unfold prepositionDemand
  have e1 : (∃ c ∈ prep.getLast?, isConsonant c) ↔ ∃ c, prep.getLast? = some c ∧ isConsonant c := by simp [Option.mem_def]
  have e2 : (∃ c ∈ next.head?, isPlainVowel c) ↔ ∃ c, next[0]? = some c ∧ isPlainVowel c := by
    simp [Option.mem_def, List.head?_eq_getElem?]
  have e3 : (StartsWithCluster next ∧ (OneSyllable w ∧ FluentVowel w ∨ (prep = str! "в" ∨ prep = str! "с") ∧ prep <+: next)) ↔
      (StartsWithCluster next ∧ OneSyllable w ∧ FluentVowel w ∨
       (prep = str! "в" ∨ prep = str! "с") ∧ prep <+: next ∧ StartsWithCluster next) := by tauto
  simp only [e1, e2, e3]
  rcases h with ⟨h1, ⟨rfl, h2⟩ | ⟨rfl, h2⟩⟩ | ⟨h1, ⟨rfl, h2⟩ | ⟨rfl, h2, h3⟩ | ⟨rfl, h2, h3⟩⟩
  · rw [if_pos h1, if_pos h2]; rfl
  · rw [if_pos h1, if_neg h2]; rfl
  · rw [if_neg h1, if_pos h2]; rfl
  · rw [if_neg h1, if_neg h2, if_pos h3]; rfl
  · rw [if_neg h1, if_neg h2, if_neg h3]; rfl

theorem normalForm_formIn {w : Word} (hw : Accepted w) : w.normalForm = .ok (formIn w w.properties.get) := by
  obtain ⟨h1, h2⟩ := accepted_iff.mp hw
  unfold Word.normalForm Word.form
  rw [(formRaw_formIn h2 (wf_new2 h1 h1)).1]
  congr 2
  funext g
  rw [new2_get h1 h1]
  split <;> rfl

/-- One step of agreement is one demand. -/
theorem transform_demand {U : PyUni} {w : Word} {f : WordForm} {p : Properties} (hw : Accepted w) (hf : GoodForm f) (hp : WFProps p) :
    (∃ e, demand U w p.get f = .error e ∧ transform U w p f = .error e) ∨
    ∃ rs q, demand U w p.get f = .ok rs ∧ transform U w p f = .ok q ∧ WFProps q ∧ q.get = Reading.upd p.get rs := by
  rcases transform_cases w f with h | ⟨h1, h2⟩ | ⟨h1, h2⟩ | ⟨h1, h2⟩
  · have hn := normalForm_formIn hw
    have hform : f.form U = spoken U f.word f.formProperties.get := getForm_spoken hf.1 hf.2.2
    unfold demand
    simp only [h]
    by_cases he : formIn w w.properties.get = []
    · left; exact ⟨.IndexError, by simp [he], C42_empty_texts U w p f _ h hn (.inl he)⟩
    · simp only [he, if_false]
      rw [← hform]
      cases hx : f.form U with
      | error e =>
        left; refine ⟨e, rfl, ?_⟩
        rw [transform_preposition h]
        unfold prepositionAny
        rw [hn]
        simp only [bind, Except.bind, Py.last]
        cases hl : (formIn w w.properties.get).getLast? with
        | none => exact absurd (List.getLast?_eq_none_iff.mp hl) he
        | some c =>
          simp only
          split
          · unfold consonantPrepositionAny; rw [hx]; rfl
          · unfold vowelsPrepositionAny; rw [hx]; rfl
      | ok next =>
        by_cases hne : next = []
        · subst hne
          left; exact ⟨.IndexError, rfl, C42_empty_texts U w p f _ h hn (.inr hx)⟩
        · obtain ⟨form, q, h3, h4, h5⟩ := C42_preposition U w p f _ next hp h hf.1 hn he hx hne
          right
          refine ⟨form.toList, q, ?_, h3, transform_wf hp h3, sets_upd h5⟩
          simp only [bind, Except.bind, hne, if_false, prepositionDemand_eq h4]
  · right
    refine ⟨[], p, ?_, C40_other_pairs U w p f h1 h2, hp, rfl⟩
    unfold demand
    cases ht : w.type <;> simp_all
  · right
    obtain ⟨mode, i, case, anim, q, hm, hi, hc, ha, hq, hs⟩ := C38_never_fails U w p f hp h1 h2
    refine ⟨_, q, ?_, hq, transform_wf hp hq, sets_upd hs⟩
    unfold demand
    rcases h1 with h1 | h1 <;> simp only [h1, h2, if_true, hm, hi, hc, ha]
  · right
    obtain ⟨mode, i, case, gender, q, hm, hi, hc, ha, hq, hs⟩ := C39_never_fails U w p f hp h1 h2
    refine ⟨_, q, ?_, hq, transform_wf hp hq, sets_upd hs⟩
    unfold demand
    rcases h1 with h1 | h1 | h1 <;> simp only [h1, h2, if_true, hm, hi, hc, ha]

theorem foldlM_agreeAll {U : PyUni} {w : Word} (hw : Accepted w) {fs : List WordForm} (hf : ∀ f ∈ fs, GoodForm f) {p : Properties}
    (hp : WFProps p) :
    (fs.foldlM (fun ps external => transform U w ps external) p).bind (WordForm.getForm U w) =
      (agreeAll U w p.get fs).bind (spoken U w) := by
  induction fs generalizing p with
  | nil => exact getForm_spoken hw hp
  | cons f fs ih =>
    rw [List.foldlM_cons, agreeAll]
    rcases transform_demand (U := U) hw (hf f (by simp)) hp with ⟨e, h1, h2⟩ | ⟨rs, q, h1, h2, h3, h4⟩
    · rw [h1, h2]; rfl
    · rw [h1, h2]
      have := ih (fun x hx => hf x (List.mem_cons_of_mem _ hx)) h3
      rw [h4] at this
      exact this

theorem collected_initial {ext : Externals} {base : WordForm} {deps : List Dep} (he : GoodExternals ext) (hb : GoodForm base)
    (hp : ∀ p, Dep.props p ∈ deps → WFProps p) : (collected ext base deps).get = initialReading ext base deps := by
  funext g
  have hlast : ∀ deps : List Dep, lastSay ext g deps = deps.reverse.findSome? fun dep => (depProps ext dep).data.get? g := by
    intro deps
    induction deps with
    | nil => rfl
    | cons dep deps ih =>
      rw [lastSay, ih, List.reverse_cons, List.findSome?_append]
      cases deps.reverse.findSome? fun dep => (depProps ext dep).data.get? g with
      | some r => rfl
      | none => simp [depSays_eq]
  unfold initialReading
  rw [hlast]
  have h := collected_get? he hb hp g
  cases hs : base.word.properties.isSpecified g with
  | true =>
    obtain ⟨r, hr⟩ := isSpecified_iff.mp hs
    rw [hr] at h
    simp only [if_true]
    exact get_congr (by rw [h, hr]; rfl)
  | false =>
    rw [isSpecified_false.mp hs] at h
    simp only [Option.none_or] at h
    simp only [Bool.false_eq_true, if_false]
    cases hx : deps.reverse.findSome? fun dep => (depProps ext dep).data.get? g with
    | some r => rw [hx] at h; simp only [Option.some_or] at h; unfold Properties.get; rw [h]
    | none => rw [hx] at h; exact get_congr h

theorem masters_ok {ext : Externals} {deps : List Dep} (h : ∀ n, Dep.ext n ∈ deps → ∃ f, ext.get? n = some f) :
    masters ext deps = .ok (deps.filterMap (depForm ext)) := by
  induction deps with
  | nil => rfl
  | cons dep deps ih =>
    have ih := ih (fun n hn => h n (List.mem_cons_of_mem _ hn))
    cases dep with
    | props p => rw [List.filterMap_cons_none (show depForm ext (.props p) = none from rfl)]; exact ih
    | ext n =>
      obtain ⟨f, hf⟩ := h n (by simp)
      simp [masters, hf, ih, bind, Except.bind, depForm]

theorem masters_missing {ext : Externals} {pre post : List Dep} {n : Str} (h : ∀ m, Dep.ext m ∈ pre → ∃ f, ext.get? m = some f)
    (hn : ext.get? n = none) : masters ext (pre ++ .ext n :: post) = .error (.ExternalDependecyNotFoundError n) := by
  induction pre with
  | nil => simp [masters, hn]
  | cons dep deps ih =>
    have ih := ih (fun n hn => h n (List.mem_cons_of_mem _ hn))
    cases dep with
    | props p => exact ih
    | ext m =>
      obtain ⟨f, hf⟩ := h m (by simp)
      simp [masters, hf, ih, bind, Except.bind]

/-- C86: the text of a substitution is its meaning in the reference semantics: for any words, numbers and externals, any
number of dependencies, and the errors included. -/
theorem C86_substitution (U : PyUni) (ext : Externals) (d : Dictionary) (lookup : Str → Option WordForm) (s : Substitution)
    (he : GoodExternals ext) (hd : GoodDictionary d) (hs : GoodSubstitution s)
    (hl : ∀ t f, lookup t = some f ↔ d.getWord t = .ok f) : s.getText U ext d = meaning U ext lookup s := by
  have hres : ∀ base, (ext.get? s.id).or (lookup s.id) = some base ↔ Resolves ext d s.id base := by
    intro base
    unfold Resolves
    cases h : ext.get? s.id with
    | some f => simp
    | none => simp [hl]
  unfold meaning
  cases hb : (ext.get? s.id).or (lookup s.id) with
  | none =>
    refine (C49_errors U ext d s he hd hs).1 ?_
    rintro ⟨f, hf⟩
    rw [← hres, hb] at hf; cases hf
  | some base =>
    have hr := (hres base).mp hb
    have hbg := resolves_good he hd hr
    simp only
    rcases missing_or ext s.dependencies with hsup | ⟨pre, n, post, h1, h2, h3⟩
    · rw [getText_eq hr hsup, foldlM_agreeAll hbg.1 ?_ (collected_wf he hbg hs), collected_initial he hbg hs, masters_ok hsup]
      · rfl
      · intro f hf
        rw [List.mem_filterMap] at hf
        obtain ⟨dep, h1, h2⟩ := hf
        cases dep with
        | props p => cases h2
        | ext n => exact he n f h2
    · rw [h1, masters_missing h2 h3]
      exact ((C49_errors U ext d s he hd hs).2 ⟨base, hr⟩).1 pre n post h1 h2 h3

/-! ## Words and dictionaries -/

/-- C86: the form of an accepted word for any requested properties is the one in the slot of the effective values. -/
theorem C86_word (w : Word) (p : Properties) (hw : Accepted w) (hp : WFProps p) :
    w.form p = .ok (formIn w (effective w p)) ∧ slotOf w.type (effective w p) < w.forms.length := by
  obtain ⟨h1, h2⟩ := accepted_iff.mp hw
  have h := formRaw_formIn h2 (wf_new2 hp h1)
  have e : (Properties.new [.props p, .props w.properties]).get = effective w p := by funext g; exact effective_eq h1 hp g
  rw [e] at h
  exact h

/-- C86: the slot of a reading holds a combination the reading (or its stand-in) fits, and no other slot does. -/
theorem C86_slot (t : WordType) (ρ : Reading) (h : ∀ g, g ≠ .WORD_TYPE → ∃ r ∈ g.records, ρ g = some r) :
    ∃ m, (layoutNow t)[slotOf t ρ]? = some m ∧ Fits (standIn t ρ) m ∧
      ∀ (j : Nat) m', (layoutNow t)[j]? = some m' → Fits (standIn t ρ) m' → j = slotOf t ρ := by
  obtain ⟨k, h1, h2, h3⟩ := slotOf_spec t h
  refine ⟨k.filterMap id, ?_, h2, ?_⟩
  · rw [layoutNow_eq, List.getElem?_map, h1]; rfl
  · intro j m' hj hf
    rw [layoutNow_eq, List.getElem?_map] at hj
    cases hx : (invertedCache t)[j]? with
    | none => rw [hx] at hj; cases hj
    | some k' =>
      rw [hx] at hj
      injection hj with hj; subst hj
      exact h3 j k' hx hf

/-- C86: the text of a word form. -/
theorem C86_word_form (U : PyUni) (f : WordForm) (hf : GoodForm f) : f.form U = spoken U f.word f.formProperties.get :=
  getForm_spoken hf.1 hf.2.2

theorem best_firstBest (l : List WordForm) : (l = [] ∧ best l = none) ∨ ∃ f, best l = some f ∧ FirstBest l f := by
  induction l with
  | nil => left; exact ⟨rfl, rfl⟩
  | cons f fs ih =>
    right
    rcases ih with ⟨rfl, h⟩ | ⟨g, h1, pre, post, h2, h3, h4⟩
    · exact ⟨f, rfl, [], [], rfl, by simp, by simp⟩
    · rw [best, h1]
      by_cases hb : Better g f
      · refine ⟨g, by simp [hb], f :: pre, post, by rw [h2]; rfl, ?_, h4⟩
        intro x hx
        rcases List.mem_cons.mp hx with rfl | hx
        · exact hb
        · exact h3 x hx
      · refine ⟨f, by simp [hb], [], fs, rfl, by simp, ?_⟩
        intro x hx hxf
        have := firstBest_min ⟨pre, post, h2, h3, h4⟩ x hx
        exact hb (by
          by_contra hgf
          -- x better than f, x not better than g, so g better than f or equal: contradiction
          exact this (better_cotrans hxf hgf))

theorem firstBest_unique {l : List WordForm} {f g : WordForm} (hf : FirstBest l f) (hg : FirstBest l g) : f = g := by
  obtain ⟨pre, post, h1, h2, h3⟩ := hf
  obtain ⟨pre', post', h1', h2', h3'⟩ := hg
  rw [h1] at h1'
  rcases List.append_eq_append_iff.mp h1' with ⟨a, ha, hb⟩ | ⟨a, ha, hb⟩
  · cases a with
    | nil => simp at hb; exact hb.1
    | cons x a =>
      simp at hb
      obtain ⟨rfl, hb⟩ := hb
      have := h2' f (by rw [ha]; simp)
      exact absurd this (h3 g (by rw [hb]; simp))
  · cases a with
    | nil => simp at hb; exact hb.1.symm
    | cons x a =>
      simp at hb
      obtain ⟨rfl, hb⟩ := hb
      have := h2 g (by rw [ha]; simp)
      exact absurd this (h3' f (by rw [hb]; simp))

theorem propertiesOfKey_filterMap (k : Key) : propertiesOfKey k = .new ((k.filterMap id).map .record) := by
  unfold propertiesOfKey Properties.new
  congr 1
  generalize ([] : Dict Group Rec) = acc
  induction k generalizing acc with
  | nil => rfl
  | cons o k ih =>
    cases o with
    | none => exact ih acc
    | some r => rw [List.filterMap_cons_some (show id (some r) = some r from rfl)]; exact ih _

theorem offered_withTexts {U : PyUni} {w : Word} (hw : Accepted w) : offered U w = withTexts U (entries w) := by
  obtain ⟨h1, h2⟩ := accepted_iff.mp hw
  unfold offered
  rw [allForms_spec h2]
  have e : entries w = (invertedCache w.type).map fun k => WordForm.new w (some (propertiesOfKey k)) := by
    unfold entries
    rw [layoutNow_eq, List.map_map]
    exact List.map_congr_left fun k _ => by simp [propertiesOfKey_filterMap]
  rw [e]
  have hgood : ∀ f ∈ (invertedCache w.type).map fun k => WordForm.new w (some (propertiesOfKey k)), GoodForm f := by
    intro f hf
    obtain ⟨k, _, rfl⟩ := List.mem_map.mp hf
    exact goodForm_new hw (by rintro _ ⟨⟩; exact wf_propertiesOfKey k) (by simp)
  revert hgood
  generalize ((invertedCache w.type).map fun k => WordForm.new w (some (propertiesOfKey k))) = fs
  intro hgood
  simp only
  induction fs with
  | nil => rfl
  | cons f fs ih =>
    rw [spelled, withTexts, C86_word_form U f (hgood f (by simp)), ih (fun x hx => hgood x (List.mem_cons_of_mem _ hx))]
    try rfl

theorem candidatesFor_eq {U : PyUni} {ws : List Word} (hws : ∀ w ∈ ws, Accepted w) (t : Str) :
    candidatesFor U ws t = ((ws.flatMap fun w => withTexts U (entries w)).filter fun c => decide (c.1 = t)).map Prod.snd := by
  have e : candidates U ws = ws.flatMap fun w => withTexts U (entries w) := by
    unfold candidates
    induction ws with
    | nil => rfl
    | cons w ws ih =>
      rw [List.flatMap_cons, List.flatMap_cons, offered_withTexts (hws w (by simp)), ih (fun x hx => hws x (List.mem_cons_of_mem _ hx))]
  unfold candidatesFor
  rw [e]
  generalize (ws.flatMap fun w => withTexts U (entries w)) = cs
  induction cs with
  | nil => rfl
  | cons c cs ih =>
    by_cases h : c.1 = t <;> simp [h, ih]

/-- C86: a dictionary gives the best entry, the first one among equals. -/
theorem C86_dictionary (U : PyUni) (ws : List Word) (hws : ∀ w ∈ ws, Accepted w) (t : Str) :
    (history U ws).getWord t = match entryFor U ws t with
      | some f => .ok f
      | none => .error (.NoWordsFoundError t) := by
  unfold entryFor
  rw [← candidatesFor_eq hws]
  rcases getWord_history (U := U) hws t with ⟨h1, h2, _⟩ | ⟨f, h1, _, h3⟩
  · rw [h2, h1]; rfl
  · rcases best_firstBest (candidatesFor U ws t) with ⟨h4, _⟩ | ⟨g, h4, h5⟩
    · have := firstBest_mem h3; rw [h4] at this; simp at this
    · rw [h1, h4, firstBest_unique h3 h5]

/-! ## Texts -/

theorem meaningAll_eq {U : PyUni} {ext : Externals} {lookup : Str → Option WordForm} (l : Str) (subs : List Substitution) (lits : List Str)
    (hlen : subs.length = lits.length) :
    meaningAll U ext lookup l (subs.zip lits) = (subs.mapM (meaning U ext lookup)).map fun xs => filled l xs lits := by
  induction subs generalizing l lits with
  | nil => cases lits with
    | nil => rfl
    | cons => simp at hlen
  | cons s subs ih =>
    cases lits with
    | nil => simp at hlen
    | cons l' lits =>
      simp only [List.length_cons, Nat.add_right_cancel_iff] at hlen
      rw [List.zip_cons_cons, meaningAll, ih l' lits hlen, List.mapM_cons]
      cases meaning U ext lookup s with
      | error e => rfl
      | ok x =>
        cases h : subs.mapM (meaning U ext lookup) with
        | error e => simp [bind, Except.bind, Except.map]
        | ok xs => simp [bind, Except.bind, Except.map, pure, Except.pure, filled]

theorem template_meaning {U : PyUni} {ext : Externals} {d : Dictionary} {lookup : Str → Option WordForm} {names : List Str}
    {text l : Str} {ps : List (Str × Str)} {t : Template} (he : GoodExternals ext) (hd : GoodDictionary d)
    (hl : ∀ t f, lookup t = some f ↔ d.getWord t = .ok f) (hp : Pieces text l ps) (ht : Template.empty.parse U text names = .ok t) :
    t.substitute U ext d = meaningAll U ext lookup l (t.substitutions.zip (ps.map Prod.snd)) := by
  obtain ⟨h1, h2⟩ := (C45_parse U names text l ps t hp).mp ht
  have hlen : t.substitutions.length = ps.length := h1.length_eq.symm
  rw [meaningAll_eq l _ _ (by simpa using hlen)]
  unfold Template.substitute
  have e : t.substitutions.mapM (fun s => s.getText U ext d) = t.substitutions.mapM (meaning U ext lookup) := by
    have hg := template_good ht
    revert hg
    generalize t.substitutions = subs
    intro hg
    induction subs with
    | nil => rfl
    | cons s subs ih =>
      rw [List.mapM_cons, List.mapM_cons, C86_substitution U ext d lookup s he hd (hg s (by simp)).1 hl,
        ih (fun x hx => hg x (List.mem_cons_of_mem _ hx))]
  rw [e, h2]
  cases hm : t.substitutions.mapM (meaning U ext lookup) with
  | error e => rfl
  | ok xs =>
    have hlx : xs.length = ps.length := by rw [← hlen, ← (forall₂_of_mapM hm).length_eq]
    simp only [bind, Except.bind, Except.map]
    rw [pyFormat_template _ l ps xs hlx]

/-- C86: from the words of a dictionary, the externals and the text of a template to the result: if each variable can be read,
the template parses, and substituting gives the literal text with each variable replaced by its meaning, or the error of the first
variable that has none. -/
theorem C86_text (U : PyUni) (ws : List Word) (names : List Str) (ext : Externals) (text l : Str) (ps : List (Str × Str))
    (subs : List Substitution) (hws : ∀ w ∈ ws, Accepted w) (he : GoodExternals ext) (hp : Pieces text l ps)
    (hsubs : List.Forall₂ (fun p s => ReadsAs U names (doubled p.1) s) ps subs) :
    ∃ t, Template.empty.parse U text names = .ok t ∧
      t.substitute U ext (history U ws) = meaningAll U ext (entryFor U ws) l (subs.zip (ps.map Prod.snd)) := by
  have hparse : List.Forall₂ (fun p s => Substitution.parse U (doubled p.1) names = .ok s) ps subs := by
    refine hsubs.imp ?_
    rintro p s ⟨head, slugs, deps, c, id, h1, h2, h3, h4, h5, rfl⟩
    rw [h1]
    exact C46_parse U names head slugs deps c id h2 h3 h4 h5
  refine ⟨_, parse_ok_of hp hparse, ?_⟩
  refine template_meaning he (goodDictionary_history U ws hws) ?_ hp (parse_ok_of hp hparse)
  intro t f
  rw [C86_dictionary U ws hws t]
  cases entryFor U ws t <;> simp

theorem pieces_variables {text l : Str} {ps : List (Str × Str)} (h : Pieces text l ps) : ∀ p ∈ ps, IsVariable p.1 := by
  induction h with
  | last => simp
  | var l v text l' rest _ hv _ ih =>
    intro p hp
    rcases List.mem_cons.mp hp with rfl | hp
    · exact hv
    · exact ih p hp

theorem parse_readsAs {U : PyUni} {names : List Str} {v : Str} {s : Substitution} (hv : IsVariable v)
    (h : Substitution.parse U v names = .ok s) : ReadsAs U names v s := by
  obtain ⟨head, slugs, rfl, h1, h2, h3⟩ := C46_exhaustive U names v hv
  rcases h3 with rfl | ⟨hne, ⟨pre, slug, post, deps, bad, rfl, h5, h6⟩ | ⟨deps, h5, h6 | ⟨c, id, h6⟩⟩⟩
  · rw [C46_empty_id U names slugs h2] at h; cases h
  · rw [C46_unknown_id U names head slug bad pre post deps h1 h2 hne h5 h6] at h; cases h
  · rw [C46_blank_id U names head slugs deps h1 h2 hne h6 h5] at h; cases h
  · rw [C46_parse U names head slugs deps c id h1 h2 h6 h5] at h
    injection h with h
    exact ⟨head, slugs, deps, c, id, rfl, h1, h2, h6, h5, h.symm⟩

/-- C86: every template that parses is of this kind, so its result is always the meaning of its text. -/
theorem C86_every_template (U : PyUni) (ws : List Word) (names : List Str) (ext : Externals) (text : Str) (t : Template)
    (hws : ∀ w ∈ ws, Accepted w) (he : GoodExternals ext) (ht : Template.empty.parse U text names = .ok t) :
    ∃ l ps, Pieces text l ps ∧ List.Forall₂ (fun p s => ReadsAs U names (doubled p.1) s) ps t.substitutions ∧
      t.substitute U ext (history U ws) = meaningAll U ext (entryFor U ws) l (t.substitutions.zip (ps.map Prod.snd)) := by
  obtain ⟨l, ps, hp, -⟩ := C45_pieces_unique text
  obtain ⟨h1, -⟩ := (C45_parse U names text l ps t hp).mp ht
  have hv := pieces_variables hp
  have h2 : List.Forall₂ (fun p s => ReadsAs U names (doubled p.1) s) ps t.substitutions := by
    clear hp
    revert h1 hv
    generalize t.substitutions = subs
    intro h1 hv
    induction h1 with
    | nil => exact .nil
    | cons hx _ ih =>
      exact .cons (parse_readsAs (isVariable_doubled (hv _ (by simp))) hx) (ih (fun p hp => hv p (List.mem_cons_of_mem _ hp)))
  refine ⟨l, ps, hp, h2, ?_⟩
  obtain ⟨t', h3, h4⟩ := C86_text U ws names ext text l ps t.substitutions hws he hp h2
  rw [ht] at h3; injection h3 with h3; subst h3
  exact h4

/-- The reference semantics gives the sentence of README.rst:83-137. -/
example : meaningAll exPy rmExternals (entryFor exPy [rmCoin, rmFilled]) []
    [(⟨str! "npc", [.props (.new [.record .WORD_CASE_UPPER])]⟩, str! " "), (⟨str! "подарил", [.ext (str! "npc")]⟩, str! " "),
     (⟨str! "hero", [.props (.new [.record .CASE_DATIVE])]⟩, str! " "), (⟨str! "coins", []⟩, str! " "),
     (⟨str! "монета", [.ext (str! "coins"), .props (.new [.record .CASE_ACCUSATIVE])]⟩, str! ".")] =
    .ok (str! "Русалка подарила герою 125 монет.") := by decide +kernel

/-- `[монета|coins|вн]` can be read. -/
example : ReadsAs exPy [str! "coins"] (str! "[Монета|coins]")
    ⟨str! "монета", [.ext (str! "coins"), .props (.new [.record .WORD_CASE_UPPER])]⟩ := by
  refine ⟨str! "Монета", [str! "coins"], [.ext (str! "coins")], 'М', str! "онета", by decide +kernel, by decide +kernel, by decide +kernel,
    ⟨[], [], by simp, by simp, by simp, by decide +kernel, by decide +kernel⟩, .cons ⟨str! "coins", ?_, .inl ⟨by simp, rfl⟩⟩ .nil, by decide +kernel⟩
  exact ⟨[], [], by decide +kernel, by simp, by simp, by decide +kernel, by decide +kernel⟩

/-- Two numbers, a missing external, a missing word. -/
example : meaning exPy [(str! "a", integerForm 5), (str! "b", integerForm 21)] (entryFor exPy [rmCoin])
      ⟨str! "монета", [.ext (str! "a"), .ext (str! "b"), .props (.new [.record .CASE_DATIVE])]⟩ = .ok (str! "монете") ∧
    meaning exPy [] (entryFor exPy [rmCoin]) ⟨str! "монета", [.ext (str! "a")]⟩ = .error (.ExternalDependecyNotFoundError (str! "a")) ∧
    meaning exPy [] (entryFor exPy [rmCoin]) ⟨str! "рубль", []⟩ = .error (.NoWordsFoundError (str! "рубль")) := by decide +kernel

/-- The stand-ins. -/
example : slotOf .NOUN (Properties.new [.record .NOUN_FORM_COUNTABLE, .record .CASE_DATIVE]).get = 2 ∧
    slotOf .VERB (Properties.new [.record .VERB_FORM_IMPERATIVE, .record .PERSON_THIRD]).get = 0 ∧
    slotOf .VERB (Properties.new [.record .VERB_FORM_IMPERATIVE, .record .PERSON_SECOND, .record .NUMBER_PLURAL]).get = 19 := by
  decide +kernel

end Utg
