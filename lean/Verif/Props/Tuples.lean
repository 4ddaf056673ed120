import Verif.Spec.Tuples
import Verif.Props.Dictionary
import Verif.Props.Autofill
import Verif.Props.EndToEnd
/-!
# C137: words whose forms are tuples
-/

namespace Utg
open Py Spec

/-- `d'` is `d` after writing it as JSON and reading it: tuples have become lists, keys of properties strings, in any order. -/
def ThroughJson (d d' : SeqData) : Prop := WordViaJson d.data d'.data ∧ d'.tuple = false

theorem ofKind_get? (k : Bool) (d : Dictionary) (t : Str) : Dict.get? (ofKind k d) t = (Dict.get? d t).map fun f => (f, k) := by
  induction d with
  | nil => rfl
  | cons kv d ih =>
    obtain ⟨a, b⟩ := kv
    simp only [ofKind, List.map_cons, Dict.get?]
    split
    · rfl
    · exact ih

theorem ofKind_set (k : Bool) (d : Dictionary) (t : Str) (f : WordForm) : Dict.set (ofKind k d) t (f, k) = ofKind k (Dict.set d t f) := by
  induction d with
  | nil => rfl
  | cons kv d ih =>
    obtain ⟨a, b⟩ := kv
    simp only [ofKind, List.map_cons, Dict.set]
    split
    · rfl
    · simp only [List.map_cons]; exact congrArg _ ih

theorem ofKind_register (k : Bool) (d : Dictionary) (t : Str) (f : WordForm) :
    SeqDictionary.register (ofKind k d) t (f, k) = .ok (ofKind k (d.register t f)) := by
  unfold SeqDictionary.register Dictionary.register
  rw [ofKind_get?]
  cases hg : Dict.get? d t with
  | none => simp [ofKind_set]
  | some g =>
    simp only [Option.map_some]
    have : replacesSeq (f, k) (g, k) = .ok (replaces f g) := by
      unfold replacesSeq replaces
      simp only [ne_eq, not_true_eq_false, if_false]
      repeat' split
      all_goals rfl
    rw [this]
    simp only [bind, Except.bind, ofKind_set]
    split <;> rfl

theorem ofKind_addForms (U : PyUni) (k : Bool) (w : Word) (is : List Nat) (d : Dictionary) :
    SeqDictionary.addForms U ⟨w, k⟩ (ofKind k d) is = (ofKind k (Dictionary.addForms U w d is).1, (Dictionary.addForms U w d is).2) := by
  induction is generalizing d with
  | nil => rfl
  | cons i is ih =>
    simp only [SeqDictionary.addForms, Dictionary.addForms]
    cases w.nthForm i with
    | error e => rfl
    | ok f =>
      simp only
      cases f.form U with
      | error e => rfl
      | ok text => simp only [ofKind_register]; exact ih _

/-- C137: if all words have lists, or all have tuples, a dictionary works as described for lists: `add_word` ends in the same way, and the
same forms are registered. -/
theorem C137_same_kind (U : PyUni) (k : Bool) (ws : List Word) :
    seqHistory U (ws.map fun w => ⟨w, k⟩) = ofKind k (history U ws) ∧
    ∀ w, SeqDictionary.addWord U (ofKind k (history U ws)) ⟨w, k⟩ =
      (ofKind k ((history U ws).addWord U w).1, ((history U ws).addWord U w).2) := by
  refine ⟨?_, fun w => ofKind_addForms U k w _ _⟩
  induction ws using List.reverseRecOn with
  | nil => rfl
  | append_singleton ws w ih =>
    unfold seqHistory history at *
    simp only [List.map_append, List.foldl_append, List.map_cons, List.map_nil, List.foldl_cons, List.foldl_nil]
    rw [ih]
    exact congrArg Prod.fst (ofKind_addForms U k w _ _)

theorem forgetKind_get? (d : SeqDictionary) (t : Str) : Dict.get? (forgetKind d) t = (Dict.get? d t).map Prod.fst := by
  induction d with
  | nil => rfl
  | cons kv d ih =>
    obtain ⟨a, b⟩ := kv
    simp only [forgetKind, List.map_cons, Dict.get?]
    split
    · rfl
    · exact ih

theorem forgetKind_set (d : SeqDictionary) (t : Str) (f : WordForm × Bool) : forgetKind (Dict.set d t f) = Dict.set (forgetKind d) t f.1 := by
  induction d with
  | nil => rfl
  | cons kv d ih =>
    obtain ⟨a, b⟩ := kv
    simp only [forgetKind, List.map_cons, Dict.set]
    split
    · rfl
    · simp only [List.map_cons]; exact congrArg _ ih

theorem register_clash {d : SeqDictionary} {w : SeqWord} {t : Str} {f : WordForm} (hf : f.word = w.word) (h : Clashes d w t) :
    SeqDictionary.register d t (f, w.tuple) = .error .TypeError := by
  obtain ⟨g, hg, ht⟩ := h
  unfold SeqDictionary.register
  rw [hg]
  have : replacesSeq (f, w.tuple) (g, !w.tuple) = .error .TypeError := by
    unfold replacesSeq
    have e : f.word.type.value = g.word.type.value := by rw [hf, ht]
    rw [if_neg (by simp only [e]; omega), if_neg (by simp only [e]; omega), if_pos (by simp)]
  simp only [this, bind, Except.bind]

theorem register_no_clash {d : SeqDictionary} {w : SeqWord} {t : Str} {f : WordForm} (hf : f.word = w.word) (h : ¬ Clashes d w t) :
    ∃ d', SeqDictionary.register d t (f, w.tuple) = .ok d' ∧ forgetKind d' = (forgetKind d).register t f ∧
      ¬ Clashes d' w t ∧ (∀ t', t' ≠ t → Dict.get? d' t' = Dict.get? d t') ∧
      (Dict.get? d' t = some (f, w.tuple) ∨ Dict.get? d' t = Dict.get? d t ∧ Dict.contains d t = true) := by
  have hset : ¬ Clashes (Dict.set d t (f, w.tuple)) w t := by
    rintro ⟨g, hg, -⟩
    rw [Dict.get?_set, if_pos rfl] at hg
    injection hg with hg; injection hg with _ hg
    cases hk : w.tuple <;> rw [hk] at hg <;> cases hg
  have hother : ∀ t', t' ≠ t → Dict.get? (Dict.set d t (f, w.tuple)) t' = Dict.get? d t' := by
    intro t' ht'; rw [Dict.get?_set, if_neg (fun e => ht' e.symm)]
  have hself : Dict.get? (Dict.set d t (f, w.tuple)) t = some (f, w.tuple) := by rw [Dict.get?_set, if_pos rfl]
  cases hg : Dict.get? d t with
  | none =>
    refine ⟨Dict.set d t (f, w.tuple), by unfold SeqDictionary.register; rw [hg], ?_, hset, hother, .inl hself⟩
    unfold Dictionary.register
    rw [forgetKind_get?, hg, forgetKind_set]; rfl
  | some x =>
    obtain ⟨g, k⟩ := x
    have hr : replacesSeq (f, w.tuple) (g, k) = .ok (replaces f g) := by
      unfold replacesSeq replaces
      dsimp only
      split
      · rfl
      split
      · rfl
      · rename_i h1 h2
        have hk : w.tuple = k := by
          by_contra hne
          refine h ⟨g, ?_, type_value_inj ?_⟩
          · rw [hg]; cases hw : w.tuple <;> cases k <;> simp_all
          · rw [← hf]; omega
        rw [if_neg (by simp [hk])]
        repeat' split
        all_goals rfl
    cases hb : replaces f g with
    | true =>
      refine ⟨Dict.set d t (f, w.tuple), ?_, ?_, hset, hother, .inl hself⟩
      · unfold SeqDictionary.register; rw [hg]; simp [hr, hb, bind, Except.bind]
      · unfold Dictionary.register
        rw [forgetKind_get?, hg, forgetKind_set]; simp [hb]
    | false =>
      refine ⟨d, ?_, ?_, h, fun _ _ => rfl, .inr ⟨hg, ?_⟩⟩
      · unfold SeqDictionary.register; rw [hg]; simp [hr, hb, bind, Except.bind]
      · unfold Dictionary.register
        rw [forgetKind_get?, hg]; simp [hb]
      · unfold Dict.contains; rw [hg]; rfl

theorem clashes_congr {d d' : SeqDictionary} {w : SeqWord} {t : Str} (h : Dict.get? d' t = Dict.get? d t) : Clashes d' w t ↔ Clashes d w t := by
  unfold Clashes; rw [h]

theorem addFormsSeq_no_clash {U : PyUni} {w : SeqWord} : ∀ (is : List Nat) (fs : List WordForm), is.mapM w.word.nthForm = .ok fs →
    (∀ f ∈ fs, f.word = w.word) → ∀ d : SeqDictionary, (∀ c ∈ spelled U fs, ¬ Clashes d w c.1) →
    forgetKind (SeqDictionary.addForms U w d is).1 = ((forgetKind d).addForms U w.word is).1 ∧
    (SeqDictionary.addForms U w d is).2 = ((forgetKind d).addForms U w.word is).2 := by
  intro is
  induction is with
  | nil => intro fs _ _ d _; exact ⟨rfl, rfl⟩
  | cons i is ih =>
    intro fs h hw d hc
    rw [List.mapM_cons] at h
    cases hi : w.word.nthForm i with
    | error e => rw [hi] at h; cases h
    | ok f =>
      cases his : is.mapM w.word.nthForm with
      | error e => rw [hi, his] at h; cases h
      | ok fs' =>
        rw [hi, his] at h; injection h with h; subst h
        simp only [SeqDictionary.addForms, Dictionary.addForms, hi]
        cases hf : f.form U with
        | error e => exact ⟨rfl, rfl⟩
        | ok text =>
          simp only [spelled, hf] at hc
          obtain ⟨d', h1, h2, h3, h4, -⟩ := register_no_clash (d := d) (t := text) (hw f (by simp)) (hc (text, f) (by simp))
          simp only [h1]
          rw [← h2]
          refine ih fs' his (fun g hg => hw g (List.mem_cons_of_mem _ hg)) d' fun c hc' => ?_
          by_cases e : c.1 = text
          · rw [e]; exact h3
          · rw [clashes_congr (h4 _ e)]; exact hc c (List.mem_cons_of_mem _ hc')

theorem addFormsSeq_clash {U : PyUni} {w : SeqWord} : ∀ (is : List Nat) (fs : List WordForm), is.mapM w.word.nthForm = .ok fs →
    (∀ f ∈ fs, f.word = w.word) → ∀ d : SeqDictionary, (∃ c ∈ spelled U fs, Clashes d w c.1) →
    (SeqDictionary.addForms U w d is).2 = some .TypeError := by
  intro is
  induction is with
  | nil => intro fs h _ d hc; injection h with h; subst h; simp [spelled] at hc
  | cons i is ih =>
    intro fs h hw d hc
    rw [List.mapM_cons] at h
    cases hi : w.word.nthForm i with
    | error e => rw [hi] at h; cases h
    | ok f =>
      cases his : is.mapM w.word.nthForm with
      | error e => rw [hi, his] at h; cases h
      | ok fs' =>
        rw [hi, his] at h; injection h with h; subst h
        simp only [SeqDictionary.addForms, hi]
        cases hf : f.form U with
        | error e => simp [spelled, hf] at hc
        | ok text =>
          simp only [spelled, hf] at hc
          by_cases hcl : Clashes d w text
          · simp only [register_clash (hw f (by simp)) hcl]
          · obtain ⟨d', h1, h2, h3, h4, -⟩ := register_no_clash (d := d) (t := text) (hw f (by simp)) hcl
            simp only [h1]
            refine ih fs' his (fun g hg => hw g (List.mem_cons_of_mem _ hg)) d' ?_
            obtain ⟨c, hc1, hc2⟩ := hc
            rcases List.mem_cons.mp hc1 with rfl | hc1
            · exact absurd hc2 hcl
            · refine ⟨c, hc1, ?_⟩
              by_cases e : c.1 = text
              · rw [e] at hc2; exact absurd hc2 hcl
              · rw [clashes_congr (h4 _ e)]; exact hc2

theorem addFormsSeq_source {U : PyUni} {w : SeqWord} : ∀ (is : List Nat) (fs : List WordForm), is.mapM w.word.nthForm = .ok fs →
    (∀ f ∈ fs, f.word = w.word) → ∀ (d : SeqDictionary) (t : Str),
    (Dict.contains d t = true → Dict.contains (SeqDictionary.addForms U w d is).1 t = true) ∧
    ∀ x, Dict.get? (SeqDictionary.addForms U w d is).1 t = some x →
      Dict.get? d t = some x ∨ x.2 = w.tuple ∧ (t, x.1) ∈ spelled U fs := by
  intro is
  induction is with
  | nil => intro fs _ _ d t; exact ⟨id, fun x hx => .inl hx⟩
  | cons i is ih =>
    intro fs h hw d t
    rw [List.mapM_cons] at h
    cases hi : w.word.nthForm i with
    | error e => rw [hi] at h; cases h
    | ok f =>
      cases his : is.mapM w.word.nthForm with
      | error e => rw [hi, his] at h; cases h
      | ok fs' =>
        rw [hi, his] at h; injection h with h; subst h
        simp only [SeqDictionary.addForms, hi]
        cases hf : f.form U with
        | error e => exact ⟨id, fun x hx => .inl hx⟩
        | ok text =>
          by_cases hcl : Clashes d w text
          · simp only [register_clash (hw f (by simp)) hcl]; exact ⟨id, fun x hx => .inl hx⟩
          · obtain ⟨d', h1, h2, h3, h4, h5⟩ := register_no_clash (d := d) (t := text) (hw f (by simp)) hcl
            simp only [h1]
            obtain ⟨i1, i2⟩ := ih fs' his (fun g hg => hw g (List.mem_cons_of_mem _ hg)) d' t
            have hmem : (text, f) ∈ spelled U (f :: fs') := by simp [spelled, hf]
            have hsub : ∀ c ∈ spelled U fs', c ∈ spelled U (f :: fs') := by intro c hc; simp only [spelled, hf]; exact List.mem_cons_of_mem _ hc
            refine ⟨fun hk => i1 ?_, fun x hx => ?_⟩
            · by_cases e : t = text
              · subst e
                rcases h5 with h5 | ⟨h5, -⟩
                · unfold Dict.contains; rw [h5]; rfl
                · unfold Dict.contains at hk ⊢; rw [h5]; exact hk
              · unfold Dict.contains at hk ⊢; rw [h4 t e]; exact hk
            · rcases i2 x hx with hx | ⟨hx1, hx2⟩
              · by_cases e : t = text
                · subst e
                  rcases h5 with h5 | ⟨h5, -⟩
                  · rw [h5] at hx; injection hx with hx; subst hx; exact .inr ⟨rfl, hmem⟩
                  · rw [h5] at hx; exact .inl hx
                · rw [h4 t e] at hx; exact .inl hx
              · exact .inr ⟨hx1, hsub _ hx2⟩

theorem allForms_of_word {w : Word} {is : List Nat} {fs : List WordForm} (h : is.mapM w.nthForm = .ok fs) : ∀ f ∈ fs, f.word = w := by
  intro f hf
  obtain ⟨i, hi, rfl⟩ := List.mem_iff_getElem.mp hf
  have := List.forall₂_iff_get.mp (forall₂_of_mapM h)
  have h2 := this.2 i (by rw [this.1]; exact hi) hi
  simp only [List.get_eq_getElem] at h2
  unfold Word.nthForm at h2
  split at h2
  · cases h2
  · injection h2 with h2; rw [← h2]; rfl

/-- C137: in a dictionary with words of both kinds, `add_word` raises `TypeError` if a text of the new word is registered for a word of the
same type and the other kind. Texts that were known stay known, and what is found for a text was there before or is a form of the new word. -/
theorem C137_clash (U : PyUni) (d : SeqDictionary) (w : SeqWord) (hw : Accepted w.word) :
    ((∃ c ∈ offered U w.word, Clashes d w c.1) → (d.addWord U w).2 = some .TypeError) ∧
    ∀ t, (Dict.contains d t = true → Dict.contains (d.addWord U w).1 t = true) ∧
      ∀ x, Dict.get? (d.addWord U w).1 t = some x → Dict.get? d t = some x ∨ x.2 = w.tuple ∧ (t, x.1) ∈ offered U w.word := by
  have hall := allForms_spec (accepted_iff.mp hw).2
  have hof : offered U w.word = spelled U (List.map (fun k => WordForm.new w.word (some (propertiesOfKey k))) (invertedCache w.word.type)) := by
    unfold offered; rw [hall]
  rw [hof]
  exact ⟨fun h => addFormsSeq_clash _ _ hall (allForms_of_word hall) d h,
    fun t => addFormsSeq_source _ _ hall (allForms_of_word hall) d t⟩

/-- C137: otherwise the kinds do not matter: `add_word` ends as it does for lists, and registers the same forms. -/
theorem C137_no_clash (U : PyUni) (d : SeqDictionary) (w : SeqWord) (hw : Accepted w.word) (h : ∀ c ∈ offered U w.word, ¬ Clashes d w c.1) :
    forgetKind (d.addWord U w).1 = ((forgetKind d).addWord U w.word).1 ∧ (d.addWord U w).2 = ((forgetKind d).addWord U w.word).2 := by
  have hall := allForms_spec (accepted_iff.mp hw).2
  have hof : offered U w.word = spelled U (List.map (fun k => WordForm.new w.word (some (propertiesOfKey k))) (invertedCache w.word.type)) := by
    unfold offered; rw [hall]
  rw [hof] at h
  exact addFormsSeq_no_clash _ _ hall (allForms_of_word hall) d h

theorem foldlM_list {t : WordType} {av : List Key} : autofillStepSeq false t av = autofillStep t av := by
  funext forms i
  unfold autofillStepSeq autofillStep setItem
  simp only [Bool.false_eq_true, if_false]
  rfl

theorem foldlM_tuple {t : WordType} {av : List Key} : ∀ (is : List Nat) (forms forms' : List Str),
    is.foldlM (autofillStep t av) forms = .ok forms' →
    ((av = [] ∨ ∀ i ∈ is, forms[i]? ≠ some []) → is.foldlM (autofillStepSeq true t av) forms = .ok forms) ∧
    (av ≠ [] → (∃ i ∈ is, forms[i]? = some []) → is.foldlM (autofillStepSeq true t av) forms = .error .TypeError) := by
  intro is
  induction is with
  | nil => intro forms forms' _; exact ⟨fun _ => rfl, fun _ ⟨i, hi, _⟩ => by simp at hi⟩
  | cons i is ih =>
    intro forms forms' h
    rw [List.foldlM_cons] at h ⊢
    have hcont : autofillStep t av forms i = .ok forms → autofillStepSeq true t av forms i = .ok forms →
        (av ≠ [] → forms[i]? ≠ some []) →
        ((av = [] ∨ ∀ j ∈ i :: is, forms[j]? ≠ some []) →
          (do let s ← autofillStepSeq true t av forms i; is.foldlM (autofillStepSeq true t av) s) = .ok forms) ∧
        (av ≠ [] → (∃ j ∈ i :: is, forms[j]? = some []) →
          (do let s ← autofillStepSeq true t av forms i; is.foldlM (autofillStepSeq true t av) s) = .error .TypeError) := by
      intro h1 h2 h3
      have := ih forms forms' (by rw [h1] at h; exact h)
      simp only [h2, bind, Except.bind]
      refine And.intro (fun hh => this.1 ?_) (fun hne hh => this.2 hne ?_)
      · rcases hh with hh | hh
        · exact .inl hh
        · exact .inr fun j hj => hh j (List.mem_cons_of_mem _ hj)
      · obtain ⟨j, hj, hf⟩ := hh
        rcases List.mem_cons.mp hj with rfl | hj
        · exact absurd hf (h3 hne)
        · exact ⟨j, hj, hf⟩
    cases hi : forms[i]? with
    | none => simp [autofillStep, hi, bind, Except.bind] at h
    | some form =>
      by_cases hf : form = []
      · subst hf
        cases hk : (invertedCache t)[i]? with
        | none => simp [autofillStep, hi, hk, bind, Except.bind] at h
        | some key =>
          cases hn : getNearestKey key av with
          | none =>
            exact hcont (by simp [autofillStep, hi, hk, hn]) (by simp [autofillStepSeq, hi, hk, hn])
              fun hne => absurd (getNearestKey_eq_none.mp hn) hne
          | some nearest =>
            have hne : av ≠ [] := by rintro rfl; rw [getNearestKey_nil] at hn; cases hn
            cases hj : (wordsCache t).get? nearest with
            | none => simp [autofillStep, hi, hk, hn, hj, bind, Except.bind] at h
            | some j =>
              cases hv : forms[j]? with
              | none => simp [autofillStep, hi, hk, hn, hj, hv, bind, Except.bind] at h
              | some f =>
                have : autofillStepSeq true t av forms i = .error .TypeError := by simp [autofillStepSeq, hi, hk, hn, hj, hv, setItem]
                simp only [this, bind, Except.bind]
                refine ⟨fun hh => ?_, fun _ _ => trivial⟩
                rcases hh with hh | hh
                · exact absurd hh hne
                · exact absurd hi (hh i (by simp))
      · exact hcont (by simp [autofillStep, hi, hf]) (by simp [autofillStepSeq, hi, hf]) fun _ e => hf (by rw [hi] at e; injection e)

/-- C137: `autofill_missed_forms` fills gaps in a list as described; for a tuple it returns if there is nothing to fill (no form is missing,
or none is there) and raises `TypeError` otherwise. -/
theorem C137_autofill (w : Word) (hw : Accepted w) :
    SeqWord.autofillMissedForms ⟨w, false⟩ = w.autofillMissedForms.map (fun w' => ⟨w', false⟩) ∧
    (([] ∉ w.forms ∨ ∀ f ∈ w.forms, f = []) → SeqWord.autofillMissedForms ⟨w, true⟩ = .ok ⟨w, true⟩) ∧
    ([] ∈ w.forms → (∃ f ∈ w.forms, f ≠ []) → SeqWord.autofillMissedForms ⟨w, true⟩ = .error .TypeError) := by
  have hlen : w.forms.length = (invertedCache w.type).length := (accepted_iff.mp hw).2
  have hav := availableKeys_eq hlen
  have hpres : presentKeys w.type w.forms = [] ↔ ∀ f ∈ w.forms, f = [] := by
    unfold presentKeys presentSlots
    rw [List.filterMap_eq_nil_iff]
    simp only [List.mem_filter, List.mem_range, decide_eq_true_eq]
    constructor
    · intro h f hf
      by_contra hne
      obtain ⟨i, hi, rfl⟩ := List.mem_iff_getElem.mp hf
      have := h i ⟨hi, _, List.getElem?_eq_getElem hi, hne⟩
      rw [List.getElem?_eq_none_iff] at this
      omega
    · rintro h i ⟨hi, f, hf, hne⟩
      exact absurd (h f (List.mem_of_getElem? hf)) hne
  obtain ⟨w', hw', -⟩ := autofill_spec hlen
  have hfold : ∃ forms', (List.range w.forms.length).foldlM (autofillStep w.type (presentKeys w.type w.forms)) w.forms = .ok forms' := by
    unfold Word.autofillMissedForms at hw'
    rw [hav] at hw'
    simp only [bind, Except.bind] at hw'
    cases hf : (List.range w.forms.length).foldlM (autofillStep w.type (presentKeys w.type w.forms)) w.forms with
    | error e => rw [hf] at hw'; cases hw'
    | ok fs => exact ⟨fs, rfl⟩
  obtain ⟨forms', hfold⟩ := hfold
  obtain ⟨t1, t2⟩ := foldlM_tuple _ _ _ hfold
  have hgap : (∃ i ∈ List.range w.forms.length, w.forms[i]? = some []) ↔ [] ∈ w.forms := by
    constructor
    · rintro ⟨i, -, hi⟩; exact List.mem_of_getElem? hi
    · intro h
      obtain ⟨i, hi, e⟩ := List.mem_iff_getElem.mp h
      exact ⟨i, List.mem_range.mpr hi, by rw [List.getElem?_eq_getElem hi, e]⟩
  refine ⟨?_, ?_, ?_⟩
  · unfold SeqWord.autofillMissedForms Word.autofillMissedForms
    simp only [foldlM_list, hav, bind, Except.bind, hfold]
    rfl
  · intro h
    have := t1 (h.symm.imp hpres.mpr fun hn i hi e => hn (hgap.mp ⟨i, hi, e⟩))
    unfold SeqWord.autofillMissedForms
    simp only [hav, bind, Except.bind, this]
  · intro h1 ⟨f, hf, hne⟩
    have := t2 (fun e => hne (hpres.mp e f hf)) (hgap.mpr h1)
    unfold SeqWord.autofillMissedForms
    simp only [hav, bind, Except.bind, this]

/-- C137: a word is restored from its data with the same kind of forms; through JSON it comes back with a list, so a word with a tuple is
not equal to what was saved, and one with a list is. -/
theorem C137_reload (w : SeqWord) (hw : Accepted w.word) :
    SeqWord.deserialize w.serialize = .ok w ∧
    ∀ data, ThroughJson w.serialize data →
      ∃ v, SeqWord.deserialize data = .ok v ∧ w.word.eq v.word = true ∧ v.tuple = false ∧ (w.eq v = true ↔ w.tuple = false) := by
  refine ⟨?_, ?_⟩
  · unfold SeqWord.deserialize SeqWord.serialize
    simp only [C15_roundtrip w.word hw, bind, Except.bind]
  · rintro data ⟨h1, h2⟩
    obtain ⟨v, hv, -, he⟩ := deserialize_word_json hw h1
    refine ⟨⟨v, data.tuple⟩, ?_, he, h2, ?_⟩
    · unfold SeqWord.deserialize
      simp only [hv, bind, Except.bind]
    · unfold SeqWord.eq
      simp [he, h2]

/-- For the examples. -/
instance decClashes (d : SeqDictionary) (w : SeqWord) (text : Str) : Decidable (Clashes d w text) :=
  match h : Dict.get? d text with
  | none => isFalse (by rintro ⟨g, hg, -⟩; rw [h] at hg; cases hg)
  | some (g, k) =>
    if hk : k = !w.tuple ∧ g.word.type = w.word.type then isTrue ⟨g, by rw [h, hk.1], hk.2⟩
    else isFalse (by rintro ⟨g', hg, ht⟩; rw [h] at hg; injection hg with hg; injection hg with h1 h2; subst h1 h2; exact hk ⟨rfl, ht⟩)

/-- C137 applies: a preposition with a list and one with a tuple and the same spelling; the second `add_word` raises. With an unfilled tuple
`autofill_missed_forms` raises too. -/
example : Accepted exPrep ∧ (∃ c ∈ offered exPy exPrep, Clashes (SeqDictionary.addWord exPy [] ⟨exPrep, false⟩).1 ⟨exPrep, true⟩ c.1) ∧
    (SeqDictionary.addWord exPy (SeqDictionary.addWord exPy [] ⟨exPrep, false⟩).1 ⟨exPrep, true⟩).2 = some .TypeError ∧
    [] ∈ exGaps.forms ∧ (∃ f ∈ exGaps.forms, f ≠ []) ∧ Accepted exGaps ∧
    ∀ c ∈ offered exPy exGaps, ¬ Clashes (SeqDictionary.addWord exPy [] ⟨exPrep, false⟩).1 ⟨exGaps, true⟩ c.1 := by
  refine ⟨exPrep_accepted, by decide +kernel, by decide +kernel, by decide +kernel, by decide +kernel, exGaps_accepted, by decide +kernel⟩

end Utg
