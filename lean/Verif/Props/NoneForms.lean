import Verif.Spec.NoneForms
import Verif.Props.Dictionary
import Verif.Props.Autofill
import Verif.Props.EndToEnd
import Verif.Props.Locality
import Verif.Props.Announce
/-!
# C140: missing forms given as `None`
-/

namespace Utg
open Py Spec

theorem blank_given (w : Word) : blankWord (given w) = w := by
  unfold blankWord given; simp

theorem blank_getElem? (l : List (Option Str)) (i : Nat) : (l.map fun f => f.getD [])[i]? = (l[i]?).map fun f => f.getD [] := by simp

theorem isGiven_iff (f : Option Str) : isGiven f = true ↔ f.getD [] ≠ [] := by
  cases f <;> simp [isGiven]

theorem blank_formRaw (w : OptWord) (p : Properties) : (blankWord w).formRaw p = (w.formRaw p).map fun f => f.getD [] := by
  unfold Word.formRaw OptWord.formRaw
  simp only [blankWord]
  cases rawWordsCache w.type with
  | error e => rfl
  | ok cache =>
    simp only [bind, Except.bind]
    cases cache.get? (p.getRawKey w.type.schema) with
    | none => rfl
    | some i =>
      simp only [blank_getElem?]
      cases w.forms[i]? <;> rfl

/-! ## syllables and fluent vowels -/

/-- C140: if the first form is not `None`, the number of syllables and the fluent vowel are those of the word with `''` for `None`. If it is
`None`, asking for them raises `AttributeError` and `TypeError`. -/
theorem C140_syllables (w : OptWord) :
    (∀ s rest, w.forms = some s :: rest →
      w.numberOfSyllables = (blankWord w).numberOfSyllables ∧ w.hasFluentVowel = (blankWord w).hasFluentVowel) ∧
    (∀ rest, w.forms = none :: rest → w.numberOfSyllables = .error .AttributeError ∧ w.hasFluentVowel = .error .TypeError) := by
  refine ⟨fun s rest h => ?_, fun rest h => ?_⟩
  · unfold OptWord.numberOfSyllables OptWord.hasFluentVowel Word.numberOfSyllables Word.hasFluentVowel blankWord
    simp only [h, List.map_cons, Option.getD_some, true_and]
    congr 1
    rw [List.any_map]
    congr 1
    funext o
    cases o <;> simp [otherVowels]
  · unfold OptWord.numberOfSyllables OptWord.hasFluentVowel
    simp [h]

/-! ## filling -/

theorem availableKeysOpt_eq (t : WordType) (forms : List (Option Str)) :
    availableKeysOpt t forms = availableKeys t (forms.map fun f => f.getD []) := by
  unfold availableKeysOpt availableKeys
  simp only [List.length_map]
  congr 1
  refine mapM_congr_mem fun i _ => ?_
  simp only [blank_getElem?]
  cases forms[i]? with
  | none => rfl
  | some f =>
    simp only [Option.map_some]
    rcases f with _ | _ | ⟨c, cs⟩ <;> rfl

theorem autofillStepOpt_sim (t : WordType) (av : List Key) (forms : List (Option Str)) (i : Nat) :
    autofillStep t av (forms.map fun f => f.getD []) i = (autofillStepOpt t av forms i).map fun l => l.map fun f => f.getD [] := by
  unfold autofillStep autofillStepOpt
  simp only [blank_getElem?]
  cases forms[i]? with
  | none => rfl
  | some f =>
    simp only [Option.map_some]
    by_cases hf : isGiven f = true
    · rw [if_pos ((isGiven_iff f).mp hf), if_pos hf]; rfl
    · rw [if_neg (fun h => hf ((isGiven_iff f).mpr h)), if_neg hf]
      cases (invertedCache t)[i]? with
      | none => rfl
      | some key =>
        dsimp only
        cases getNearestKey key av with
        | none => rfl
        | some n =>
          dsimp only
          cases (wordsCache t).get? n with
          | none => rfl
          | some j =>
            dsimp only
            cases forms[j]? with
            | none => rfl
            | some g => simp [Except.map, List.map_set]

theorem autofillOpt_fold (t : WordType) (av : List Key) (is : List Nat) (forms : List (Option Str)) :
    is.foldlM (autofillStep t av) (forms.map fun f => f.getD []) =
      (is.foldlM (autofillStepOpt t av) forms).map fun l => l.map fun f => f.getD [] := by
  induction is generalizing forms with
  | nil => rfl
  | cons i is ih =>
    simp only [List.foldlM_cons, autofillStepOpt_sim, bind, Except.bind]
    cases autofillStepOpt t av forms i with
    | error e => rfl
    | ok l => exact ih l

theorem autofillOpt_blank (w : OptWord) : (blankWord w).autofillMissedForms = w.autofillMissedForms.map blankWord := by
  unfold Word.autofillMissedForms OptWord.autofillMissedForms
  rw [availableKeysOpt_eq]
  simp only [blankWord, List.length_map, bind, Except.bind]
  cases availableKeys w.type (w.forms.map fun f => f.getD []) with
  | error e => rfl
  | ok av =>
    simp only [autofillOpt_fold]
    cases (List.range w.forms.length).foldlM (autofillStepOpt w.type av) w.forms <;> rfl

theorem given_of_blank {w : OptWord} (h : [] ∉ (blankWord w).forms) : w = given (blankWord w) := by
  obtain ⟨t, fs, p⟩ := w
  simp only [blankWord, given, OptWord.mk.injEq, true_and, and_true] at *
  induction fs with
  | nil => rfl
  | cons f fs ih =>
    simp only [List.map_cons, List.mem_cons, not_or] at h
    rw [List.map_cons, List.map_cons, ← ih h.2]
    cases f with
    | none => simp at h
    | some s => rfl

theorem autofillStepOpt_none {t : WordType} {forms l : List (Option Str)} {i : Nat} (h : autofillStepOpt t [] forms i = .ok l) : l = forms := by
  unfold autofillStepOpt at h
  cases hi : forms[i]? with
  | none => rw [hi] at h; cases h
  | some f =>
    rw [hi] at h
    dsimp only at h
    split at h
    · injection h with h; exact h.symm
    · split at h
      · cases h
      · injection h with h; exact h.symm

theorem autofillOpt_fold_none {t : WordType} {is : List Nat} {forms l : List (Option Str)}
    (h : is.foldlM (autofillStepOpt t []) forms = .ok l) : l = forms := by
  induction is generalizing forms with
  | nil => injection h with h; exact h.symm
  | cons i is ih =>
    simp only [List.foldlM_cons, bind, Except.bind] at h
    cases hs : autofillStepOpt t [] forms i with
    | error e => rw [hs] at h; cases h
    | ok m => rw [hs] at h; rw [ih h, autofillStepOpt_none hs]

/-- C140: `autofill_missed_forms` takes `None` for a missing form like `''`. If there is a form to copy, it leaves the word that it leaves with
`''`, and no form is missing any more; otherwise it leaves the word as it was. -/
theorem C140_autofill (w : OptWord) (hw : Accepted (blankWord w)) :
    ((∃ s, some s ∈ w.forms ∧ s ≠ []) →
      ∃ v, (blankWord w).autofillMissedForms = .ok v ∧ w.autofillMissedForms = .ok (given v) ∧ [] ∉ v.forms) ∧
    ((¬ ∃ s, some s ∈ w.forms ∧ s ≠ []) → w.autofillMissedForms = .ok w) := by
  obtain ⟨v, hv, -⟩ := C20_keeps_present _ hw
  have hb := autofillOpt_blank w
  rw [hv] at hb
  obtain ⟨c1, c2⟩ := C21_completes _ _ hw hv
  constructor
  · rintro ⟨s, hs, hne⟩
    have hnot : [] ∉ v.forms := by
      intro hm
      obtain ⟨i, hi⟩ := List.mem_iff_getElem?.mp hm
      exact (c1 ⟨s, List.mem_map.mpr ⟨some s, hs, rfl⟩, hne⟩ i [] hi).1 rfl
    refine ⟨v, hv, ?_, hnot⟩
    cases hw' : w.autofillMissedForms with
    | error e => rw [hw'] at hb; cases hb
    | ok u =>
      rw [hw'] at hb
      injection hb with hb
      subst hb
      rw [given_of_blank hnot]
      rw [blank_given]
  · intro hno
    have hall : ∀ f ∈ (blankWord w).forms, f = [] := by
      intro f hf
      obtain ⟨o, ho, rfl⟩ := List.mem_map.mp hf
      cases o with
      | none => rfl
      | some s =>
        by_contra hne
        exact hno ⟨s, ho, hne⟩
    have hav : availableKeysOpt w.type w.forms = .ok [] := by
      rw [availableKeysOpt_eq]
      have h2 := (accepted_iff.mp hw).2
      have := availableKeys_eq h2
      simp only [blankWord] at this
      rw [this]
      congr 1
      refine List.eq_nil_iff_forall_not_mem.mpr fun k hk => ?_
      obtain ⟨j, f, hj, hne, -⟩ := (mem_presentKeys (t := w.type) (forms := (blankWord w).forms) h2).mp hk
      exact hne (hall f (List.mem_of_getElem? hj))
    cases hw' : w.autofillMissedForms with
    | error e => rw [hw'] at hb; cases hb
    | ok u =>
      unfold OptWord.autofillMissedForms at hw'
      simp only [hav, bind, Except.bind] at hw'
      split at hw'
      · cases hw'
      · rename_i l hl
        injection hw' with hw'
        rw [autofillOpt_fold_none hl] at hw'
        rw [← hw']

/-! ## outcomes -/

section
variable {P Q : Prop} {α β γ δ : Type} {r : α → β → Prop} {s : γ → δ → Prop}

theorem Spec.Alike.bind {x : Except PyErr α} {y : Except PyErr β} {f : α → Except PyErr γ} {g : β → Except PyErr δ} (h : Alike P Q r x y)
    (hf : ∀ a b, r a b → Alike P Q s (f a) (g b)) : Alike P Q s (x >>= f) (y >>= g) := by
  cases h with
  | ok a b hab => exact hf a b hab
  | error e => exact .error e
  | gap hq => exact .gap hq
  | first y hp => exact .first _ hp

theorem Spec.Alike.refl {x : Except PyErr α} : Alike P Q (fun a b => a = b) x x := by
  cases x with
  | ok a => exact .ok a a rfl
  | error e => exact .error e
end

theorem blank_getD {Q : Prop} (v : Option Str) (h : v = none → Q) : Blank Q v (v.getD []) := by
  cases v with
  | none => exact .inr ⟨h rfl, rfl, rfl⟩
  | some s => exact .inl rfl

theorem formRawOpt_mem {w : OptWord} {p : Properties} {v : Option Str} (h : w.formRaw p = .ok v) : v ∈ w.forms := by
  unfold OptWord.formRaw at h
  cases hc : rawWordsCache w.type with
  | error e => rw [hc] at h; cases h
  | ok cache =>
    simp only [hc, bind, Except.bind] at h
    split at h
    · cases h
    · split at h
      · cases h
      · rename_i hi
        injection h with h
        rw [← h]; exact List.mem_of_getElem? hi

theorem alike_getForm {P Q : Prop} (U : PyUni) (w : OptWord) (p : Properties) (hQ : none ∈ w.forms → Q) :
    Alike P Q (Blank Q) (OptForm.getForm U w p) (WordForm.getForm U (blankWord w) p) := by
  unfold OptForm.getForm WordForm.getForm
  rw [blank_formRaw]
  cases hraw : w.formRaw p with
  | error e => exact .error e
  | ok f =>
    have hf : f = none → Q := by
      rintro rfl
      exact hQ (formRawOpt_mem hraw)
    simp only [Except.map, bind, Except.bind]
    cases p.getRec .WORD_CASE with
    | error e => exact .error e
    | ok wc =>
      dsimp only
      by_cases hc : wc = .WORD_CASE_UPPER
      · rw [if_pos hc, if_pos hc]
        rcases f with _ | _ | ⟨c, cs⟩
        · exact .gap (hf rfl)
        · exact .error _
        · exact .ok _ _ (.inl rfl)
      · rw [if_neg hc, if_neg hc]; exact .ok _ _ (blank_getD f hf)

theorem alike_form {P Q : Prop} (U : PyUni) (f : OptForm) (hQ : none ∈ f.word.forms → Q) :
    Alike P Q (Blank Q) (f.form U) ((blankForm f).form U) := alike_getForm U f.word f.formProperties hQ

theorem alike_cluster {P Q : Prop} (U : PyUni) (f : OptForm) (hQ : none ∈ f.word.forms → Q) :
    Alike P Q (fun a b => a = b) (f.startsWithConsonantCluster U) ((blankForm f).startsWithConsonantCluster U) := by
  unfold OptForm.startsWithConsonantCluster WordForm.startsWithConsonantCluster
  refine (alike_form U f hQ).bind fun v s h => ?_
  rcases h with rfl | ⟨hq, rfl, rfl⟩
  · exact Alike.refl
  · exact .gap hq

theorem alike_syllables {P Q : Prop} (w : OptWord) (hP : w.forms[0]? = some none → P) :
    Alike P Q (fun a b => a = b ∧ w.hasFluentVowel = (blankWord w).hasFluentVowel) w.numberOfSyllables (blankWord w).numberOfSyllables := by
  cases h : w.forms with
  | nil =>
    unfold OptWord.numberOfSyllables Word.numberOfSyllables blankWord
    simp only [h]
    exact .error _
  | cons o rest =>
    cases o with
    | none =>
      rw [((C140_syllables w).2 rest h).1]
      exact .first _ (hP (by rw [h]; rfl))
    | some s =>
      obtain ⟨h1, h2⟩ := (C140_syllables w).1 s rest h
      rw [h1]
      have : ∃ n, (blankWord w).numberOfSyllables = .ok n := by
        unfold Word.numberOfSyllables blankWord
        simp [h]
      obtain ⟨n, hn⟩ := this
      rw [hn]
      exact .ok _ _ ⟨rfl, h2⟩

theorem alike_first {P Q : Prop} {v : Option Str} {s : Str} (h : Blank Q v s) : Alike P Q (fun a b => a = b) (firstOpt v) (Py.first s) := by
  rcases h with rfl | ⟨hq, rfl, rfl⟩
  · exact Alike.refl
  · exact .gap hq

theorem alike_last {P Q : Prop} {v : Option Str} {s : Str} (h : Blank Q v s) : Alike P Q (fun a b => a = b) (lastOpt v) (Py.last s) := by
  rcases h with rfl | ⟨hq, rfl, rfl⟩
  · exact Alike.refl
  · exact .gap hq

theorem blank_eq_some {Q : Prop} {v : Option Str} {s t : Str} (h : Blank Q v s) (ht : t ≠ []) : v = some t ↔ s = t := by
  rcases h with rfl | ⟨hq, rfl, rfl⟩
  · simp
  · simp [ht.symm]

theorem alike_consonant {P Q : Prop} (U : PyUni) (slave : Option Str) (slave' : Str) (hs : Blank Q slave slave') (p : Properties) (m : OptForm)
    (hP : m.word.forms[0]? = some none → P) (hQ : none ∈ m.word.forms → Q) :
    Alike P Q (fun a b => a = b) (consonantPrepositionAnyOpt U slave p m) (consonantPrepositionAny U slave' p (blankForm m)) := by
  unfold consonantPrepositionAnyOpt consonantPrepositionAny
  refine (alike_form U m hQ).bind fun v s h => ?_
  have e : (slave = some (str! "в") ∨ slave = some (str! "с")) ↔ (slave' = str! "в" ∨ slave' = str! "с") := by
    rw [blank_eq_some hs (by decide), blank_eq_some hs (by decide)]
  dsimp only
  refine (alike_cluster U m hQ).bind fun a b hab => ?_
  subst hab
  have second (X : Except PyErr Properties) (Y : Bool → Except PyErr Properties) :
      Alike P Q (fun a b => a = b)
        (if slave = some (str! "в") ∨ slave = some (str! "с") then do
          let c ← firstOpt v
          if slave = some [c] then (do let x ← OptForm.startsWithConsonantCluster U m; Y x) else X
        else X)
        (if slave' = str! "в" ∨ slave' = str! "с" then do
          let c ← Py.first s
          if slave' = [c] then (do let x ← WordForm.startsWithConsonantCluster U (blankForm m); Y x) else X
        else X) := by
    by_cases hv : slave' = str! "в" ∨ slave' = str! "с"
    · rw [if_pos hv, if_pos (e.mpr hv)]
      refine (alike_first h).bind fun a b hab => ?_
      subst hab
      by_cases hc : slave' = [a]
      · rw [if_pos hc, if_pos ((blank_eq_some hs (by simp)).mpr hc)]
        refine (alike_cluster U m hQ).bind fun a b hab => ?_
        subst hab
        exact Alike.refl
      · rw [if_neg hc, if_neg (fun h => hc ((blank_eq_some hs (by simp)).mp h))]; exact Alike.refl
    · rw [if_neg hv, if_neg (fun h => hv (e.mp h))]; exact Alike.refl
  cases a with
  | false => exact second _ _
  | true =>
    refine (alike_syllables m.word hP).bind fun a b hab => ?_
    obtain ⟨rfl, hfl⟩ := hab
    by_cases ha : a = 1
    · rw [if_pos ha, if_pos ha]
      rw [hfl, show (blankForm m).word = blankWord m.word from rfl]
      refine Alike.refl.bind fun a b hab => ?_
      subst hab
      cases a with
      | false => exact second _ _
      | true => exact Alike.refl
    · rw [if_neg ha, if_neg ha]; exact second _ _

theorem alike_vowels {P Q : Prop} (U : PyUni) (slave : Option Str) (slave' : Str) (hs : Blank Q slave slave') (p : Properties) (m : OptForm)
    (hQ : none ∈ m.word.forms → Q) :
    Alike P Q (fun a b => a = b) (vowelsPrepositionAnyOpt U slave p m) (vowelsPrepositionAny U slave' p (blankForm m)) := by
  unfold vowelsPrepositionAnyOpt vowelsPrepositionAny
  refine (alike_form U m hQ).bind fun v s h => ?_
  have e : (slave = some (str! "о") ∧
      v ∈ [some (str! "всех"), some (str! "мне"), some (str! "всём"), some (str! "что"), some (str! "всей")]) ↔
      (slave' = str! "о" ∧ s ∈ [str! "всех", str! "мне", str! "всём", str! "что", str! "всей"]) := by
    rw [blank_eq_some hs (by decide)]
    simp only [List.mem_cons, List.not_mem_nil, or_false]
    rw [blank_eq_some h (by decide), blank_eq_some h (by decide), blank_eq_some h (by decide), blank_eq_some h (by decide),
      blank_eq_some h (by decide)]
  by_cases hv : slave' = str! "о" ∧ s ∈ [str! "всех", str! "мне", str! "всём", str! "что", str! "всей"]
  · rw [if_pos hv, if_pos (e.mpr hv)]; exact Alike.refl
  · rw [if_neg hv, if_neg (fun h => hv (e.mp h))]
    refine (alike_first h).bind fun a b hab => ?_
    subst hab
    exact Alike.refl

theorem alike_transform {P Q : Prop} (U : PyUni) (w : OptWord) (p : Properties) (m : OptForm) (hP : m.word.forms[0]? = some none → P)
    (hQ : none ∈ m.word.forms → Q) (hw : none ∈ w.forms → Q) :
    Alike P Q (fun a b => a = b) (transformOpt U w p m) (transform U (blankWord w) p (blankForm m)) := by
  have key : Alike P Q (fun a b => a = b) (prepositionAnyOpt U w p m) (prepositionAny U (blankWord w) p (blankForm m)) := by
    unfold prepositionAnyOpt prepositionAny OptWord.normalForm Word.normalForm OptWord.form Word.form
    have hn : Alike P Q (Blank Q) (w.formRaw (.new [.props w.properties, .props w.properties]))
        ((blankWord w).formRaw (.new [.props (blankWord w).properties, .props (blankWord w).properties])) := by
      rw [blank_formRaw]
      cases h : w.formRaw (.new [.props w.properties, .props w.properties]) with
      | error e => simp only [blankWord, h]; exact .error e
      | ok f => simp only [blankWord, h]; exact .ok _ _ (blank_getD f (by rintro rfl; exact hw (formRawOpt_mem h)))
    refine hn.bind fun v s h => (alike_last h).bind fun a b hab => ?_
    subst hab
    split
    · exact alike_consonant U v s h p m hP hQ
    · exact alike_vowels U v s h p m hQ
  unfold transformOpt transform
  rw [show (blankWord w).type = w.type from rfl, show (blankForm m).word.type = m.word.type from rfl]
  generalize w.type = a
  generalize m.word.type = b
  cases a <;> cases b <;> first | exact key | exact Alike.refl

/-! ## texts of variables -/

theorem blankExternals_get? (ext : OptExternals) (n : Str) : Dict.get? (blankExternals ext) n = (Dict.get? ext n).map blankForm := by
  induction ext with
  | nil => rfl
  | cons kv ext ih =>
    obtain ⟨a, b⟩ := kv
    simp only [blankExternals, List.map_cons, Dict.get?]
    split
    · rfl
    · exact ih

theorem listPropertiesOpt_blank (ext : OptExternals) (deps : List Dep) :
    listProperties (blankExternals ext) deps = (listPropertiesOpt ext deps).map fun x => (x.1, x.2.map blankForm) := by
  induction deps with
  | nil => rfl
  | cons dep deps ih =>
    cases dep with
    | ext n =>
      simp only [listProperties, listPropertiesOpt, blankExternals_get?]
      cases Dict.get? ext n with
      | none => rfl
      | some f =>
        simp only [Option.map_some, ih, bind, Except.bind]
        cases listPropertiesOpt ext deps <;> rfl
    | props p =>
      simp only [listProperties, listPropertiesOpt, ih, bind, Except.bind]
      cases listPropertiesOpt ext deps <;> rfl

theorem listPropertiesOpt_given {ext : OptExternals} {deps : List Dep} {ps : List Properties} {fs : List OptForm}
    (h : listPropertiesOpt ext deps = .ok (ps, fs)) : ∀ f ∈ fs, ∃ n, Dict.get? ext n = some f := by
  induction deps generalizing ps fs with
  | nil => injection h with h; injection h with _ h; subst h; simp
  | cons dep deps ih =>
    cases hr : listPropertiesOpt ext deps with
    | error e =>
      cases dep with
      | ext n =>
        simp only [listPropertiesOpt] at h
        cases hn : Dict.get? ext n with
        | none => rw [hn] at h; cases h
        | some f => rw [hn] at h; simp only [hr, bind, Except.bind] at h; cases h
      | props p => simp only [listPropertiesOpt, hr, bind, Except.bind] at h; cases h
    | ok x =>
      obtain ⟨ps', fs'⟩ := x
      cases dep with
      | ext n =>
        simp only [listPropertiesOpt] at h
        cases hn : Dict.get? ext n with
        | none => rw [hn] at h; cases h
        | some f =>
          rw [hn] at h
          simp only [hr, bind, Except.bind] at h
          injection h with h; injection h with _ h; subst h
          intro g hg
          rcases List.mem_cons.mp hg with rfl | hg
          · exact ⟨n, hn⟩
          · exact ih hr g hg
      | props p =>
        simp only [listPropertiesOpt, hr, bind, Except.bind] at h
        injection h with h; injection h with _ h; subst h
        exact ih hr

theorem alike_foldlM {P Q : Prop} (U : PyUni) (w : OptWord) (fs : List OptForm) (hP : ∀ f ∈ fs, f.word.forms[0]? = some none → P)
    (hQ : ∀ f ∈ fs, none ∈ f.word.forms → Q) (hw : none ∈ w.forms → Q) (p : Properties) :
    Alike P Q (fun a b => a = b) (fs.foldlM (fun ps external => transformOpt U w ps external) p)
      ((fs.map blankForm).foldlM (fun ps external => transform U (blankWord w) ps external) p) := by
  induction fs generalizing p with
  | nil => exact Alike.refl
  | cons f fs ih =>
    simp only [List.map_cons, List.foldlM_cons]
    refine (alike_transform U w p f (hP f (by simp)) (hQ f (by simp)) hw).bind fun a b hab => ?_
    subst hab
    exact ih (fun g hg => hP g (by simp [hg])) (fun g hg => hQ g (by simp [hg])) a

theorem alike_base {P Q : Prop} {s : Substitution} (hs : s.id ≠ []) (ext : OptExternals) {d : OptDictionary} {e : Dictionary}
    (hd : AgreeOnTexts d e) :
    Alike P Q (fun f g => g = blankForm f ∧ ((∃ n, Dict.get? ext n = some f) ∨ ∃ v, Dict.get? d v = some f)) (s.baseFormOpt ext d)
      (s.baseForm (blankExternals ext) e) := by
  unfold Substitution.baseFormOpt Substitution.baseForm
  rw [blankExternals_get?]
  cases he : Dict.get? ext s.id with
  | some f => exact .ok _ _ ⟨rfl, .inl ⟨_, he⟩⟩
  | none =>
    simp only [Option.map_none]
    unfold OptDictionary.getWord Dictionary.getWord
    rw [← hd s.id hs]
    cases hg : Dict.get? d (some s.id) with
    | none => exact .error _
    | some f => exact .ok _ _ ⟨rfl, .inr ⟨_, hg⟩⟩

/-- C140: the text of a variable when missing forms are given as `None`, compared with the same when they are given as `''`. -/
theorem C140_text (U : PyUni) (s : Substitution) (hs : s.id ≠ []) (ext : OptExternals) (d : OptDictionary) (e : Dictionary)
    (hd : AgreeOnTexts d e) :
    Alike (FirstIsNone ext) (SomeNone ext d) (Blank (SomeNone ext d)) (s.getTextOpt U ext d) (s.getText U (blankExternals ext) e) := by
  unfold Substitution.getTextOpt Substitution.getText
  refine (alike_base hs ext hd).bind fun f g hfg => ?_
  obtain ⟨rfl, hbase⟩ := hfg
  have hw : none ∈ f.word.forms → SomeNone ext d := by
    intro hnone
    rcases hbase with ⟨n, hn⟩ | ⟨v, hv⟩
    · exact .inl ⟨n, f, hn, hnone⟩
    · exact .inr ⟨v, f, hv, hnone⟩
  rw [listPropertiesOpt_blank]
  cases h : listPropertiesOpt ext s.dependencies with
  | error err => exact .error _
  | ok x =>
    obtain ⟨ps, fs⟩ := x
    refine Alike.bind (r := fun a b => a = b) (alike_foldlM U f.word fs ?_ ?_ hw _) fun a b hab => ?_
    · intro g hg hnone
      obtain ⟨n, hn⟩ := listPropertiesOpt_given h g hg
      exact ⟨n, g, hn, hnone⟩
    · intro g hg hnone
      obtain ⟨n, hn⟩ := listPropertiesOpt_given h g hg
      exact .inl ⟨n, g, hn, hnone⟩
    · subst hab
      exact alike_getForm U f.word a hw

/-! ## dictionaries -/

theorem optListLt_incomparable {a b : List (Option Str)} (h : Incomparable a b) : optListLt a b = .error .TypeError := by
  obtain ⟨same, x, a', b', h⟩ := h
  induction same generalizing a b with
  | nil => rcases h with ⟨rfl, rfl⟩ | ⟨rfl, rfl⟩ <;> rfl
  | cons o same ih =>
    rcases h with ⟨rfl, rfl⟩ | ⟨rfl, rfl⟩ <;> cases o
    · simp only [List.cons_append, optListLt]; exact ih (.inl ⟨rfl, rfl⟩)
    · simp only [List.cons_append, optListLt, if_true]; exact ih (.inl ⟨rfl, rfl⟩)
    · simp only [List.cons_append, optListLt]; exact ih (.inr ⟨rfl, rfl⟩)
    · simp only [List.cons_append, optListLt, if_true]; exact ih (.inr ⟨rfl, rfl⟩)

theorem incomparable_cons {o : Option Str} {a b : List (Option Str)} (h : Incomparable a b) : Incomparable (o :: a) (o :: b) := by
  obtain ⟨same, x, a', b', h⟩ := h
  refine ⟨o :: same, x, a', b', ?_⟩
  rcases h with ⟨rfl, rfl⟩ | ⟨rfl, rfl⟩
  · exact .inl ⟨rfl, rfl⟩
  · exact .inr ⟨rfl, rfl⟩

theorem incomparable_symm {a b : List (Option Str)} (h : Incomparable a b) : Incomparable b a := by
  obtain ⟨same, x, a', b', h⟩ := h
  exact ⟨same, x, b', a', h.symm.imp And.symm And.symm⟩

theorem incomparable_self {a : List (Option Str)} : ¬ Incomparable a a := by
  rintro ⟨same, x, a', b', ⟨rfl, h⟩ | ⟨rfl, h⟩⟩ <;> simp at h

theorem optListLt_comparable {a b : List (Option Str)} (h : ¬ Incomparable a b) :
    optListLt a b = .ok (strListLt (a.map fun f => f.getD []) (b.map fun f => f.getD [])) := by
  induction a generalizing b with
  | nil => cases b <;> rfl
  | cons o a ih =>
    cases b with
    | nil => cases o <;> rfl
    | cons q b =>
      have hn : ∀ {o : Option Str}, ¬ Incomparable (o :: a) (o :: b) → ¬ Incomparable a b := fun h h' => h (incomparable_cons h')
      cases o with
      | none =>
        cases q with
        | none => simp only [optListLt, List.map_cons, strListLt, if_true]; exact ih (hn h)
        | some y => exact absurd ⟨[], y, a, b, .inl ⟨rfl, rfl⟩⟩ h
      | some x =>
        cases q with
        | none => exact absurd ⟨[], x, a, b, .inr ⟨rfl, rfl⟩⟩ h
        | some y =>
          simp only [optListLt, List.map_cons, strListLt, Option.getD_some]
          by_cases e : x = y
          · subst e; simp only [if_true]; exact ih (hn h)
          · rw [if_neg e, if_neg e]

theorem replacesOpt_eq {f g : OptForm} (h : g.word.type = f.word.type → ¬ Incomparable f.word.forms g.word.forms) :
    replacesOpt f g = .ok (replaces (blankForm f) (blankForm g)) := by
  unfold replacesOpt replaces
  by_cases h1 : f.word.type.value < g.word.type.value
  · rw [if_pos h1, if_pos (show (blankForm f).word.type.value < (blankForm g).word.type.value from h1)]
  rw [if_neg h1, if_neg (show ¬ (blankForm f).word.type.value < (blankForm g).word.type.value from h1)]
  by_cases h2 : f.word.type.value > g.word.type.value
  · rw [if_pos h2, if_pos (show (blankForm f).word.type.value > (blankForm g).word.type.value from h2)]
  rw [if_neg h2, if_neg (show ¬ (blankForm f).word.type.value > (blankForm g).word.type.value from h2)]
  have ht : g.word.type = f.word.type := type_value_inj (by omega)
  rw [optListLt_comparable (h ht), optListLt_comparable (fun h' => h ht (incomparable_symm h')),
    show (f.word.forms.map fun f => f.getD []) = (blankForm f).word.forms from rfl,
    show (g.word.forms.map fun f => f.getD []) = (blankForm g).word.forms from rfl,
    show (blankForm f).properties = f.properties from rfl, show (blankForm g).properties = g.properties from rfl]
  simp only [bind, Except.bind, pure, Except.pure]
  generalize strListLt (blankForm f).word.forms (blankForm g).word.forms = a
  generalize strListLt (blankForm g).word.forms (blankForm f).word.forms = b
  cases a <;> cases b <;> simp

theorem replacesOpt_clash {f g : OptForm} (ht : g.word.type = f.word.type) (h : Incomparable f.word.forms g.word.forms) :
    replacesOpt f g = .error .TypeError := by
  unfold replacesOpt
  rw [ht, if_neg (by omega), if_neg (by omega), optListLt_incomparable h]
  rfl

theorem registerOpt_agree {d : OptDictionary} {e : Dictionary} (hd : AgreeOnTexts d e) {w : OptWord} {f : OptForm} (hf : f.word = w)
    {v : Option Str} {t : Str} (hv : Blank True v t) (h : ¬ NoneClash d w v) :
    ∃ d', OptDictionary.register d v f = .ok d' ∧ AgreeOnTexts d' (e.register t (blankForm f)) ∧ ∀ v', NoneClash d' w v' → NoneClash d w v' := by
  subst hf
  have clash_set : ∀ v', NoneClash (Dict.set d v f) f.word v' → NoneClash d f.word v' := by
    rintro v' ⟨g, hg, ht, hi⟩
    rw [Dict.get?_set] at hg
    split at hg
    · injection hg with hg; subst hg; exact absurd hi incomparable_self
    · exact ⟨g, hg, ht, hi⟩
  have agree_set : ∀ e' : Dictionary, (t ≠ [] → Dict.get? e' t = some (blankForm f)) → (∀ t', t' ≠ t → Dict.get? e' t' = Dict.get? e t') →
      AgreeOnTexts (Dict.set d v f) e' := by
    intro e' h1 h2 t' ht'
    rw [Dict.get?_set]
    by_cases hc : v = some t'
    · have : t' = t := ((blank_eq_some hv ht').mp hc).symm
      subst this
      rw [if_pos hc, h1 ht']; rfl
    · rw [if_neg hc]
      by_cases htt : t' = t
      · subst htt
        rw [blank_eq_some hv ht'] at hc
        exact absurd rfl hc
      · rw [h2 t' htt]; exact hd t' ht'
  have agree_keep : ∀ e' : Dictionary, (t ≠ [] → Dict.get? e' t = Dict.get? e t) → (∀ t', t' ≠ t → Dict.get? e' t' = Dict.get? e t') →
      AgreeOnTexts d e' := by
    intro e' h1 h2 t' ht'
    by_cases htt : t' = t
    · subst htt; rw [h1 ht']; exact hd t' ht'
    · rw [h2 t' htt]; exact hd t' ht'
  have reg_other : ∀ t', t' ≠ t → Dict.get? (e.register t (blankForm f)) t' = Dict.get? e t' := by
    intro t' ht'
    have hs : Dict.get? (Dict.set e t (blankForm f)) t' = Dict.get? e t' := by rw [Dict.get?_set, if_neg (fun h => ht' h.symm)]
    unfold Dictionary.register
    split
    · exact hs
    · split
      · exact hs
      · rfl
  have look : t ≠ [] → (Dict.get? d v).map blankForm = Dict.get? e t := by
    intro ht
    rw [(blank_eq_some hv ht).mpr rfl]; exact hd t ht
  unfold OptDictionary.register
  cases hg : Dict.get? d v with
  | none =>
    refine ⟨_, rfl, agree_set _ ?_ reg_other, clash_set⟩
    intro ht
    have := look ht
    rw [hg] at this
    unfold Dictionary.register
    rw [← this]
    simp only [Option.map_none]
    rw [Dict.get?_set, if_pos rfl]
  | some g =>
    have hr : replacesOpt f g = .ok (replaces (blankForm f) (blankForm g)) := by
      refine replacesOpt_eq fun ht hi => h ⟨g, hg, ht, hi⟩
    simp only [hr, bind, Except.bind]
    refine ⟨_, rfl, ?_, ?_⟩
    · cases hb : replaces (blankForm f) (blankForm g) with
      | true =>
        refine agree_set _ ?_ reg_other
        intro ht
        have := look ht
        rw [hg] at this
        unfold Dictionary.register
        rw [← this]
        simp only [Option.map_some, hb, if_true]
        rw [Dict.get?_set, if_pos rfl]
      | false =>
        refine agree_keep _ ?_ reg_other
        intro ht
        have := look ht
        rw [hg] at this
        unfold Dictionary.register
        rw [← this]
        simp only [Option.map_some, hb, Bool.false_eq_true, if_false]
        exact this.symm
    · intro v' hv'
      split at hv'
      · exact clash_set v' hv'
      · exact hv'

theorem nthFormOpt_blank (w : OptWord) (i : Nat) : (blankWord w).nthForm i = (w.nthForm i).map blankForm := by
  unfold Word.nthForm OptWord.nthForm
  simp only [blankWord]
  cases (invertedCacheProperties w.type)[i]? <;> rfl

theorem nthFormOpt_word {w : OptWord} {i : Nat} {f : OptForm} (h : w.nthForm i = .ok f) : f.word = w := by
  unfold OptWord.nthForm at h
  split at h
  · cases h
  · injection h with h; rw [← h]; rfl

theorem addFormsOpt_agree (U : PyUni) (w : OptWord) (is : List Nat) {d : OptDictionary} {e : Dictionary} (hd : AgreeOnTexts d e)
    (h : ∀ i ∈ is, ∀ f text, w.nthForm i = .ok f → f.form U = .ok text → ¬ NoneClash d w text) :
    AgreeOnTexts (OptDictionary.addForms U w d is).1 (e.addForms U (blankWord w) is).1 ∧
    ((OptDictionary.addForms U w d is).2 = (e.addForms U (blankWord w) is).2 ∨
      (OptDictionary.addForms U w d is).2 = some .TypeError ∧ (e.addForms U (blankWord w) is).2 = some .IndexError) := by
  induction is generalizing d e with
  | nil => exact ⟨hd, .inl rfl⟩
  | cons i is ih =>
    simp only [OptDictionary.addForms, Dictionary.addForms, nthFormOpt_blank]
    cases hi : w.nthForm i with
    | error err => exact ⟨hd, .inl rfl⟩
    | ok f =>
      simp only [Except.map]
      have ha := alike_form (P := False) (Q := True) U f fun _ => trivial
      cases hf : f.form U with
      | error err =>
        rw [hf] at ha
        cases hg : (blankForm f).form U with
        | error err' =>
          rw [hg] at ha
          refine ⟨hd, ?_⟩
          cases ha with
          | error => exact .inl rfl
          | gap => exact .inr ⟨rfl, rfl⟩
          | first _ hp => exact hp.elim
        | ok t =>
          rw [hg] at ha
          cases ha with
          | first _ hp => exact hp.elim
      | ok v =>
        rw [hf] at ha
        cases hg : (blankForm f).form U with
        | error err' => rw [hg] at ha; cases ha
        | ok t =>
          rw [hg] at ha
          cases ha with
          | ok _ _ hv =>
            obtain ⟨d', h1, h2, h3⟩ := registerOpt_agree hd (nthFormOpt_word hi) hv (h i (by simp) f v hi hf)
            simp only [h1]
            exact ih h2 fun j hj g text hg htext hc => h j (by simp [hj]) g text hg htext (h3 text hc)

/-- C140: where forms can be compared, `add_word` does the same with `None` and with `''`: it registers the same forms under the same texts,
the empty one aside, and ends in the same way, except that it is a `TypeError` and not an `IndexError` if the missing form is to be
capitalized. -/
theorem C140_add (U : PyUni) (d : OptDictionary) (e : Dictionary) (hd : AgreeOnTexts d e) (w : OptWord)
    (h : ∀ i f text, w.nthForm i = .ok f → f.form U = .ok text → ¬ NoneClash d w text) :
    AgreeOnTexts (d.addWord U w).1 (e.addWord U (blankWord w)).1 ∧
    ((d.addWord U w).2 = (e.addWord U (blankWord w)).2 ∨
      (d.addWord U w).2 = some .TypeError ∧ (e.addWord U (blankWord w)).2 = some .IndexError) := by
  unfold OptDictionary.addWord Dictionary.addWord
  have hl : (blankWord w).forms.length = w.forms.length := by simp [blankWord]
  rw [hl]
  exact addFormsOpt_agree U w _ hd fun i _ => h i

theorem replacesOpt_error {f g : OptForm} {err : PyErr} (h : replacesOpt f g = .error err) : err = .TypeError := by
  by_cases hc : g.word.type = f.word.type ∧ Incomparable f.word.forms g.word.forms
  · rw [replacesOpt_clash hc.1 hc.2] at h; injection h with h; exact h.symm
  · rw [replacesOpt_eq fun ht hi => hc ⟨ht, hi⟩] at h; cases h

theorem registerOpt_error {d : OptDictionary} {v : Option Str} {f : OptForm} {err : PyErr}
    (h : OptDictionary.register d v f = .error err) : err = .TypeError := by
  unfold OptDictionary.register at h
  split at h
  · cases h
  · rename_i g _
    cases hr : replacesOpt f g with
    | error err' =>
      rw [hr] at h
      injection h with h
      rw [← h]; exact replacesOpt_error hr
    | ok b => rw [hr] at h; cases h

theorem registerOpt_get? {d d' : OptDictionary} {v : Option Str} {f : OptForm} (h : OptDictionary.register d v f = .ok d') (v' : Option Str) :
    Dict.get? d' v' = Dict.get? d v' ∨ v = v' ∧ Dict.get? d' v' = some f := by
  have hset : Dict.get? (Dict.set d v f) v' = Dict.get? d v' ∨ v = v' ∧ Dict.get? (Dict.set d v f) v' = some f := by
    rw [Dict.get?_set]
    by_cases e : v = v'
    · exact .inr ⟨e, by rw [if_pos e]⟩
    · exact .inl (by rw [if_neg e])
  unfold OptDictionary.register at h
  split at h
  · injection h with h; subst h; exact hset
  · rename_i g _
    cases hr : replacesOpt f g with
    | error err => rw [hr] at h; cases h
    | ok b =>
      rw [hr] at h
      injection h with h; subst h
      cases b
      · exact .inl rfl
      · exact hset

theorem addFormsOpt_clash {U : PyUni} {w : OptWord} {text : Option Str} {i : Nat} {f : OptForm} {post : List Nat} (hi : w.nthForm i = .ok f)
    (hf : f.form U = .ok text) : ∀ (pre : List Nat), (∀ j ∈ pre, ∃ g t, w.nthForm j = .ok g ∧ g.form U = .ok t) →
    ∀ d : OptDictionary, NoneClash d w text →
      (OptDictionary.addForms U w d (pre ++ i :: post)).2 = some .TypeError ∧
      Dict.get? (OptDictionary.addForms U w d (pre ++ i :: post)).1 text = Dict.get? d text := by
  have reg : ∀ {d : OptDictionary} {j : Nat} {g : OptForm}, w.nthForm j = .ok g → NoneClash d w text →
      OptDictionary.register d text g = .error .TypeError := by
    rintro d j g hg ⟨r, hr, ht, hinc⟩
    unfold OptDictionary.register
    rw [hr]
    have hw := nthFormOpt_word hg
    dsimp only
    rw [replacesOpt_clash (by rw [hw]; exact ht) (by rw [hw]; exact hinc)]
    rfl
  intro pre
  induction pre with
  | nil =>
    intro _ d hc
    simp only [List.nil_append, OptDictionary.addForms, hi, hf, reg hi hc, and_self]
  | cons j pre ih =>
    intro hpre d hc
    obtain ⟨g, t, hg, ht⟩ := hpre j (by simp)
    simp only [List.cons_append, OptDictionary.addForms, hg, ht]
    cases hr : OptDictionary.register d t g with
    | error err => rw [registerOpt_error hr]; exact ⟨rfl, rfl⟩
    | ok d' =>
      have hne : t ≠ text := by
        rintro rfl
        rw [reg hg hc] at hr
        cases hr
      have hsame : Dict.get? d' text = Dict.get? d text := by
        rcases registerOpt_get? hr text with h | ⟨h, -⟩
        · exact h
        · exact absurd h hne
      have hc' : NoneClash d' w text := by
        obtain ⟨r, h1, h2⟩ := hc
        exact ⟨r, by rw [hsame]; exact h1, h2⟩
      rw [← hsame]
      exact ih (fun k hk => hpre k (by simp [hk])) d' hc'

/-- C140: if a text of the word, which may be `None`, is registered for a word of the same type whose forms cannot be compared with those of
the word, because `None` and a string stand where they first differ, `add_word` raises `TypeError`; the text remains registered for the other
word. -/
theorem C140_clash (U : PyUni) (d : OptDictionary) (w : OptWord) (i : Nat) (hi : i < w.forms.length) (f : OptForm) (text : Option Str)
    (hf : w.nthForm i = .ok f) (ht : f.form U = .ok text) (hbefore : ∀ j < i, ∃ g t, w.nthForm j = .ok g ∧ g.form U = .ok t)
    (hc : NoneClash d w text) :
    (d.addWord U w).2 = some .TypeError ∧ Dict.get? (d.addWord U w).1 text = Dict.get? d text := by
  unfold OptDictionary.addWord
  have hsplit : List.range w.forms.length = List.range i ++ i :: (List.range (w.forms.length - i - 1)).map (fun k => i + 1 + k) := by
    have h1 : w.forms.length = i + (1 + (w.forms.length - i - 1)) := by omega
    conv_lhs => rw [h1]
    rw [List.range_add, List.range_add]
    simp [Nat.add_assoc]
  rw [hsplit]
  exact addFormsOpt_clash hf ht _ (fun j hj => hbefore j (List.mem_range.mp hj)) d hc

theorem registerOpt_self {d d' : OptDictionary} {v : Option Str} {f : OptForm} (h : OptDictionary.register d v f = .ok d') :
    ∃ g, Dict.get? d' v = some g := by
  unfold OptDictionary.register at h
  cases hg : Dict.get? d v with
  | none => rw [hg] at h; injection h with h; rw [← h, Dict.get?_set, if_pos rfl]; exact ⟨_, rfl⟩
  | some g =>
    rw [hg] at h
    dsimp only at h
    cases hr : replacesOpt f g with
    | error err => rw [hr] at h; cases h
    | ok b =>
      rw [hr] at h
      injection h with h
      subst h
      cases b
      · exact ⟨g, hg⟩
      · exact ⟨f, by rw [if_pos rfl, Dict.get?_set, if_pos rfl]⟩

theorem addFormsOpt_keeps {U : PyUni} {w : OptWord} (is : List Nat) {d : OptDictionary} {v : Option Str} (h : ∃ g, Dict.get? d v = some g) :
    ∃ g, Dict.get? (OptDictionary.addForms U w d is).1 v = some g := by
  induction is generalizing d with
  | nil => exact h
  | cons i is ih =>
    simp only [OptDictionary.addForms]
    cases w.nthForm i with
    | error e => exact h
    | ok f =>
      dsimp only
      cases f.form U with
      | error e => exact h
      | ok t =>
        dsimp only
        cases hr : OptDictionary.register d t f with
        | error e => exact h
        | ok d' =>
          refine ih ?_
          rcases registerOpt_get? hr v with e | ⟨-, e⟩
          · rw [e]; exact h
          · exact ⟨f, e⟩

theorem addFormsOpt_registered {U : PyUni} {w : OptWord} (is : List Nat) {d : OptDictionary}
    (h : (OptDictionary.addForms U w d is).2 = none) :
    ∀ i ∈ is, ∀ f text, w.nthForm i = .ok f → f.form U = .ok text → ∃ g, Dict.get? (OptDictionary.addForms U w d is).1 text = some g := by
  induction is generalizing d with
  | nil => intro i hi; simp at hi
  | cons j is ih =>
    intro i hi f text hf ht
    simp only [OptDictionary.addForms] at h ⊢
    cases hj : w.nthForm j with
    | error e => rw [hj] at h; cases h
    | ok g =>
      rw [hj] at h
      dsimp only at h ⊢
      cases hg : g.form U with
      | error e => rw [hg] at h; cases h
      | ok t =>
        rw [hg] at h
        dsimp only at h ⊢
        cases hr : OptDictionary.register d t g with
        | error e => rw [hr] at h; cases h
        | ok d' =>
          rw [hr] at h
          dsimp only at h ⊢
          rcases List.mem_cons.mp hi with rfl | hi
          · rw [hf] at hj; injection hj with hj; subst hj
            rw [ht] at hg; injection hg with hg; subst hg
            exact addFormsOpt_keeps is (registerOpt_self hr)
          · exact ih h i hi f text hf ht

/-- C140: after `add_word` all texts of the word are registered, `None` among them if it is one. -/
theorem C140_registered (U : PyUni) (d : OptDictionary) (w : OptWord) (h : (d.addWord U w).2 = none) (i : Nat) (hi : i < w.forms.length)
    (f : OptForm) (text : Option Str) (hf : w.nthForm i = .ok f) (ht : f.form U = .ok text) :
    ∃ g, Dict.get? (d.addWord U w).1 text = some g :=
  addFormsOpt_registered _ h i (List.mem_range.mpr hi) f text hf ht

theorem addFormsOpt_words {U : PyUni} {w : OptWord} (is : List Nat) {d : OptDictionary} {v : Option Str} {g : OptForm}
    (h : Dict.get? (OptDictionary.addForms U w d is).1 v = some g) : Dict.get? d v = some g ∨ g.word = w := by
  induction is generalizing d with
  | nil => exact .inl h
  | cons i is ih =>
    simp only [OptDictionary.addForms] at h
    cases hi : w.nthForm i with
    | error e => rw [hi] at h; exact .inl h
    | ok f =>
      rw [hi] at h
      dsimp only at h
      cases hf : f.form U with
      | error e => rw [hf] at h; exact .inl h
      | ok t =>
        rw [hf] at h
        dsimp only at h
        cases hr : OptDictionary.register d t f with
        | error e => rw [hr] at h; exact .inl h
        | ok d' =>
          rw [hr] at h
          rcases ih h with h' | h'
          · rcases registerOpt_get? hr v with e | ⟨-, e⟩
            · exact .inl (by rw [← e]; exact h')
            · rw [e] at h'; injection h' with h'; rw [← h']; exact .inr (nthFormOpt_word hi)
          · exact .inr h'

theorem optHistory_words {U : PyUni} {ws : List OptWord} {v : Option Str} {g : OptForm} (h : Dict.get? (optHistory U ws) v = some g) :
    g.word ∈ ws := by
  induction ws using List.reverseRecOn generalizing g with
  | nil => simp [optHistory] at h
  | append_singleton ws w ih =>
    unfold optHistory at h ih
    simp only [List.foldl_append, List.foldl_cons, List.foldl_nil] at h
    rcases addFormsOpt_words _ h with h | h
    · simp [ih h]
    · simp [h]

/-- C140: if the forms of any two of the words can be compared, a dictionary of words with `None` registers under every text what it registers
with `''`. -/
theorem C140_dictionary (U : PyUni) (ws : List OptWord)
    (h : ∀ v ∈ ws, ∀ w ∈ ws, v.type = w.type → ¬ Incomparable v.forms w.forms) :
    AgreeOnTexts (optHistory U ws) (history U (ws.map blankWord)) := by
  induction ws using List.reverseRecOn with
  | nil => intro t _; rfl
  | append_singleton ws w ih =>
    have ih' := ih fun v hv w' hw' => h v (by simp [hv]) w' (by simp [hw'])
    have := (C140_add U (optHistory U ws) _ ih' w ?_).1
    · unfold optHistory history at *
      simp only [List.map_append, List.foldl_append, List.map_cons, List.map_nil, List.foldl_cons, List.foldl_nil]
      exact this
    · rintro i f text - - ⟨g, hg, ht, hinc⟩
      exact h w (by simp) g.word (by simp [optHistory_words hg]) ht.symm hinc

theorem given_comparable (v w : Word) : ¬ Incomparable (given v).forms (given w).forms := by
  rintro ⟨same, x, a', b', h⟩
  have hnone : ∀ u : Word, none ∉ (given u).forms := by intro u; simp [given]
  rcases h with ⟨h, -⟩ | ⟨-, h⟩
  · exact hnone v (by rw [h]; simp)
  · exact hnone w (by rw [h]; simp)

/-- C140: without `None` everything is as described for words with strings only: dictionaries, and texts of variables. -/
theorem C140_no_none (U : PyUni) (ws : List Word) :
    AgreeOnTexts (optHistory U (ws.map given)) (history U ws) ∧
    ∀ (s : Substitution), s.id ≠ [] → ∀ ext : Externals,
      s.getTextOpt U (ext.map fun kv => (kv.1, ⟨given kv.2.word, kv.2.properties, kv.2.formProperties⟩)) (optHistory U (ws.map given)) =
        (s.getText U ext (history U ws)).map some := by
  have hd : AgreeOnTexts (optHistory U (ws.map given)) (history U ws) := by
    have := C140_dictionary U (ws.map given) (by
      intro v hv w hw _
      obtain ⟨v', -, rfl⟩ := List.mem_map.mp hv
      obtain ⟨w', -, rfl⟩ := List.mem_map.mp hw
      exact given_comparable v' w')
    rw [List.map_map, show blankWord ∘ given = id from funext blank_given, List.map_id] at this
    exact this
  refine ⟨hd, fun s hs ext => ?_⟩
  generalize hext : (ext.map fun kv => (kv.1, (⟨given kv.2.word, kv.2.properties, kv.2.formProperties⟩ : OptForm))) = ext'
  have key := C140_text U s hs ext' _ _ hd
  have hb : blankExternals ext' = ext := by
    unfold blankExternals
    rw [← hext, List.map_map]
    conv_rhs => rw [← List.map_id ext]
    refine List.map_congr_left fun kv _ => ?_
    simp [blankForm, blank_given]
  rw [hb] at key
  have hn : ∀ n f, Dict.get? ext' n = some f → none ∉ f.word.forms := by
    intro n f hf
    have := Dict.mem_of_get? hf
    rw [← hext] at this
    obtain ⟨kv, -, hkv⟩ := List.mem_map.mp this
    injection hkv with _ hkv
    rw [← hkv]
    simp [given]
  have hno : ¬ FirstIsNone ext' := by
    rintro ⟨n, f, hf, h0⟩
    exact hn n f hf (List.mem_of_getElem? h0)
  have hno' : ¬ SomeNone ext' (optHistory U (ws.map given)) := by
    rintro (⟨n, f, hf, h0⟩ | ⟨v, f, hf, h0⟩)
    · exact hn n f hf h0
    · obtain ⟨w, -, hw⟩ := List.mem_map.mp (optHistory_words hf)
      rw [← hw] at h0
      simp [given] at h0
  generalize s.getTextOpt U ext' (optHistory U (ws.map given)) = x at key
  generalize s.getText U ext (history U ws) = y at key
  cases key with
  | ok a b hab =>
    rcases hab with rfl | ⟨hq, -⟩
    · rfl
    · exact absurd hq hno'
  | error e => rfl
  | gap hq => exact absurd hq hno'
  | first _ hp => exact absurd hp hno

/-! ## templates -/

/-- C140: where the form of a variable is missing and given as `None`, the text has the word `None`. -/
theorem C140_substitute (U : PyUni) (names : List Str) (ext : OptExternals) (d : OptDictionary) (text l : Str) (ps : List (Str × Str))
    (values : List (Option Str)) (h : Pieces text l ps)
    (hs : List.Forall₂ (fun p v => ∃ s, Substitution.parse U (doubled p.1) names = .ok s ∧ s.getTextOpt U ext d = .ok v) ps values) :
    ∃ t, Template.empty.parse U text names = .ok t ∧
      t.substituteOpt U ext d = .ok (filled l (values.map fun v => v.getD (str! "None")) (ps.map Prod.snd)) := by
  obtain ⟨subs, h1, h2⟩ : ∃ subs, List.Forall₂ (fun p s => Substitution.parse U (doubled p.1) names = .ok s) ps subs ∧
      List.Forall₂ (fun s x => Substitution.getTextOpt U s ext d = .ok x) subs values := by
    clear h
    induction hs with
    | nil => exact ⟨[], .nil, .nil⟩
    | cons hx _ ih =>
      obtain ⟨s, hs1, hs2⟩ := hx
      obtain ⟨subs, h1, h2⟩ := ih
      exact ⟨s :: subs, .cons hs1 h1, .cons hs2 h2⟩
  refine ⟨_, parse_ok_of h h1, ?_⟩
  unfold Template.substituteOpt
  have : (Template.empty.substitutions ++ subs) = subs := rfl
  simp only [this, mapM_of_forall₂ h2, bind, Except.bind]
  have hshown : values.map shown = values.map fun v => v.getD (str! "None") := by
    refine List.map_congr_left fun v _ => ?_
    cases v <;> rfl
  rw [hshown]
  exact pyFormat_template _ _ _ _ (by rw [List.length_map, ← h2.length_eq, ← h1.length_eq])

/-- C140: a template that was never given a text cannot be filled, whatever the words are. -/
theorem C140_unparsed (U : PyUni) (ext : OptExternals) (d : OptDictionary) : Template.empty.substituteOpt U ext d = .error .TypeError := rfl

/-! ## stored words -/

/-- C140: a word with `None` is restored from its data, also after JSON, with `None` in the same places; it is equal to the word stored. -/
theorem C140_reload (w : OptWord) (hw : Accepted (blankWord w)) (data : OptWordData) (e : Dict JKey Int) (ht : data.type = w.serialize.type)
    (hf : data.forms = w.serialize.forms) (hj : List.Forall₂ ViaJson w.serialize.properties e) (hp : data.properties.Perm e) :
    ∃ w', OptWord.deserialize data = .ok w' ∧ w'.forms = w.forms ∧ w'.eq w = true := by
  obtain ⟨w', hd, he⟩ := C15_roundtrip_json (blankWord w) hw e data.properties hj hp
  unfold OptWord.deserialize
  unfold Word.deserialize at hd
  rw [ht, hf]
  simp only [OptWord.serialize, Word.serialize, blankWord] at *
  cases hwt : wordTypeOfValue (w.type.value : Int) with
  | none => rw [hwt] at hd; cases hd
  | some t =>
    rw [hwt] at hd
    dsimp only at hd ⊢
    cases hpr : Properties.deserialize data.properties with
    | error err => rw [hpr] at hd; cases hd
    | ok p =>
      rw [hpr] at hd
      simp only [bind, Except.bind] at hd ⊢
      unfold Word.new at hd
      unfold OptWord.new
      rw [List.length_map] at hd
      split at hd
      · cases hd
      · rename_i hl
        injection hd with hd
        subst hd
        rw [if_neg hl]
        refine ⟨_, rfl, rfl, ?_⟩
        unfold Word.eq at he
        unfold OptWord.eq
        simp_all

/-- C140: `form` gives the form in the same slot, `None` if it is missing there. -/
theorem C140_form (t : WordType) (ps p : Properties) (hps : WFProps ps) (hp : WFProps p) : ∃ i, i < slotCount t ∧
    ∀ forms : List (Option Str), forms.length = slotCount t → ∃ v, forms[i]? = some v ∧ (⟨t, forms, ps⟩ : OptWord).form p = .ok v ∧
      (blankWord ⟨t, forms, ps⟩).form p = .ok (v.getD []) := by
  obtain ⟨cache, hc, hs⟩ := rawWordsCache_spec t
  have hq : WFProps (Properties.new [.props p, .props ps]) := wf_new (wfargs_props (ps := [p, ps]) (by
    intro q hq
    rcases List.mem_cons.mp hq with rfl | hq
    · exact hp
    · rw [List.mem_singleton.mp hq]; exact hps))
  obtain ⟨c, hfull, hraw⟩ := getRawKey_eq hq (schema_not_wordType t)
  obtain ⟨i, hi⟩ := hs.total c hfull
  have hlt : i < slotCount t := by
    obtain ⟨-, -, -, -, hn, -⟩ := C07_slot_bijection t
    have hn : (wordsCache t).length = slotCount t := hn
    rw [← hn, wordsCache_length]; exact hs.bound _ _ hi
  refine ⟨i, hlt, fun forms hf => ⟨_, List.getElem?_eq_getElem (by omega), ?_⟩⟩
  have hform : (⟨t, forms, ps⟩ : OptWord).form p = .ok (forms[i]'(by omega)) := by
    unfold OptWord.form OptWord.formRaw
    simp only [hc, bind, Except.bind, hraw, hi]
    rw [List.getElem?_eq_getElem (by omega)]
  refine ⟨hform, ?_⟩
  have := blank_formRaw ⟨t, forms, ps⟩ (.new [.props p, .props ps])
  unfold OptWord.form at hform
  simp only at hform
  rw [hform] at this
  exact this

/-- C140: words are equal if they are equal with `''` for `None` and have `None` in the same places. -/
theorem C140_equal (v w : OptWord) (hv : Accepted (blankWord v)) (hw : Accepted (blankWord w)) :
    v.eq w = true ↔ v.type = w.type ∧ v.forms = w.forms ∧
      ∀ g, v.properties.isSpecified g = w.properties.isSpecified g ∧ v.properties.get g = w.properties.get g := by
  have h := C16_eq_iff ⟨v.type, (blankWord v).forms, v.properties⟩ ⟨w.type, (blankWord w).forms, w.properties⟩ hv hw
  have e1 : v.eq w = true ↔ v.type = w.type ∧ v.properties.eq w.properties = true ∧ v.forms = w.forms := by
    simp only [OptWord.eq, Bool.and_eq_true, decide_eq_true_eq, and_assoc]
  have e2 : (blankWord v).eq (blankWord w) = true ↔ v.type = w.type ∧ v.properties.eq w.properties = true ∧
      (blankWord v).forms = (blankWord w).forms := by
    simp only [Word.eq, Bool.and_eq_true, decide_eq_true_eq, and_assoc]
    exact Iff.rfl
  have h : (blankWord v).eq (blankWord w) = true ↔ v.type = w.type ∧ (blankWord v).forms = (blankWord w).forms ∧
      ∀ g, v.properties.isSpecified g = w.properties.isSpecified g ∧ v.properties.get g = w.properties.get g := h
  rw [e2] at h
  rw [e1]
  have hb : v.forms = w.forms → (blankWord v).forms = (blankWord w).forms := fun h => by simp only [blankWord, h]
  constructor
  · rintro ⟨h1, h2, h3⟩
    exact ⟨h1, h3, (h.mp ⟨h1, h2, hb h3⟩).2.2⟩
  · rintro ⟨h1, h2, h3⟩
    exact ⟨h1, (h.mpr ⟨h1, hb h2, h3⟩).2.1, h2⟩

/-- о, without the forms об and обо. -/
def exAboutOne : OptWord := ⟨.PREPOSITION, [some (str! "о"), none, none], .new []⟩

/-- о, without the form обо. -/
def exAboutTwo : OptWord := ⟨.PREPOSITION, [some (str! "о"), some (str! "об"), none], .new []⟩

theorem exAboutOne_accepted : Accepted (blankWord exAboutOne) ∧ Accepted (blankWord exAboutTwo) :=
  ⟨⟨_, _, _, wf_empty, (C08_constructor .PREPOSITION [str! "о", [], []] (.new [])).1 (by decide +kernel)⟩,
   ⟨_, _, _, wf_empty, (C08_constructor .PREPOSITION [str! "о", str! "об", []] (.new [])).1 (by decide +kernel)⟩⟩

/-- A form of the text арбуз. -/
def exMelon : OptForm := .new (given (exText (str! "арбуз")))

/-- C140 applies: with `None` for the missing forms, о before арбуз is written "None", with `''` nothing is written; after
`autofill_missed_forms` it is written "о". -/
example :
    (Template.empty.parse exPy (str! "[о|x] арбузе") [str! "x"]).bind
      (fun t => t.substituteOpt exPy [(str! "x", exMelon)] (optHistory exPy [exAboutOne])) = .ok (str! "None арбузе") ∧
    (Template.empty.parse exPy (str! "[о|x] арбузе") [str! "x"]).bind
      (fun t => t.substitute exPy (blankExternals [(str! "x", exMelon)]) (history exPy [blankWord exAboutOne])) = .ok (str! " арбузе") ∧
    (exAboutOne.autofillMissedForms.map OptWord.forms) = .ok [some (str! "о"), some (str! "о"), some (str! "о")] ∧
    SomeNone [(str! "x", exMelon)] (optHistory exPy [exAboutOne]) := by
  refine ⟨by decide +kernel, by decide +kernel, by decide +kernel, .inr ⟨some (str! "о"), (OptForm.new exAboutOne (some ((invertedCacheProperties .PREPOSITION)[0]'(by decide)))), by decide +kernel, by decide +kernel⟩⟩

/-- C140: the two prepositions cannot be compared, and the second `add_word` raises `TypeError`; arbuz can be added. -/
example : Incomparable exAboutTwo.forms exAboutOne.forms ∧
    (OptDictionary.addWord exPy (optHistory exPy [exAboutOne]) exAboutTwo).2 = some .TypeError ∧
    (OptDictionary.addWord exPy (optHistory exPy [exAboutOne]) (given (exText (str! "арбуз")))).2 = none ∧
    (∀ v ∈ [exAboutOne, given exPrep], ∀ w ∈ [exAboutOne, given exPrep], v.type = w.type → ¬ Incomparable v.forms w.forms) := by
  refine ⟨⟨[some (str! "о")], str! "об", [none], [none], .inr ⟨rfl, rfl⟩⟩, by decide +kernel, by decide +kernel, ?_⟩
  intro v hv w hw _ hinc
  have := optListLt_incomparable hinc
  simp only [List.mem_cons, List.not_mem_nil, or_false] at hv hw
  rcases hv with rfl | rfl <;> rcases hw with rfl | rfl <;> revert this <;> decide +kernel

/-- C140: в before сна, a form of a noun without its first form, raises `AttributeError`; with `''` for the first form it is "в". -/
example :
    let sna : OptForm := .new ⟨.NOUN, none :: List.replicate 17 (some (str! "сна")), .new []⟩ (some (.new [.record .CASE_GENITIVE]))
    FirstIsNone [(str! "x", sna)] ∧
    Substitution.getTextOpt exPy ⟨str! "в", [.ext (str! "x")]⟩ [(str! "x", sna)] (optHistory exPy [given exPrep]) = .error .AttributeError ∧
    Substitution.getText exPy ⟨str! "в", [.ext (str! "x")]⟩ (blankExternals [(str! "x", sna)]) (history exPy [exPrep]) = .ok (str! "в") :=
  ⟨⟨str! "x", _, rfl, rfl⟩, by decide +kernel, by decide +kernel⟩

/-- C140: о before a text that is `None` raises `TypeError`, before an empty text `IndexError`. -/
example :
    Substitution.getTextOpt exPy ⟨str! "о", [.ext (str! "x")]⟩ [(str! "x", .new ⟨.TEXT, [none], .new []⟩)] (optHistory exPy [exAboutOne]) =
      .error .TypeError ∧
    Substitution.getText exPy ⟨str! "о", [.ext (str! "x")]⟩ (blankExternals [(str! "x", .new ⟨.TEXT, [none], .new []⟩)])
      (history exPy [blankWord exAboutOne]) = .error .IndexError :=
  ⟨by decide +kernel, by decide +kernel⟩

end Utg
