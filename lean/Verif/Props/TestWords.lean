import Verif.Props.Templates
import Verif.Props.Dictionary
import Verif.Model.TestWords
/-! # C78: test words -/

namespace Utg
open Py Spec

theorem join_ids_injective {rs rs' : List Rec} (h : join ',' (rs.map Rec.verboseId) = join ',' (rs'.map Rec.verboseId)) : rs = rs' := by
  have hne : ∀ (r : Rec) (rs : List Rec), join ',' ((r :: rs).map Rec.verboseId) ≠ [] := by
    intro r rs
    cases rs with
    | nil => exact verboseId_ne_nil r
    | cons q qs => simp [join]
  have hmap : rs.map Rec.verboseId = rs'.map Rec.verboseId := by
    have hc : ∀ (rs : List Rec), ∀ x ∈ rs.map Rec.verboseId, ',' ∉ x := by
      intro rs x hx
      obtain ⟨r, _, rfl⟩ := List.mem_map.mp hx
      exact verboseId_no_comma r
    cases rs with
    | nil => cases rs' with
      | nil => rfl
      | cons r' rs' => exact absurd h.symm (hne r' rs')
    | cons r rs => cases rs' with
      | nil => exact absurd h (hne r rs)
      | cons r' rs' =>
        rw [join_eq_intercalate, join_eq_intercalate] at h
        have h1 := split_intercalate (ids := (r :: rs).map Rec.verboseId) (sep := ',') (by simp) (hc _)
        have h2 := split_intercalate (ids := (r' :: rs').map Rec.verboseId) (sep := ',') (by simp) (hc _)
        rw [h, h2] at h1
        exact h1.symm
  exact List.map_injective_iff.mpr (fun _ _ => verboseId_injective) hmap

theorem fits_filterMap {gs : List Group} {k : Key} (h : FitsSchema gs k) {r : Rec} (hr : r ∈ k.filterMap id) : r.group ∈ gs := by
  induction h with
  | nil => simp at hr
  | cons h1 _ ih =>
    rename_i o g _ _ _
    simp only [List.filterMap_cons, id] at hr
    cases o with
    | none => exact List.mem_cons_of_mem _ (ih hr)
    | some x =>
      rcases List.mem_cons.mp hr with rfl | hr
      · rw [mem_records_iff.mp (h1 _ rfl)]; simp
      · exact List.mem_cons_of_mem _ (ih hr)

theorem filterMap_injective {gs : List Group} (hgs : gs.Nodup) {k k' : Key} (h : FitsSchema gs k) (h' : FitsSchema gs k')
    (he : k.filterMap id = k'.filterMap id) : k = k' := by
  induction gs generalizing k k' with
  | nil => cases h; cases h'; rfl
  | cons g gs ih =>
    cases h with
    | cons h1 h2 => cases h' with
      | cons h3 h4 =>
        rename_i o ks o' ks'
        rw [List.nodup_cons] at hgs
        simp only [List.filterMap_cons, id] at he
        have hhead : ∀ (x : Rec) (ks : Key), x ∈ g.records → FitsSchema gs ks → x ∉ ks.filterMap id := by
          intro x ks hx hks hm
          exact hgs.1 (mem_records_iff.mp hx ▸ fits_filterMap hks hm)
        cases o with
        | none => cases o' with
          | none => rw [ih hgs.2 h2 h4 he]
          | some y => exact absurd (by have he' : ks.filterMap id = y :: ks'.filterMap id := he; rw [he']; simp) (hhead y ks (h3 _ rfl) h2)
        | some x => cases o' with
          | none => exact absurd (by have he' : x :: ks.filterMap id = ks'.filterMap id := he; rw [← he']; simp) (hhead x ks' (h1 _ rfl) h4)
          | some y =>
            injection he with e1 e2
            rw [e1, ih hgs.2 h2 h4 e2]

/-- The spelling of one slot of a test word. -/
def spelledKey (pre suf : Str) (k : Key) : Str := pre ++ join ',' ((k.filterMap id).map Rec.verboseId) ++ suf

theorem createTestWord_eq (t : WordType) (pre suf : Str) (p : Option Properties) :
    Word.createTestWord t pre suf p = .ok ⟨t, (invertedCache t).map (spelledKey pre suf), p.getD (.new [])⟩ := by
  unfold Word.createTestWord
  have hm : ((invertedCache t).map some).mapM (testForm pre suf) = .ok ((invertedCache t).map (spelledKey pre suf)) := by
    generalize invertedCache t = ks
    induction ks with
    | nil => rfl
    | cons k ks ih =>
      have hk : testForm pre suf (some k) = .ok (spelledKey pre suf k) := by
        unfold testForm spelledKey
        rw [List.map_filterMap]; rfl
      simp only [List.map_cons, List.mapM_cons, hk, ih, bind, Except.bind]
      rfl
  simp only [getKeys_eq, bind, Except.bind, hm]
  unfold Word.new
  simp [wordsCache_length]

theorem testWordRound_eq (t : WordType) (onlyRequired : Bool) (p : Properties) (g : Group) (c : Bool) :
    testWordRound t onlyRequired p g c = .ok p := by
  have : (propertiesDict t).get? (.propertyType g) = none := by cases t <;> rfl
  simp only [testWordRound, this]

theorem testWordLoop_eq (t : WordType) (onlyRequired : Bool) (coin : Group → Bool) (gs : List Group) (p : Properties) :
    testWordLoop t onlyRequired coin gs p = .ok p := by
  induction gs with
  | nil => rfl
  | cons g gs ih => simp only [testWordLoop, testWordRound_eq, bind, Except.bind, ih]

theorem createTestWordFull_eq (t : WordType) (pre suf : Str) (onlyRequired : Bool) (p : Option Properties) (coin : Group → Bool) :
    Word.createTestWordFull t pre suf onlyRequired p coin = Word.createTestWord t pre suf p := by
  unfold Word.createTestWordFull Word.createTestWord
  simp only [testWordLoop_eq, bind, Except.bind]

/-- C78: nothing in it is left to chance, and no property is added, required or not: only_required does not matter. -/
theorem C78_no_chance (t : WordType) (pre suf : Str) (onlyRequired : Bool) (p : Option Properties) (coin : Group → Bool) (w : Word)
    (h : Word.createTestWordFull t pre suf onlyRequired p coin = .ok w) :
    w.properties = p.getD (.new []) ∧
      ∀ (onlyRequired' : Bool) (coin' : Group → Bool), Word.createTestWordFull t pre suf onlyRequired' p coin' = .ok w := by
  rw [createTestWordFull_eq] at h
  refine ⟨?_, fun _ _ => by rw [createTestWordFull_eq, h]⟩
  rw [createTestWord_eq] at h
  injection h with h
  rw [← h]

/-- C78: `create_test_word` makes a word of the given type with the given properties. Each form is the prefix, the names of the
properties of its slot separated by commas, and the suffix. -/
theorem C78_test_word (t : WordType) (pre suf : Str) (onlyRequired : Bool) (coin : Group → Bool) (p : Option Properties) (hp : ∀ q, p = some q → WFProps q) (ks : List (Option Key))
    (hks : Word.getKeys t = .ok ks) :
    ∃ w, Word.createTestWordFull t pre suf onlyRequired p coin = .ok w ∧ Accepted w ∧ w.type = t ∧ w.properties = p.getD (.new []) ∧
      ∀ (i : Nat) (k : Key), ks[i]? = some (some k) →
        w.forms[i]? = some (pre ++ [','].intercalate ((k.filterMap id).map Rec.verboseId) ++ suf) := by
  refine ⟨_, (createTestWordFull_eq ..).trans (createTestWord_eq t pre suf p), ?_, rfl, rfl, ?_⟩
  · rw [accepted_iff]
    refine ⟨?_, by simp⟩
    cases p with
    | none => exact wf_empty
    | some q => exact hp q rfl
  · intro i k hk
    rw [getKeys_eq] at hks
    injection hks with hks
    rw [← hks, List.getElem?_map] at hk
    show ((invertedCache t).map (spelledKey pre suf))[i]? = _
    cases hi : (invertedCache t)[i]? with
    | none => rw [hi] at hk; simp at hk
    | some k' =>
      rw [hi] at hk
      simp only [Option.map_some, Option.some.injEq] at hk
      subst hk
      rw [List.getElem?_map, hi, ← join_eq_intercalate]; rfl

/-- C78: the forms of a test word are all different. -/
theorem C78_distinct (t : WordType) (pre suf : Str) (onlyRequired : Bool) (coin : Group → Bool) (p : Option Properties) (w : Word)
    (h : Word.createTestWordFull t pre suf onlyRequired p coin = .ok w) : w.forms.Nodup := by
  rw [createTestWordFull_eq, createTestWord_eq] at h
  injection h with h
  rw [← h]
  refine List.Nodup.map_on ?_ (invertedCache_nodup t)
  intro k hk k' hk' he
  unfold spelledKey at he
  have h1 := List.append_cancel_right he
  have h2 := List.append_cancel_left h1
  exact filterMap_injective (schema_nodup t) (invertedCache_fits hk) (invertedCache_fits hk') (join_ids_injective h2)

/-- C78: a dictionary of one test word made without properties of its own finds, for the text of each slot, the word form of
that slot. -/
theorem C78_lookup (U : PyUni) (t : WordType) (pre suf : Str) (onlyRequired : Bool) (coin : Group → Bool) (w : Word)
    (h : Word.createTestWordFull t pre suf onlyRequired none coin = .ok w) (i : Nat)
    (text : Str) (f : WordForm) (hi : w.forms[i]? = some text) (hf : w.nthForm i = .ok f) :
    (history U [w]).getWord text = .ok f ∧ f.form U = .ok text := by
  have hd := C78_distinct t pre suf onlyRequired coin none w h
  rw [createTestWordFull_eq, createTestWord_eq] at h
  injection h with h
  have hacc : Accepted w := by rw [← h, accepted_iff]; exact ⟨wf_empty, by simp⟩
  have hws : ∀ v ∈ [w], Accepted v := by intro v hv; simp at hv; subst hv; exact hacc
  have hprops : w.properties = .new [] := by rw [← h]; rfl
  have hspec : ∀ g, w.properties.isSpecified g = false := by intro g; rw [hprops]; cases g <;> rfl
  have hlow : w.properties.get .WORD_CASE = some .WORD_CASE_LOWER := by rw [hprops]; decide
  obtain ⟨fs, hfs, hmap⟩ := C09_spells_slot U w hacc (fun g _ => hspec g) hlow
  have hlen : fs.length = w.forms.length := by simpa using congrArg List.length hmap
  have hat : ∀ (j : Nat) (g : WordForm), fs[j]? = some g → ∃ s, w.forms[j]? = some s ∧ g.form U = .ok s := by
    intro j g hg
    have := congrArg (·[j]?) hmap
    simp only [List.getElem?_map, hg, Option.map_some] at this
    cases hs : w.forms[j]? with
    | none => rw [hs] at this; simp at this
    | some s => rw [hs] at this; simp at this; exact ⟨s, rfl, this⟩
  have hnth : ∀ (j : Nat) (g : WordForm), w.nthForm j = .ok g → j < w.forms.length → fs[j]? = some g := by
    intro j g hg hj
    unfold Word.allForms at hfs
    have := forall₂_of_mapM hfs
    have hx := (List.forall₂_iff_get.mp this).2 j (by simpa using hj) (by omega)
    simp only [List.get_eq_getElem, List.getElem_range] at hx
    rw [hg] at hx; injection hx with hx
    rw [List.getElem?_eq_getElem (by omega), hx]
  have hilt : i < w.forms.length := (List.getElem?_eq_some_iff.mp hi).1
  have hfi := hnth i f hf hilt
  obtain ⟨s, hs1, hs2⟩ := hat i f hfi
  rw [hi] at hs1; injection hs1 with hs1; subst hs1
  refine ⟨?_, hs2⟩
  have hspell : Spellable U w := ⟨fs, hfs, fun g hg => by
    obtain ⟨j, hj⟩ := List.mem_iff_getElem?.mp hg
    obtain ⟨s, _, h⟩ := hat j g hj; exact ⟨s, h⟩⟩
  have hoff : (text, f) ∈ offered U w := (C26_offered_all U w hspell text f).mpr ⟨fs, hfs, List.mem_of_getElem? hfi, hs2⟩
  obtain ⟨hk1, hk2, _⟩ := C26_known_texts U [w] hws text
  obtain ⟨g, hg⟩ := hk1.mp (hk2.mpr ⟨w, by simp, f, hoff⟩)
  rw [hg]
  congr 1
  obtain ⟨h1, h2, fs', h3, h4⟩ := C25_lookup_sound U [w] hws text g hg
  simp only [List.mem_singleton] at h2
  rw [h2, hfs] at h3
  injection h3 with h3; subst h3
  obtain ⟨j, hj⟩ := List.mem_iff_getElem?.mp h4
  obtain ⟨s, hs3, hs4⟩ := hat j g hj
  rw [h1] at hs4; injection hs4 with hs4; subst hs4
  have : j = i := by
    have hjlt : j < w.forms.length := (List.getElem?_eq_some_iff.mp hs3).1
    refine (List.Nodup.getElem_inj_iff hd (hi := hjlt) (hj := hilt)).mp ?_
    have e1 := List.getElem?_eq_getElem hjlt
    have e2 := List.getElem?_eq_getElem hilt
    rw [hs3] at e1; rw [hi] at e2
    injection e1 with e1; injection e2 with e2; rw [← e1, ← e2]
  subst this
  rw [hfi] at hj
  injection hj with hj; exact hj.symm

/-- C78 applies: a test verb with the prefix of the library. -/
example : (Word.createTestWord .VERB).isOk = true ∧ ∃ f, (⟨.VERB, (invertedCache .VERB).map (spelledKey (str! "w-") []), .new []⟩ : Word).nthForm 5 = .ok f :=
  ⟨by rw [createTestWord_eq]; rfl, ⟨_, rfl⟩⟩

end Utg
