import Verif.Proofs.Migrations
import Verif.Props.Words
/-!
# Migrations (C58 - C62, C70, C71), and the documented layout of words (C02)
-/

namespace Utg
open Py Spec

/-- C02: the slots of every part of speech, in the order of `Word.get_keys`, are the documented combinations. -/
theorem C02_documented_layout (t : WordType) :
    ∃ ks : List Key, Word.getKeys t = .ok (ks.map some) ∧ layoutNow t = ks.map (·.filterMap id) :=
  ⟨invertedCache t, getKeys_eq t, layoutNow_eq t⟩

/-- C02: a word answers a request with the form stored for a combination whenever the effective properties agree with that
combination. -/
theorem C02_form_for_combination (w : Word) (p : Properties) (m : List Rec) (hw : Accepted w) (hp : WFProps p)
    (hm : m ∈ layoutNow w.type) (h : ∀ r ∈ m, effective w p r.group = some r) :
    ∃ f, stored (layoutNow w.type) w.forms m = some f ∧ w.form p = .ok f := by
  have hi := List.idxOf_lt_length_of_mem hm
  obtain ⟨k, hk⟩ : ∃ k, (invertedCache w.type)[(layoutNow w.type).idxOf m]? = some k := by
    rw [layoutNow_eq] at hi ⊢
    rw [List.length_map] at hi
    exact ⟨_, List.getElem?_eq_getElem hi⟩
  have hmk : m = k.filterMap id := by
    have h1 : (layoutNow w.type)[(layoutNow w.type).idxOf m]? = some m := by
      rw [List.getElem?_eq_getElem hi]; simp
    conv at h1 => lhs; lhs; rw [layoutNow_eq]
    rw [List.getElem?_map, hk] at h1
    simpa using h1.symm
  obtain ⟨f, hf, hform⟩ := C02_form_in_slot w p _ _ k hw hp (getKeys_eq w.type)
    (by rw [List.getElem?_map, hk]; rfl) (by
      intro j g r hg hr
      have hmem : r ∈ m := by rw [hmk]; exact List.mem_filterMap.mpr ⟨some r, List.mem_of_getElem? hr, rfl⟩
      have hgr : r.group = g := by
        have hfit := invertedCache_fits (List.mem_of_getElem? hk)
        have hj := (List.forall₂_iff_get.mp hfit).2 j (List.getElem?_eq_some_iff.mp hr).1 (List.getElem?_eq_some_iff.mp hg).1
        simp only [List.get_eq_getElem, (List.getElem?_eq_some_iff.mp hr).2, (List.getElem?_eq_some_iff.mp hg).2] at hj
        exact mem_records_iff.mp (hj r rfl)
      rw [← hgr]
      exact h r hmem)
  exact ⟨f, hf, hform⟩

example : [Rec.NOUN_FORM_NORMAL, .NUMBER_PLURAL, .CASE_INSTRUMENTAL] ∈ layoutNow exNoun.type ∧
    ∀ r ∈ [Rec.NOUN_FORM_NORMAL, .NUMBER_PLURAL, .CASE_INSTRUMENTAL], effective exNoun exRequest r.group = some r := by decide +kernel

/-- Data with today's number of forms and readable properties can be loaded. -/
theorem loadable {t : WordType} {d : WordData} (hd : InLayout layoutNow t d) :
    ∃ w, Word.deserialize d = .ok w ∧ Accepted w ∧ w.type = t ∧ w.forms = d.forms := by
  obtain ⟨p, hp⟩ := hd.properties
  have hl : d.forms.length = (wordsCache t).length := by rw [hd.forms, layoutNow_length]
  have hnew : Word.new t d.forms p = .ok ⟨t, d.forms, p⟩ := by
    unfold Word.new; rw [if_neg (by simp [hl])]
  refine ⟨⟨t, d.forms, p⟩, ?_, ⟨t, d.forms, p, deserialize_wf hp, hnew⟩, rfl, rfl⟩
  unfold Word.deserialize
  rw [hd.type, wordTypeOfValue_value]
  simp only [hp, bind, Except.bind]
  exact hnew

theorem stored_migrated {before after : Layout} {fs : List Str} {src : List Rec → List Rec} (hl : fs.length = before.length)
    (hsrc : ∀ m ∈ after, src m ∈ before) {m : List Rec} (hm : m ∈ after) :
    stored after (after.map fun m => fs.getD (before.idxOf (src m)) []) m = stored before fs (src m) := by
  rw [stored_map _ hm, stored_mem hl (hsrc m hm)]

/-- Example data: the forms are the numbers of the positions. -/
def exOld (layout : WordType → Layout) (t : WordType) : WordData :=
  ⟨t.value, (List.range (layout t).length).map fun (i : Nat) => pyStr i, [(.str (str! "0"), 0)]⟩

theorem exOld_inLayout (layout : WordType → Layout) (t : WordType) : InLayout layout t (exOld layout t) := by
  refine ⟨rfl, by simp [exOld], ⟨.new [.record .CASE_NOMINATIVE], ?_⟩⟩
  show Properties.deserialize [(.str (str! "0"), 0)] = _
  decide +kernel

/-- C58: a word in the layout m_0009 expects is migrated to a loadable word; type and properties are unchanged, and so are the
forms unless it is a pronoun. -/
theorem C58_loadable (t : WordType) (d : WordData) (hd : InLayout layoutBefore9 t d) :
    ∃ d' w, M0009.migrate d = .ok d' ∧ d'.type = d.type ∧ d'.properties = d.properties ∧
      (t ≠ .PRONOUN → d'.forms = d.forms) ∧
      Word.deserialize d' = .ok w ∧ Accepted w ∧ w.type = t ∧ w.forms = d'.forms := by
  have hm := migrateWith_spec (new9 t) (plan9 t) (source9_mem t) hd
  obtain ⟨w, hw⟩ := loadable (t := t)
    (d := { d with forms := (layoutNow t).map fun m => d.forms.getD ((layoutBefore9 t).idxOf (source9 t m)) [] })
    ⟨hd.type, by simp, hd.properties⟩
  refine ⟨_, w, hm, rfl, rfl, ?_, hw⟩
  intro ht
  simp only
  have h1 : layoutBefore9 t = layoutNow t := by cases t <;> first | rfl | exact absurd rfl ht
  have h2 : ∀ m, source9 t m = m := by intro m; cases t <;> first | rfl | exact absurd rfl ht
  simp only [h2, h1]
  have hl : d.forms.length = (layoutNow t).length := by rw [hd.forms, h1]
  have hnd : (layoutNow t).Nodup := by cases t <;> decide +kernel
  apply List.ext_getElem
  · simp [hl]
  · intro i h3 h4
    simp only [List.getElem_map]
    rw [hnd.idxOf_getElem]
    simp [List.getD, h4]

theorem pronoun_singular_mem : ∀ a ∈ animalities, ∀ c ∈ cases, ∀ g ∈ genders,
    [a, .NUMBER_SINGULAR, c, g] ∈ layoutNow .PRONOUN := by decide +kernel

theorem pronoun_plural_mem : ∀ a ∈ animalities, ∀ c ∈ cases, [a, .NUMBER_PLURAL, c] ∈ layoutNow .PRONOUN := by decide +kernel

/-- C58: the new forms of a pronoun are its old forms of the third person. -/
theorem C58_pronoun (d : WordData) (hd : InLayout layoutBefore9 .PRONOUN d) :
    ∃ d', M0009.migrate d = .ok d' ∧ ∀ a ∈ animalities, ∀ c ∈ cases,
      (∀ g ∈ genders, stored (layoutNow .PRONOUN) d'.forms [a, .NUMBER_SINGULAR, c, g] =
        stored (layoutBefore9 .PRONOUN) d.forms [.NUMBER_SINGULAR, c, .PERSON_THIRD, g]) ∧
      stored (layoutNow .PRONOUN) d'.forms [a, .NUMBER_PLURAL, c] =
        stored (layoutBefore9 .PRONOUN) d.forms [.NUMBER_PLURAL, c, .PERSON_THIRD] := by
  refine ⟨_, migrateWith_spec (new9 .PRONOUN) (plan9 .PRONOUN) (source9_mem .PRONOUN) hd, ?_⟩
  have key : ∀ m ∈ layoutNow .PRONOUN, _ := fun m hm => stored_migrated hd.forms (source9_mem .PRONOUN) hm
  intro a ha c hc
  constructor
  · intro g hg
    exact key [a, .NUMBER_SINGULAR, c, g] (pronoun_singular_mem a ha c hc g hg)
  · exact key [a, .NUMBER_PLURAL, c] (pronoun_plural_mem a ha c hc)

/-- C58: seen through the library, the migrated pronoun is spelled in the third person. -/
theorem C58_pronoun_form (d : WordData) (hd : InLayout layoutBefore9 .PRONOUN d) :
    ∃ d' w, M0009.migrate d = .ok d' ∧ Word.deserialize d' = .ok w ∧
      ∀ p n c g, WFProps p → effective w p .NUMBER = some n → effective w p .CASE = some c → effective w p .GENDER = some g →
        ∃ f, stored (layoutBefore9 .PRONOUN) d.forms (thirdPerson n c g) = some f ∧ w.form p = .ok f := by
  obtain ⟨d', w, h1, _, _, _, h2, h3, h4, h5⟩ := C58_loadable _ d hd
  obtain ⟨d'', h1', hst⟩ := C58_pronoun d hd
  rw [h1] at h1'
  injection h1' with h1'; subst h1'
  refine ⟨d', w, h1, h2, ?_⟩
  intro p n c g hp hn hc hg
  have hwf := (accepted_iff.mp h3).1
  have hgr : ∀ {g r}, effective w p g = some r → r ∈ g.records := by
    intro g r h
    rw [← effective_eq hwf hp] at h
    exact mem_records_iff.mpr (get_group (wf_new2 hp hwf) h)
  obtain ⟨a, ha, ha'⟩ := get_mem_records (wf_new2 hp hwf) (g := .ANIMALITY) (by decide)
  rw [effective_eq hwf hp] at ha'
  have hst := hst a (by revert ha; clear ha'; revert a; decide) c (by have := hgr hc; revert this; clear hc; revert c; decide)
  have hgm : g ∈ genders := by have := hgr hg; revert this; clear hg; revert g; decide
  have hcm : c ∈ cases := by have := hgr hc; revert this; clear hc; clear hst; revert c; decide
  have ham : a ∈ animalities := by revert ha; clear ha' hst; revert a; decide
  have hnm := hgr hn
  have hn' : n = .NUMBER_SINGULAR ∨ n = .NUMBER_PLURAL := by
    simpa [Group.records] using hnm
  rcases hn' with rfl | rfl
  · obtain ⟨f, hf, hform⟩ := C02_form_for_combination w p [a, .NUMBER_SINGULAR, c, g] h3 hp
      (by rw [h4]; exact pronoun_singular_mem a ham c hcm g hgm)
      (by
        have h6 : a.group = .ANIMALITY := mem_records_iff.mp ha
        have h7 : c.group = .CASE := mem_records_iff.mp (hgr hc)
        have h8 : g.group = .GENDER := mem_records_iff.mp (hgr hg)
        intro r hr
        simp only [List.mem_cons, List.not_mem_nil, or_false] at hr
        rcases hr with rfl | rfl | rfl | rfl
        · rw [h6, ha']
        · exact hn
        · rw [h7, hc]
        · rw [h8, hg])
    refine ⟨f, ?_, hform⟩
    rw [← hf, h4, h5]
    exact (hst.1 g hgm).symm
  · obtain ⟨f, hf, hform⟩ := C02_form_for_combination w p [a, .NUMBER_PLURAL, c] h3 hp
      (by rw [h4]; exact pronoun_plural_mem a ham c hcm)
      (by
        have h6 : a.group = .ANIMALITY := mem_records_iff.mp ha
        have h7 : c.group = .CASE := mem_records_iff.mp (hgr hc)
        intro r hr
        simp only [List.mem_cons, List.not_mem_nil, or_false] at hr
        rcases hr with rfl | rfl | rfl
        · rw [h6, ha']
        · exact hn
        · rw [h7, hc])
    refine ⟨f, ?_, hform⟩
    rw [← hf, h4, h5]
    exact hst.2.symm

/-- C59: m_0008 stores for every combination the form that was stored for it before, and keeps the forms as a multiset. -/
theorem C59_reorders (t : WordType) (d : WordData) (hd : InLayout layoutBefore8 t d) :
    ∃ d', M0008.migrate d = .ok d' ∧ InLayout layoutBefore9 t d' ∧ d'.properties = d.properties ∧ d'.forms.Perm d.forms ∧
      ∀ m, stored (layoutBefore9 t) d'.forms m = stored (layoutBefore8 t) d.forms m := by
  refine ⟨_, migrateWith_spec (src := id) (new8 t) (plan8 t) (source8_mem t) hd, ⟨hd.type, by simp, hd.properties⟩, rfl, ?_, ?_⟩
  · have h1 : d.forms = (layoutBefore8 t).map fun m => d.forms.getD ((layoutBefore8 t).idxOf m) [] := by
      apply List.ext_getElem
      · simp [hd.forms]
      · intro i h3 h4
        simp only [List.getElem_map]
        rw [(layout8_nodup t).idxOf_getElem]
        simp [List.getD, h3]
    conv => rhs; rw [h1]
    exact (layout8_perm t).map _
  · intro m
    by_cases hm : m ∈ layoutBefore9 t
    · exact stored_migrated (src := id) hd.forms (source8_mem t) hm
    · rw [stored_not_mem (by simp) hm, stored_not_mem hd.forms (fun h => hm ((layout8_perm t).mem_iff.mpr h))]

/-- C59: every combination of one layout is a combination of the other. -/
theorem C59_same_combinations (t : WordType) : (layoutBefore9 t).Perm (layoutBefore8 t) ∧ (layoutBefore8 t).Nodup :=
  ⟨layout8_perm t, layout8_nodup t⟩

/-- C60: m_0007, m_0008 and m_0009 in order succeed on every word in the layout of m_0007 and give a loadable word with the
same type and properties. -/
theorem C60_compose (t : WordType) (d : WordData) (hd : InLayout layoutBefore7 t d) :
    ∃ d1 d2 d3 w, M0007.migrate d = .ok d1 ∧ M0008.migrate d1 = .ok d2 ∧ M0009.migrate d2 = .ok d3 ∧
      d3.type = d.type ∧ d3.properties = d.properties ∧ Word.deserialize d3 = .ok w ∧ Accepted w ∧ w.type = t := by
  have h1 := migrateWith_spec (new7 t) (plan7 t) (source7_mem t) hd
  obtain ⟨d2, h2, hd2, hp2, _, _⟩ := C59_reorders t
    { d with forms := (layoutBefore8 t).map fun m => d.forms.getD ((layoutBefore7 t).idxOf (source7 t m)) [] }
    ⟨hd.type, by simp, hd.properties⟩
  obtain ⟨d3, w, h3, ht3, hp3, _, hw, ha, hwt, _⟩ := C58_loadable t d2 hd2
  exact ⟨_, d2, d3, w, h1, h2, h3, by rw [ht3, hd2.type, hd.type], by rw [hp3, hp2], hw, ha, hwt⟩

/-- C60: if the word is neither a pronoun nor a participle, then after all three migrations the library spells it, for every
combination but the comparative, as it was spelled before. -/
theorem C60_meaning (t : WordType) (d : WordData) (hd : InLayout layoutBefore7 t d) (h1 : t ≠ .PRONOUN) (h2 : t ≠ .PARTICIPLE) :
    ∃ d1 d2 d3 w, M0007.migrate d = .ok d1 ∧ M0008.migrate d1 = .ok d2 ∧ M0009.migrate d2 = .ok d3 ∧
      Word.deserialize d3 = .ok w ∧
      ∀ p m, WFProps p → m ∈ layoutNow t → m ≠ [.ADJECTIVE_FORM_FULL, .GRADE_COMPARATIVE] →
        (∀ r ∈ m, effective w p r.group = some r) →
        ∃ f, stored (layoutBefore7 t) d.forms m = some f ∧ w.form p = .ok f := by
  have hm1 := migrateWith_spec (new7 t) (plan7 t) (source7_mem t) hd
  obtain ⟨d2, hm2, hd2, hp2, _, hs2⟩ := C59_reorders t
    { d with forms := (layoutBefore8 t).map fun m => d.forms.getD ((layoutBefore7 t).idxOf (source7 t m)) [] }
    ⟨hd.type, by simp, hd.properties⟩
  obtain ⟨d3, w, hm3, ht3, hp3, hf3, hw, ha, hwt, hwf⟩ := C58_loadable t d2 hd2
  refine ⟨_, d2, d3, w, hm1, hm2, hm3, hw, ?_⟩
  intro p m hp hm hne he
  obtain ⟨f, hf, hform⟩ := C02_form_for_combination w p m ha hp (by rw [hwt]; exact hm) he
  refine ⟨f, ?_, hform⟩
  rw [← hf, hwt, hwf, hf3 h1]
  have h9 : layoutBefore9 t = layoutNow t := by cases t <;> first | rfl | exact absurd rfl h1
  rw [← h9] at hm ⊢
  rw [hs2 m]
  have hm8 := (layout8_perm t).mem_iff.mp hm
  have := stored_migrated hd.forms (source7_mem t) hm8
  simp only at this ⊢
  rw [this]
  have : source7 t m = m := by
    cases t <;> first | rfl | exact absurd rfl h2 | skip
    show (if _ then _ else m) = m
    rw [if_neg hne]
  rw [this]

/-- C70: m_0007 keeps the form of every combination of a word that is not a participle, except for the comparative. -/
theorem C70_partial (t : WordType) (d : WordData) (hd : InLayout layoutBefore7 t d) (h : t ≠ .PARTICIPLE) :
    ∃ d', M0007.migrate d = .ok d' ∧ InLayout layoutBefore8 t d' ∧
      ∀ m ∈ layoutBefore8 t, m ≠ [.ADJECTIVE_FORM_FULL, .GRADE_COMPARATIVE] →
        stored (layoutBefore8 t) d'.forms m = stored (layoutBefore7 t) d.forms m := by
  refine ⟨_, migrateWith_spec (new7 t) (plan7 t) (source7_mem t) hd, ⟨hd.type, by simp, hd.properties⟩, ?_⟩
  intro m hm hne
  have := stored_migrated hd.forms (source7_mem t) hm
  simp only at this ⊢
  rw [this]
  have : source7 t m = m := by
    cases t <;> first | rfl | exact absurd rfl h | skip
    show (if _ then _ else m) = m
    rw [if_neg hne]
  rw [this]

/-- C70 (violated for comparatives): the comparative of every migrated adjective is its old plural short form. -/
theorem C70_comparative_violated (d : WordData) (hd : InLayout layoutBefore7 .ADJECTIVE d) :
    ∃ d', M0007.migrate d = .ok d' ∧
      stored (layoutBefore8 .ADJECTIVE) d'.forms [.ADJECTIVE_FORM_FULL, .GRADE_COMPARATIVE] =
        stored (layoutBefore7 .ADJECTIVE) d.forms [.ADJECTIVE_FORM_SHORT, .NUMBER_PLURAL] := by
  refine ⟨_, migrateWith_spec (new7 _) (plan7 _) (source7_mem _) hd, ?_⟩
  exact stored_migrated hd.forms (source7_mem _) (m := [.ADJECTIVE_FORM_FULL, .GRADE_COMPARATIVE]) (by decide +kernel)

/-- C71 (violated for the direct voice): every full form of a migrated participle is its old form of the reverse voice. -/
theorem C71_voice_violated (d : WordData) (hd : InLayout layoutBefore7 .PARTICIPLE d) :
    ∃ d', M0007.migrate d = .ok d' ∧ ∀ m, .PARTICIPLE_FORM_FULL :: m ∈ layoutBefore8 .PARTICIPLE →
      stored (layoutBefore8 .PARTICIPLE) d'.forms (.PARTICIPLE_FORM_FULL :: m) =
        stored (layoutBefore7 .PARTICIPLE) d.forms (.PARTICIPLE_FORM_FULL :: m ++ [.VOICE_REVERSE]) := by
  refine ⟨_, migrateWith_spec (new7 _) (plan7 _) (source7_mem _) hd, ?_⟩
  intro m hm
  exact stored_migrated hd.forms (source7_mem _) hm

/-- C71: the forms of the direct voice leave no trace: two participles that differ only in them are migrated alike. -/
theorem C71_direct_lost (d e : WordData) (hd : InLayout layoutBefore7 .PARTICIPLE d) (he : InLayout layoutBefore7 .PARTICIPLE e)
    (hp : d.properties = e.properties)
    (h : ∀ m ∈ layoutBefore7 .PARTICIPLE, .VOICE_DIRECT ∉ m →
      stored (layoutBefore7 .PARTICIPLE) d.forms m = stored (layoutBefore7 .PARTICIPLE) e.forms m) :
    M0007.migrate d = M0007.migrate e := by
  unfold M0007.migrate
  rw [migrateWith_spec (new7 _) (plan7 _) (source7_mem _) hd, migrateWith_spec (new7 _) (plan7 _) (source7_mem _) he]
  congr 1
  have ht : d.type = e.type := by rw [hd.type, he.type]
  rw [WordData.mk.injEq]
  refine ⟨ht, ?_, hp⟩
  apply List.map_congr_left
  intro m hm
  have h1 := source7_mem _ m hm
  have h2 := h _ h1 (by clear h1; revert m; decide +kernel)
  rw [stored_mem hd.forms h1, stored_mem he.forms h1] at h2
  injection h2

/-- C71: short forms of participles are kept. -/
theorem C71_short_partial (d : WordData) (hd : InLayout layoutBefore7 .PARTICIPLE d) :
    ∃ d', M0007.migrate d = .ok d' ∧ ∀ m ∈ shortForms .PARTICIPLE_FORM_SHORT,
      stored (layoutBefore8 .PARTICIPLE) d'.forms m = stored (layoutBefore7 .PARTICIPLE) d.forms m := by
  refine ⟨_, migrateWith_spec (new7 _) (plan7 _) (source7_mem _) hd, ?_⟩
  intro m hm
  have h1 : m ∈ layoutBefore8 .PARTICIPLE := by revert m; decide +kernel
  have h2 : source7 .PARTICIPLE m = m := by clear h1; revert m; decide +kernel
  have := stored_migrated hd.forms (source7_mem _) h1
  rw [h2] at this
  exact this

example : InLayout layoutBefore9 .PRONOUN (exOld layoutBefore9 .PRONOUN) ∧
    InLayout layoutBefore8 .ADJECTIVE (exOld layoutBefore8 .ADJECTIVE) ∧
    InLayout layoutBefore7 .PARTICIPLE (exOld layoutBefore7 .PARTICIPLE) :=
  ⟨exOld_inLayout _ _, exOld_inLayout _ _, exOld_inLayout _ _⟩

example : (M0009.migrate (exOld layoutBefore9 .PRONOUN)).map (fun d => d.forms.take 4) =
    .ok [str! "6", str! "7", str! "8", str! "15"] := by decide +kernel

end Utg
