import Verif.Props.OldMigrations
import Verif.Props.Migrations
import Verif.Props.Autofill
/-!
# C110: migrations between any two layouts

m_0003 and m_0006 cannot be imported any more (C62), so what is proved here about their functions is for any table: also the one they
would have if the removed verb form came back.
-/

namespace Utg
open Py Spec

theorem moves_any (near : Key → Except PyErr Nat) (g : Key → Nat) (forms : List Str) (es : List (Key × Nat)) (acc : List Str)
    (hn : ∀ e ∈ es, near e.1 = .ok (g e.1) ∧ g e.1 < forms.length) (hd : (es.map Prod.snd).Nodup) (hb : ∀ e ∈ es, e.2 < acc.length) :
    ∃ res, es.foldlM (fun newForms e => do moveForm forms newForms e.2 (← near e.1)) acc = .ok res ∧ res.length = acc.length ∧
      (∀ e ∈ es, res[e.2]? = forms[g e.1]?) ∧ ∀ i, i ∉ es.map Prod.snd → res[i]? = acc[i]? := by
  induction es generalizing acc with
  | nil => exact ⟨acc, rfl, rfl, by simp, by simp⟩
  | cons e es ih =>
    obtain ⟨h1, h2⟩ := hn e (by simp)
    have hb1 := hb e (by simp)
    simp only [List.map_cons, List.nodup_cons] at hd
    have hm : moveForm forms acc e.2 (g e.1) = .ok (acc.set e.2 forms[g e.1]) := by
      unfold moveForm
      rw [List.getElem?_eq_getElem h2]
      simp [hb1]
    obtain ⟨res, r1, r2, r3, r4⟩ := ih (acc.set e.2 forms[g e.1]) (fun e' he' => hn e' (by simp [he'])) hd.2
      (fun e' he' => by simpa using hb e' (by simp [he']))
    refine ⟨res, ?_, by simpa using r2, ?_, ?_⟩
    · rw [List.foldlM_cons, h1]
      simp only [bind, Except.bind] at r1 ⊢
      rw [hm]
      exact r1
    · intro e' he'
      rcases List.mem_cons.mp he' with rfl | he'
      · rw [r4 _ hd.1, List.getElem?_set_self hb1, List.getElem?_eq_getElem h2]
      · exact r3 e' he'
    · intro i hi
      simp only [List.map_cons, List.mem_cons, not_or] at hi
      rw [r4 i hi.2, List.getElem?_set_ne (Ne.symm hi.1)]

/-- C110: between any two tables of slots, the functions of m_0003, m_0006, m_0007, m_0008 and m_0009 give one form for every slot of
the new table: the form of an old slot that agrees with it in the most properties and, among these, in the ones with the largest sum of
positions; and the form of the same slot, if the old table has it. -/
theorem C110_any_tables (old new : Dict Key Nat) (forms : List Str) (hne : old ≠ []) (hkeys : old.keys.Nodup)
    (hold : ∀ e ∈ old, e.2 < forms.length) (hnew : (new.map Prod.snd).Perm (List.range new.length))
    (hlen : ∀ e ∈ new, e.1.length ≤ 13) :
    ∃ forms', migrateForms old new forms = .ok forms' ∧ forms'.length = new.length ∧
      ∀ e ∈ new, ∃ o ∈ old, forms'[e.2]? = forms[o.2]? ∧
        (∀ o' ∈ old, (matchedPositions e.1 o'.1).length < (matchedPositions e.1 o.1).length ∨
          (matchedPositions e.1 o'.1).length = (matchedPositions e.1 o.1).length ∧
          (matchedPositions e.1 o'.1).sum ≤ (matchedPositions e.1 o.1).sum) ∧
        ((∀ o' ∈ old, o'.1.length = e.1.length) → ∀ o' ∈ old, o'.1 = e.1 → o' = o) := by
  have hk : old.keys ≠ [] := by simpa [Dict.keys] using hne
  have huniq : ∀ a ∈ old, ∀ b ∈ old, a.1 = b.1 → a = b := by
    intro a ha b hb hab
    exact List.inj_on_of_nodup_map hkeys ha hb hab
  have hget : ∀ o ∈ old, old.get? o.1 = some o.2 := by
    intro o ho
    obtain ⟨v, hv⟩ : ∃ v, old.get? o.1 = some v := by
      cases hg : old.get? o.1 with
      | some v => exact ⟨v, rfl⟩
      | none =>
        exfalso
        have : ∀ (d : Dict Key Nat) (k : Key), d.get? k = none → ∀ x ∈ d, x.1 ≠ k := by
          intro d k
          induction d with
          | nil => simp
          | cons a d ih =>
            intro h
            simp only [Dict.get?] at h
            split at h
            · cases h
            · rename_i hne
              intro x hx
              rcases List.mem_cons.mp hx with rfl | hx
              · exact hne
              · exact ih h x hx
        exact this old o.1 hg o ho rfl
    have := huniq _ (Dict.mem_of_get? hv) _ ho rfl
    rw [hv, ← this]
  have hnear : ∀ k : Key, ∃ b o, getNearestKey k old.keys = some b ∧ o ∈ old ∧ o.1 = b ∧ getNearestOldIndex k old = .ok o.2 := by
    intro k
    cases hb : getNearestKey k old.keys with
    | none => exact absurd ((C23_argmax k old.keys).1.mp hb) hk
    | some b =>
      have hm := getNearestKey_mem hb
      simp only [Dict.keys, List.mem_map] at hm
      obtain ⟨o, ho, rfl⟩ := hm
      refine ⟨o.1, o, rfl, ho, rfl, ?_⟩
      unfold getNearestOldIndex
      rw [hb]
      simp only [hget o ho]
  choose b o h1 h2 h3 h4 using hnear
  obtain ⟨res, r1, r2, r3, -⟩ := moves_any (getNearestOldIndex · old) (fun k => (o k).2) forms new (List.replicate new.length [])
    (fun e _ => ⟨h4 e.1, hold _ (h2 e.1)⟩) (hnew.nodup_iff.mpr List.nodup_range) (fun e he => by
      have : e.2 ∈ List.range new.length := hnew.subset (List.mem_map_of_mem he)
      simpa using this)
  refine ⟨res, r1, by simpa using r2, fun e he => ⟨o e.1, h2 e.1, r3 e he, ?_, ?_⟩⟩
  · intro o' ho'
    have := C24_more_matches_win e.1 (b e.1) old.keys (hlen e he) (h1 e.1) o'.1 (List.mem_map_of_mem ho')
    rw [h3]
    exact this
  · intro hl o' ho' hoe
    have hs : getNearestKey e.1 old.keys = some e.1 := C23_available_key e.1 old.keys (by have := hlen e he; omega) (by
      intro a ha
      simp only [Dict.keys, List.mem_map] at ha
      obtain ⟨x, hx, rfl⟩ := ha
      exact hl x hx) (by rw [← hoe]; exact List.mem_map_of_mem ho')
    have : b e.1 = e.1 := by
      have := h1 e.1
      rw [hs] at this
      injection this with this
      exact this.symm
    exact huniq _ ho' _ (h2 e.1) (by rw [hoe, h3, this])

theorem wordsCache_values (t : WordType) : ((wordsCache t).map Prod.snd).Perm (List.range (wordsCache t).length) := by
  have h := wordsCache_zipIdx t
  rw [h]
  simp only [List.length_zipIdx]
  rw [List.zipIdx_map_snd, ← List.range_eq_range']

theorem wordsCache_key_length : ∀ t : WordType, ∀ e ∈ wordsCache t, e.1.length ≤ 13 := by
  intro t; cases t <;> decide +kernel

/-- C110: with any table, m_0003 gives a verb as many forms as verbs have now, each one of its old forms, and the one it had for the
same combination if there was one; other words are left as they are. -/
theorem C110_m0003 (old : Dict Key Nat) (d : WordData) (hne : old ≠ []) (hkeys : old.keys.Nodup) (hold : ∀ e ∈ old, e.2 < d.forms.length) :
    (d.type ≠ (WordType.VERB.value : Int) → M0003.migrateFrom old d = .ok d) ∧
    (d.type = (WordType.VERB.value : Int) → ∃ forms, M0003.migrateFrom old d = .ok { d with forms := forms } ∧
      forms.length = slotCount .VERB ∧ (∀ f ∈ forms, f ∈ d.forms) ∧
      ((∀ o ∈ old, o.1.length = 5) → ∀ k i j, (wordsCache .VERB).get? k = some i → old.get? k = some j → forms[i]? = d.forms[j]?)) := by
  constructor
  · intro h
    unfold M0003.migrateFrom
    rw [if_neg (by exact h)]
  · intro h
    obtain ⟨forms, f1, f2, f3⟩ := C110_any_tables old (wordsCache .VERB) d.forms hne hkeys hold (wordsCache_values _) (wordsCache_key_length _)
    refine ⟨forms, ?_, ?_, ?_, ?_⟩
    · unfold M0003.migrateFrom
      rw [if_pos (by exact h), f1]
      rfl
    · rw [f2]; decide +kernel
    · intro f hf
      obtain ⟨i, hi⟩ := List.getElem?_of_mem hf
      have hlt := (List.getElem?_eq_some_iff.mp hi).1
      have hm : i ∈ (wordsCache .VERB).map Prod.snd := (wordsCache_values .VERB).symm.subset (by simpa [← f2] using hlt)
      obtain ⟨e, he, rfl⟩ := List.mem_map.mp hm
      obtain ⟨o, -, ho, -⟩ := f3 e he
      rw [hi] at ho
      exact List.mem_of_getElem? ho.symm
    · intro hl k i j hk hj
      obtain ⟨o, ho, e1, -, e2⟩ := f3 (k, i) (Dict.mem_of_get? hk)
      have hk5 : k.length = 5 := by
        have : ∀ e ∈ wordsCache .VERB, e.1.length = 5 := by decide +kernel
        exact this _ (Dict.mem_of_get? hk)
      have := e2 (fun o' ho' => by rw [hl o' ho', hk5]) (k, j) (Dict.mem_of_get? hj) rfl
      rw [e1, ← this]

/-- C110: with any tables, m_0006 gives a word of a known type as many forms as its type has now, each one of its old forms, and the one
it had for the same combination if there was one; data with another type are refused. -/
theorem C110_m0006 (old : WordType → Dict Key Nat) (d : WordData) :
    ((∀ t : WordType, d.type ≠ (t.value : Int)) → M0006.migrateFrom old d = .error (.RelsLookupError d.type)) ∧
    ∀ t : WordType, d.type = (t.value : Int) → old t ≠ [] → (old t).keys.Nodup → (∀ e ∈ old t, e.2 < d.forms.length) →
      ∃ forms, M0006.migrateFrom old d = .ok { d with forms := forms } ∧ forms.length = slotCount t ∧ (∀ f ∈ forms, f ∈ d.forms) ∧
      ((∀ o ∈ old t, ∀ e ∈ wordsCache t, o.1.length = e.1.length) →
        ∀ k i j, (wordsCache t).get? k = some i → (old t).get? k = some j → forms[i]? = d.forms[j]?) := by
  constructor
  · intro h
    unfold M0006.migrateFrom migrateWith
    cases ht : wordTypeOfValue d.type with
    | none => rfl
    | some t =>
      have : (t.value : Int) = d.type := by simpa using List.find?_some ht
      exact absurd this.symm (h t)
  · intro t h hne hkeys hold
    obtain ⟨forms, f1, f2, f3⟩ := C110_any_tables (old t) (wordsCache t) d.forms hne hkeys hold (wordsCache_values _) (wordsCache_key_length _)
    refine ⟨forms, ?_, ?_, ?_, ?_⟩
    · unfold M0006.migrateFrom migrateWith
      rw [h, wordTypeOfValue_value]
      simp only [f1]
      rfl
    · rw [f2]; cases t <;> decide +kernel
    · intro f hf
      obtain ⟨i, hi⟩ := List.getElem?_of_mem hf
      have hlt := (List.getElem?_eq_some_iff.mp hi).1
      have hm : i ∈ (wordsCache t).map Prod.snd := (wordsCache_values t).symm.subset (by simpa [← f2] using hlt)
      obtain ⟨e, he, rfl⟩ := List.mem_map.mp hm
      obtain ⟨o, -, ho, -⟩ := f3 e he
      rw [hi] at ho
      exact List.mem_of_getElem? ho.symm
    · intro hl k i j hk hj
      obtain ⟨o, ho, e1, -, e2⟩ := f3 (k, i) (Dict.mem_of_get? hk)
      have := e2 (fun o' ho' => hl o' ho' _ (Dict.mem_of_get? hk)) (k, j) (Dict.mem_of_get? hj) rfl
      rw [e1, ← this]

/-- The table of m_0003 without the items that name the removed verb form. -/
def exOldVerb : Dict Key Nat := M0003.oldVerb.filterMap fun e => match evalKey e.1 with
  | .ok k => some (k, e.2)
  | .error _ => none

/-- C110 applies to this table. -/
example : exOldVerb ≠ [] ∧ exOldVerb.keys.Nodup ∧ (∀ e ∈ exOldVerb, e.2 < 50) ∧ (∀ o ∈ exOldVerb, o.1.length = 5) := by
  decide +kernel

/-- The tables of m_0006 without these items. -/
def exOldTables (t : WordType) : Dict Key Nat := (M0006.oldCaches t).filterMap fun e => match evalKey e.1 with
  | .ok k => some (k, e.2)
  | .error _ => none

/-- C110 applies to these tables. -/
example : exOldTables .NOUN ≠ [] ∧ (exOldTables .NOUN).keys.Nodup ∧ (∀ e ∈ exOldTables .NOUN, e.2 < 18) ∧
    ∀ o ∈ exOldTables .NOUN, ∀ e ∈ wordsCache .NOUN, o.1.length = e.1.length := by
  decide +kernel

/-! ## C111: the whole chain -/

theorem source_oldForm (t : WordType) : ∀ m ∈ layoutNow t, source7 t (source9 t m) = oldForm t m := by cases t <;> decide +kernel

theorem deserialize_properties {d : WordData} {w : Word} (h : Word.deserialize d = .ok w) :
    Properties.deserialize d.properties = .ok w.properties := by
  unfold Word.deserialize at h
  split at h
  · cases h
  · simp only [bind, Except.bind] at h
    split at h
    · cases h
    · rename_i p hp
      unfold Word.new at h
      split at h
      · cases h
      · injection h with h; rw [hp, ← h]

/-- C111: after m_0007, m_0008 and m_0009 every word saved before m_0007 can be loaded, with its type and properties, and what the library
spells for any combination of properties of its type is exactly the old form that `oldForm` names. -/
theorem C111_chain (t : WordType) (d : WordData) (hd : InLayout layoutBefore7 t d) :
    ∃ d1 d2 d3 w, M0007.migrate d = .ok d1 ∧ M0008.migrate d1 = .ok d2 ∧ M0009.migrate d2 = .ok d3 ∧ Word.deserialize d3 = .ok w ∧
      Accepted w ∧ w.type = t ∧ Properties.deserialize d.properties = .ok w.properties ∧
      (∀ m ∈ layoutNow t, ∃ f, stored (layoutNow t) w.forms m = some f ∧ stored (layoutBefore7 t) d.forms (oldForm t m) = some f) ∧
      ∀ p m, WFProps p → m ∈ layoutNow t → (∀ r ∈ m, effective w p r.group = some r) →
        ∃ f, stored (layoutBefore7 t) d.forms (oldForm t m) = some f ∧ w.form p = .ok f := by
  have hm1 := migrateWith_spec (new7 t) (plan7 t) (source7_mem t) hd
  obtain ⟨d2, hm2, hd2, hp2, _, hs2⟩ := C59_reorders t
    { d with forms := (layoutBefore8 t).map fun m => d.forms.getD ((layoutBefore7 t).idxOf (source7 t m)) [] }
    ⟨hd.type, by simp, hd.properties⟩
  obtain ⟨d3, w, hm3, ht3, hp3, hf3, hw, ha, hwt, hwf⟩ := C58_loadable t d2 hd2
  have hst : ∀ m ∈ layoutNow t, ∃ f, stored (layoutNow t) w.forms m = some f ∧ stored (layoutBefore7 t) d.forms (oldForm t m) = some f := by
    intro m hm
    have h9 := migrateWith_spec (new9 t) (plan9 t) (source9_mem t) hd2
    have h9' : M0009.migrate d2 = _ := h9
    rw [hm3] at h9'
    injection h9' with h9'
    have e1 := stored_migrated hd2.forms (source9_mem t) hm
    have e2 := hs2 (source9 t m)
    have hm8 := (layout8_perm t).mem_iff.mp (source9_mem t m hm)
    have e3 := stored_migrated hd.forms (source7_mem t) hm8
    simp only at e2 e3
    rw [e3] at e2
    rw [e2, source_oldForm t m hm] at e1
    have hmem : oldForm t m ∈ layoutBefore7 t := by
      rw [← source_oldForm t m hm]; exact source7_mem t _ hm8
    refine ⟨_, ?_, stored_mem hd.forms hmem⟩
    rw [← stored_mem hd.forms hmem, ← e1, hwf, h9']
  refine ⟨_, d2, d3, w, hm1, hm2, hm3, hw, ha, hwt, ?_, hst, ?_⟩
  · have := deserialize_properties hw
    rw [hp3, hp2] at this
    exact this
  · intro p m hp hm he
    obtain ⟨f, hf, hform⟩ := C02_form_for_combination w p m ha hp (by rw [hwt]; exact hm) he
    obtain ⟨f', h1, h2⟩ := hst m hm
    rw [hwt] at hf
    rw [hf] at h1
    injection h1 with h1
    subst h1
    exact ⟨f, h2, hform⟩

/-- C111 applies: there are such words of every type. -/
example (t : WordType) : InLayout layoutBefore7 t (exOld layoutBefore7 t) := exOld_inLayout _ _

end Utg
