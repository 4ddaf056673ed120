import Verif.Spec.Rerun
import Verif.Props.Migrations
import Verif.Props.OldMigrations
/-! # Property C119: running a migration again, as after a crash -/

namespace Utg
open Py Spec

theorem moves_error (near : Key → Except PyErr Nat) (fs : List Str) (ks : List Key) (plan : List Nat)
    (h : List.Forall₂ (fun k i => near k = .ok i) ks plan) (hb : ∃ i ∈ plan, fs.length ≤ i) (rs : List Str) :
    (ks.zipIdx rs.length).foldlM
      (fun newForms e => do moveForm fs newForms e.2 (← near e.1)) (rs ++ List.replicate ks.length [])
      = .error .IndexError := by
  induction h generalizing rs with
  | nil => obtain ⟨i, hi, _⟩ := hb; simp at hi
  | @cons k i ks plan hk hrest ih =>
    rw [List.zipIdx_cons, List.foldlM_cons]
    simp only [hk]
    by_cases hi : i < fs.length
    · have hm : moveForm fs (rs ++ List.replicate (k :: ks).length []) rs.length i
          = .ok ((rs ++ [fs.getD i []]) ++ List.replicate ks.length []) := by
        unfold moveForm
        rw [List.getElem?_eq_getElem hi]
        simp only [List.length_append, List.length_replicate, List.length_cons]
        rw [if_pos (by omega)]
        simp [List.replicate_succ, hi]
      have hb' : ∃ i ∈ plan, fs.length ≤ i := by
        obtain ⟨j, hj, hle⟩ := hb
        rcases List.mem_cons.mp hj with rfl | hj
        · omega
        · exact ⟨j, hj, hle⟩
      have := ih hb' (rs ++ [fs.getD i []])
      simp only [List.length_append, List.length_cons, List.length_nil] at this
      simp only [bind, Except.bind] at this ⊢
      rw [hm]
      simp only [this]
    · have hm : moveForm fs (rs ++ List.replicate (k :: ks).length []) rs.length i = .error .IndexError := by
        unfold moveForm
        rw [List.getElem?_eq_none (by omega)]
      simp only [bind, Except.bind]
      rw [hm]

theorem moves_plan_error {near : Key → Except PyErr Nat} {new : Dict Key Nat} {fs : List Str} {plan : List Nat}
    (hnew : new = new.keys.zipIdx) (hplan : new.keys.mapM near = .ok plan) (hb : ∃ i ∈ plan, fs.length ≤ i) :
    new.foldlM (fun newForms e => do moveForm fs newForms e.2 (← near e.1)) (List.replicate new.length []) = .error .IndexError := by
  have := moves_error near fs new.keys plan (forall₂_of_mapM hplan) hb []
  simp only [List.length_nil, List.nil_append] at this
  rw [← this]
  have hl : new.length = new.keys.length := by simp [Dict.keys]
  rw [hl, ← hnew]

theorem migrateWith_error {old new : WordType → Dict Key Nat} {t : WordType} {d : WordData} {plan : List Nat}
    (hnew : new t = (new t).keys.zipIdx) (hplan : (new t).keys.mapM (getNearestOldIndex · (old t)) = .ok plan)
    (ht : d.type = t.value) (hb : ∃ i ∈ plan, d.forms.length ≤ i) : migrateWith old new d = .error .IndexError := by
  unfold migrateWith
  rw [ht, wordTypeOfValue_value]
  simp only
  have : migrateForms (old t) (new t) d.forms = .error .IndexError := moves_plan_error hnew hplan hb
  rw [this]
  rfl

theorem map_getD_range (fs : List Str) : (List.range fs.length).map (fun i => fs.getD i []) = fs := by
  apply List.ext_getElem
  · simp
  · intro i h1 h2
    simp at h1
    simp [List.getD, h2]

theorem migrateWith_same {old new : WordType → Dict Key Nat} {t : WordType} {d : WordData}
    (hnew : new t = (new t).keys.zipIdx) (hplan : (new t).keys.mapM (getNearestOldIndex · (old t)) = .ok (List.range d.forms.length))
    (ht : d.type = t.value) : migrateWith old new d = .ok d := by
  unfold migrateWith
  rw [ht, wordTypeOfValue_value]
  simp only
  rw [migrateForms_plan hnew hplan (by simp), map_getD_range, ← ht]
  rfl

instance : DecidablePred Reduced := fun t => by unfold Reduced; infer_instance

theorem plan7_kinds (t : WordType) :
    (¬ Reduced t → ((layoutBefore8 t).map fun m => (layoutBefore7 t).idxOf (source7 t m)) = List.range (layoutBefore8 t).length) ∧
    (Reduced t → ∃ i ∈ (layoutBefore8 t).map fun m => (layoutBefore7 t).idxOf (source7 t m), (layoutBefore8 t).length ≤ i) ∧
    (¬ Reduced t → t ≠ .PRONOUN → (layoutNow t).length = (layoutBefore8 t).length) ∧
    (Reduced t ∨ t = .PRONOUN →
      ∃ i ∈ (layoutBefore8 t).map fun m => (layoutBefore7 t).idxOf (source7 t m), (layoutNow t).length ≤ i) := by
  cases t <;> decide +kernel

theorem plan8_kinds (t : WordType) :
    (t ≠ .ADJECTIVE → t ≠ .PARTICIPLE →
      ((layoutBefore9 t).map fun m => (layoutBefore8 t).idxOf m) = List.range (layoutBefore9 t).length) ∧
    (layoutBefore9 t).length = (layoutBefore8 t).length := by
  cases t <;> decide +kernel

theorem plan9_kinds (t : WordType) :
    (t ≠ .PRONOUN → ((layoutNow t).map fun m => (layoutBefore9 t).idxOf (source9 t m)) = List.range (layoutNow t).length) ∧
    (t = .PRONOUN → ∃ i ∈ (layoutNow t).map fun m => (layoutBefore9 t).idxOf (source9 t m), (layoutNow t).length ≤ i) := by
  cases t <;> decide +kernel

/-- C119: m_0007 run again on a word it has migrated raises `IndexError` if it had reduced its slots, and changes nothing otherwise. -/
theorem C119_m0007_again (t : WordType) (d d1 : WordData) (hd : InLayout layoutBefore7 t d) (h : M0007.migrate d = .ok d1) :
    (Reduced t → M0007.migrate d1 = .error .IndexError) ∧ (¬ Reduced t → M0007.migrate d1 = .ok d1) := by
  have hm := migrateWith_spec (new7 t) (plan7 t) (source7_mem t) hd
  have e : d1 = _ := Except.ok.inj (h.symm.trans hm)
  have hl : d1.forms.length = (layoutBefore8 t).length := by rw [e]; simp
  have ht : d1.type = t.value := by rw [e]; exact hd.type
  obtain ⟨a, b, _, _⟩ := plan7_kinds t
  refine ⟨fun hr => ?_, fun hr => ?_⟩
  · exact migrateWith_error (new7 t) (plan7 t) ht (by rw [hl]; exact b hr)
  · exact migrateWith_same (new7 t) (by rw [plan7, a hr, hl]) ht

/-- C119: m_0009 run again raises `IndexError` for a pronoun and changes nothing otherwise. -/
theorem C119_m0009_again (t : WordType) (d d1 : WordData) (hd : InLayout layoutBefore9 t d) (h : M0009.migrate d = .ok d1) :
    (t = .PRONOUN → M0009.migrate d1 = .error .IndexError) ∧ (t ≠ .PRONOUN → M0009.migrate d1 = .ok d1) := by
  have hm := migrateWith_spec (new9 t) (plan9 t) (source9_mem t) hd
  have e : d1 = _ := Except.ok.inj (h.symm.trans hm)
  have hl : d1.forms.length = (layoutNow t).length := by rw [e]; simp
  have ht : d1.type = t.value := by rw [e]; exact hd.type
  obtain ⟨a, b⟩ := plan9_kinds t
  refine ⟨fun hr => ?_, fun hr => ?_⟩
  · exact migrateWith_error (new9 t) (plan9 t) ht (by rw [hl]; exact b hr)
  · exact migrateWith_same (new9 t) (by rw [plan9, a hr, hl]) ht

theorem again8 {t : WordType} {d d1 : WordData} (hd : InLayout layoutBefore8 t d) (h : M0008.migrate d = .ok d1) :
    InLayout layoutBefore8 t d1 ∧ d1.forms.Perm d.forms := by
  obtain ⟨d', h1, h2, _, h4, _⟩ := C59_reorders t d hd
  rw [h] at h1; injection h1 with h1; subst h1
  exact ⟨⟨h2.type, h2.forms.trans (plan8_kinds t).2, h2.properties⟩, h4⟩

/-- C119: m_0008 run again never raises. It changes nothing unless the word is an adjective or a participle; of these it moves the forms
again as if they were still in the old order, and so always spoils a word with different forms. -/
theorem C119_m0008_again (t : WordType) (d d1 : WordData) (hd : InLayout layoutBefore8 t d) (h : M0008.migrate d = .ok d1) :
    (t ≠ .ADJECTIVE → t ≠ .PARTICIPLE → M0008.migrate d1 = .ok d1) ∧
    ∃ d2, M0008.migrate d1 = .ok d2 ∧ InLayout layoutBefore9 t d2 ∧
      (∀ m, stored (layoutBefore9 t) d2.forms m = stored (layoutBefore8 t) d1.forms m) ∧
      (t = .ADJECTIVE ∨ t = .PARTICIPLE → d.forms.Nodup →
        ∃ m, stored (layoutBefore8 t) d.forms m ≠ stored (layoutBefore9 t) d2.forms m) := by
  obtain ⟨hd1, hperm⟩ := again8 hd h
  obtain ⟨a, hlen⟩ := plan8_kinds t
  refine ⟨fun h1 h2 => migrateWith_same (new8 t) (by rw [plan8, a h1 h2, hd1.forms, hlen]) hd1.type, ?_⟩
  obtain ⟨d2, e1, e2, _, _, e5⟩ := C59_reorders t d1 hd1
  refine ⟨d2, e1, e2, e5, ?_⟩
  intro ht hnd
  have hnd1 : d1.forms.Nodup := hperm.nodup_iff.mpr hnd
  obtain ⟨d', h1, _, _, _, h5⟩ := C59_reorders t d hd
  rw [h] at h1; injection h1 with h1; subst h1
  have hex : ∃ m ∈ layoutBefore9 t, (layoutBefore9 t).idxOf m ≠ (layoutBefore8 t).idxOf m := by
    rcases ht with rfl | rfl <;> decide +kernel
  obtain ⟨m, hm, hne⟩ := hex
  refine ⟨m, ?_⟩
  rw [e5, ← h5]
  have hm8 : m ∈ layoutBefore8 t := source8_mem t m hm
  intro heq
  unfold stored at heq
  have l9 : (layoutBefore9 t).idxOf m < d1.forms.length := by rw [hd1.forms, ← hlen]; exact List.idxOf_lt_length_of_mem hm
  have l8 : (layoutBefore8 t).idxOf m < d1.forms.length := by rw [hd1.forms]; exact List.idxOf_lt_length_of_mem hm8
  rw [List.getElem?_eq_getElem l9, List.getElem?_eq_getElem l8] at heq
  injection heq with heq
  exact hne ((List.Nodup.getElem_inj_iff hnd1).mp heq)

theorem rerun_same {migrate : WordData → Except PyErr WordData} {store : List WordData}
    (h : ∀ d ∈ store, ∀ d1, migrate d = .ok d1 → migrate d1 = .ok d1 ∨ ∃ e, migrate d1 = .error e) (k : Nat) :
    rerunAfterCrash migrate k store = runOver migrate store := by
  unfold rerunAfterCrash runOver
  conv => rhs; rw [← List.take_append_drop k store, List.map_append]
  rw [List.map_append, List.map_map]
  congr 1
  apply List.map_congr_left
  intro d hd
  have hd := List.mem_of_mem_take hd
  simp only [Function.comp_apply]
  cases hm : migrate d with
  | error e => simp only [hm]
  | ok d1 =>
    rcases h d hd d1 hm with h1 | ⟨e, h1⟩ <;> simp only [h1]

/-- C119: wherever a run of m_0007 over saved words was interrupted, running it again from the beginning gives what one run gives. -/
theorem C119_crash_m0007 (store : List WordData) (hs : StoreIn layoutBefore7 store) (k : Nat) :
    rerunAfterCrash M0007.migrate k store = runOver M0007.migrate store := by
  refine rerun_same ?_ k
  intro d hd d1 h
  obtain ⟨t, ht⟩ := hs d hd
  obtain ⟨a, b⟩ := C119_m0007_again t d d1 ht h
  by_cases hr : Reduced t
  · exact Or.inr ⟨_, a hr⟩
  · exact Or.inl (b hr)

/-- C119: the same for m_0009. -/
theorem C119_crash_m0009 (store : List WordData) (hs : StoreIn layoutBefore9 store) (k : Nat) :
    rerunAfterCrash M0009.migrate k store = runOver M0009.migrate store := by
  refine rerun_same ?_ k
  intro d hd d1 h
  obtain ⟨t, ht⟩ := hs d hd
  obtain ⟨a, b⟩ := C119_m0009_again t d d1 ht h
  by_cases hr : t = .PRONOUN
  · exact Or.inr ⟨_, a hr⟩
  · exact Or.inl (b hr)

/-- C119: the same for m_0008 if there are no adjectives and participles among the words migrated before the crash. -/
theorem C119_crash_m0008 (store : List WordData) (hs : StoreIn layoutBefore8 store) (k : Nat)
    (hk : ∀ d ∈ store.take k, d.type ≠ (WordType.ADJECTIVE.value : Int) ∧ d.type ≠ (WordType.PARTICIPLE.value : Int)) :
    rerunAfterCrash M0008.migrate k store = runOver M0008.migrate store := by
  have key := rerun_same (migrate := M0008.migrate) (store := store.take k) (by
    intro d hd d1 h
    obtain ⟨t, ht⟩ := hs d (List.mem_of_mem_take hd)
    obtain ⟨n1, n2⟩ := hk d hd
    rw [ht.type] at n1 n2
    exact Or.inl ((C119_m0008_again t d d1 ht h).1 (fun x => n1 (by rw [x])) (fun x => n2 (by rw [x])))) (store.take k).length
  have e1 : rerunAfterCrash M0008.migrate k store
      = rerunAfterCrash M0008.migrate (store.take k).length (store.take k) ++ runOver M0008.migrate (store.drop k) := by
    unfold rerunAfterCrash
    simp only [runOver, List.map_append, List.take_length, List.drop_length, List.append_nil]
  rw [e1, key]
  unfold runOver
  rw [← List.map_append, List.take_append_drop]

/-- C119: all three migrations for each word before it is saved: this can be repeated wherever it was interrupted. -/
theorem C119_crash_all (store : List WordData) (hs : StoreIn layoutBefore7 store) (k : Nat) :
    rerunAfterCrash (lastThree M0007.migrate M0008.migrate M0009.migrate) k store =
      runOver (lastThree M0007.migrate M0008.migrate M0009.migrate) store := by
  refine rerun_same ?_ k
  intro d hd d3 h
  obtain ⟨t, ht⟩ := hs d hd
  have m7 := migrateWith_spec (new7 t) (plan7 t) (source7_mem t) ht
  have i8 : InLayout layoutBefore8 t { d with forms := (layoutBefore8 t).map fun m => d.forms.getD ((layoutBefore7 t).idxOf (source7 t m)) [] } :=
    ⟨ht.type, by simp, ht.properties⟩
  obtain ⟨d2, m8, i9, p8, _, _⟩ := C59_reorders t _ i8
  have m9 := migrateWith_spec (new9 t) (plan9 t) (source9_mem t) i9
  have e : d3 = { d2 with forms := (layoutNow t).map fun m => d2.forms.getD ((layoutBefore9 t).idxOf (source9 t m)) [] } := by
    have m7' : M0007.migrate d = _ := m7
    have m9' : M0009.migrate d2 = _ := m9
    unfold lastThree at h
    simp only [m7', m8, m9', bind, Except.bind] at h
    exact (Except.ok.inj h).symm
  have hl : d3.forms.length = (layoutNow t).length := by rw [e]; simp
  have hty : d3.type = t.value := by rw [e]; exact i9.type
  obtain ⟨a7, _, c7, e7⟩ := plan7_kinds t
  by_cases hr : Reduced t ∨ t = .PRONOUN
  · right
    refine ⟨.IndexError, ?_⟩
    have : M0007.migrate d3 = .error .IndexError := migrateWith_error (new7 t) (plan7 t) hty (by rw [hl]; exact e7 hr)
    unfold lastThree
    simp only [this, bind, Except.bind]
  · left
    have hr1 : ¬ Reduced t := fun x => hr (Or.inl x)
    have hp : t ≠ .PRONOUN := fun x => hr (Or.inr x)
    have ha : t ≠ .ADJECTIVE := fun x => hr1 (Or.inl x)
    have hq : t ≠ .PARTICIPLE := fun x => hr1 (Or.inr (Or.inr x))
    obtain ⟨a8, l8⟩ := plan8_kinds t
    have h7 : M0007.migrate d3 = .ok d3 := migrateWith_same (new7 t) (by rw [plan7, a7 hr1, hl, c7 hr1 hp]) hty
    have h8 : M0008.migrate d3 = .ok d3 := migrateWith_same (new8 t) (by rw [plan8, a8 ha hq, hl, l8, c7 hr1 hp]) hty
    have h9 : M0009.migrate d3 = .ok d3 := migrateWith_same (new9 t) (by rw [plan9, (plan9_kinds t).1 hp, hl]) hty
    unfold lastThree
    simp only [h7, h8, h9, bind, Except.bind]

/-- C119 does not hold for m_0008: an adjective or participle with different forms that was migrated before the crash is spoiled, and
nothing is raised: the data are in the right layout and can be loaded. -/
theorem C119_m0008_violated (store : List WordData) (k i : Nat) (t : WordType) (d : WordData) (hi : store[i]? = some d) (hk : i < k)
    (ht : t = .ADJECTIVE ∨ t = .PARTICIPLE) (hd : InLayout layoutBefore8 t d) (hn : d.forms.Nodup) :
    ∃ good bad, (runOver M0008.migrate store)[i]? = some good ∧ (rerunAfterCrash M0008.migrate k store)[i]? = some bad ∧
      InLayout layoutBefore9 t bad ∧ ∃ m, stored (layoutBefore9 t) good.forms m = stored (layoutBefore8 t) d.forms m ∧
        stored (layoutBefore9 t) bad.forms m ≠ stored (layoutBefore8 t) d.forms m := by
  obtain ⟨d1, h1, _, _, _, h5⟩ := C59_reorders t d hd
  obtain ⟨_, d2, h2, hl, _, hne⟩ := C119_m0008_again t d d1 hd h1
  obtain ⟨m, hm⟩ := hne ht hn
  refine ⟨d1, d2, ?_, ?_, hl, m, h5 m, Ne.symm hm⟩
  · unfold runOver
    rw [List.getElem?_map, hi]
    simp only [Option.map_some, h1]
  · unfold rerunAfterCrash runOver
    have hlt := (List.getElem?_eq_some_iff.mp hi).1
    rw [List.getElem?_map, List.getElem?_append_left (by simp; omega), List.getElem?_map, List.getElem?_take_of_lt hk, hi]
    simp only [Option.map_some, h1, h2]

/-- C119: m_0005 can be repeated. -/
theorem C119_m0005_again (d : WordData) : M0005.migrate (M0005.migrate d) = M0005.migrate d := by
  unfold M0005.migrate
  by_cases h : d.type ≠ 4
  · simp only [if_pos h]
  · simp only [if_neg h, List.filter_filter, Bool.and_self]

/-- C119: a preposition migrated by m_0004 again cannot be loaded: the loss is noticed. -/
theorem C119_m0004_again (d d1 : WordData) (h : d.type = (WordType.PREPOSITION.value : Int)) (hf : d.forms.length = 2)
    (h1 : M0004.migrate d = .ok d1) :
    ∃ d2, M0004.migrate d1 = .ok d2 ∧ ∀ w, Word.deserialize d2 ≠ .ok w := by
  have ht : ¬ d.type ≠ 10 := by rw [h]; decide
  unfold M0004.migrate at h1 ⊢
  rw [if_neg ht] at h1
  cases hl : d.forms.getLast? with
  | none => rw [List.getLast?_eq_none_iff] at hl; rw [hl] at hf; simp at hf
  | some f =>
    rw [hl] at h1
    simp only at h1
    injection h1 with h1; subst h1
    refine ⟨{ d with forms := d.forms ++ [f, f] }, by rw [if_neg ht]; simp, ?_⟩
    intro w hw
    unfold Word.deserialize at hw
    simp only [h, wordTypeOfValue_value] at hw
    cases hp : Properties.deserialize d.properties with
    | error e => rw [hp] at hw; simp [bind, Except.bind] at hw
    | ok p =>
      rw [hp] at hw
      simp only [bind, Except.bind, Word.new] at hw
      have h3 : (wordsCache .PREPOSITION).length = 3 := by decide +kernel
      rw [if_pos (by simp [hf, h3])] at hw
      simp at hw

/-- C119: a noun of 12 forms migrated by m_0002 again has too many forms to be loaded. -/
theorem C119_m0002_again (d d1 d2 : M0002.PatchedWordData) (h : d.type = (WordType.NOUN.value : Int)) (hf : d.forms.length = 12)
    (hp : ∀ patch, d.patches.get? 7 = some patch → patch.length = 6) (h1 : M0002.migrate d = .ok d1) (h2 : M0002.migrate d1 = .ok d2) :
    slotCount .NOUN < d2.forms.length := by
  have hs : slotCount .NOUN = 18 := by decide +kernel
  rw [hs]
  have ht : ¬ d.type ≠ 0 := by rw [h]; decide
  unfold M0002.migrate at h1
  rw [if_neg ht] at h1
  by_cases hpa : d.patches ≠ []
  · rw [if_pos hpa] at h1
    cases hg : d.patches.get? 7 with
    | none => rw [hg] at h1; simp at h1
    | some fs =>
      rw [hg] at h1
      injection h1 with h1; subst h1
      unfold M0002.migrate at h2
      simp only [if_neg ht, if_pos hpa, hg] at h2
      injection h2 with h2; subst h2
      have := hp fs hg
      simp [hf, this]
  · rw [if_neg hpa] at h1
    injection h1 with h1; subst h1
    unfold M0002.migrate at h2
    simp only [if_neg ht, if_neg hpa] at h2
    injection h2 with h2; subst h2
    simp [hf]

theorem migrate1_error {old new : Dict Key Nat} {fs : List Str} {plan : List Nat} (hnew : new = new.keys.zipIdx)
    (hplan : new.keys.mapM (M0001.near old) = .ok plan) (hb : ∃ i ∈ plan, fs.length ≤ i) :
    M0001.migrateForms old new fs = .error .IndexError := by
  rw [← moves_plan_error hnew hplan hb]
  unfold M0001.migrateForms
  congr 1
  funext newForms e
  unfold M0001.near
  cases M0001.getNearestOldIndex e.1 old <;> rfl

set_option maxHeartbeats 4000000 in
theorem plan1_participle_far : ∃ plan, (wordsCache .PARTICIPLE).keys.mapM (M0001.near M0001.oldParticiple) = .ok plan ∧
    plan.length = slotCount .PARTICIPLE ∧ (∀ i ∈ plan, i < participleBefore1.length) ∧ ∃ i ∈ plan, slotCount .PARTICIPLE ≤ i := by
  have h : (match (wordsCache .PARTICIPLE).keys.mapM (M0001.near M0001.oldParticiple) with
    | .error _ => false
    | .ok plan => decide (plan.length = slotCount .PARTICIPLE ∧ (∀ i ∈ plan, i < participleBefore1.length) ∧
        ∃ i ∈ plan, slotCount .PARTICIPLE ≤ i)) = true := by decide +kernel
  cases hp : (wordsCache .PARTICIPLE).keys.mapM (M0001.near M0001.oldParticiple) with
  | error e => rw [hp] at h; simp at h
  | ok plan => rw [hp] at h; exact ⟨plan, rfl, of_decide_eq_true h⟩

/-- C119: m_0001 run again raises `IndexError` for adjectives and participles and changes nothing otherwise. -/
theorem C119_m0001_again (d d1 : WordData) (h1 : M0001.migrate d = .ok d1) :
    (d.type = (WordType.ADJECTIVE.value : Int) → d.forms.length = adjectiveBefore1.length → M0001.migrate d1 = .error .IndexError) ∧
    (d.type = (WordType.PARTICIPLE.value : Int) → d.forms.length = participleBefore1.length → M0001.migrate d1 = .error .IndexError) ∧
    (d.type ≠ (WordType.ADJECTIVE.value : Int) → d.type ≠ (WordType.PARTICIPLE.value : Int) → M0001.migrate d1 = .ok d1) := by
  refine ⟨?_, ?_, ?_⟩
  · intro h hl
    obtain ⟨d', f, e1, _, e3⟩ := C62_adjective_violated d h hl
    rw [h1] at e1; injection e1 with e1; subst e1
    have ht : d1.type = 1 := by
      unfold M0001.migrate at h1
      rw [if_pos (by rw [h]; decide)] at h1
      cases hm : M0001.migrateForms M0001.oldAdjective (wordsCache .ADJECTIVE) d.forms with
      | error e => rw [hm] at h1; simp [bind, Except.bind] at h1
      | ok fs => rw [hm] at h1; simp only [bind, Except.bind] at h1; injection h1 with h1; rw [← h1]; exact h
    unfold M0001.migrate
    rw [if_pos ht, migrate1_error (wordsCache_zipIdx _) plan1_adjective]
    · rfl
    · rw [e3, List.length_replicate]; decide +kernel
  · intro h hl
    obtain ⟨plan, hp, hlen, hb, hfar⟩ := plan1_participle_far
    have ht1 : ¬ d.type = 1 := by rw [h]; decide
    have ht4 : d.type = 4 := by rw [h]; decide
    have hm := M0001.migrateForms_plan (wordsCache_zipIdx .PARTICIPLE) hp (fs := d.forms) (by intro i hi; rw [hl]; exact hb i hi)
    have e : d1 = { d with forms := plan.map fun i => d.forms.getD i [] } := by
      unfold M0001.migrate at h1
      rw [if_neg ht1, if_pos ht4, hm] at h1
      simp only [bind, Except.bind] at h1
      exact (Except.ok.inj h1).symm
    unfold M0001.migrate
    rw [e, if_neg ht1, if_pos ht4, migrate1_error (wordsCache_zipIdx _) hp]
    · rfl
    · simpa [hlen] using hfar
  · intro h h'
    have e := C62_others_partial d h h'
    rw [h1] at e; injection e with e; subst e
    exact h1

example : InLayout layoutBefore7 .VERB (exOld layoutBefore7 .VERB) ∧ Reduced .VERB ∧ ¬ Reduced .NOUN ∧
    InLayout layoutBefore9 .PRONOUN (exOld layoutBefore9 .PRONOUN) :=
  ⟨exOld_inLayout _ _, by decide, by decide, exOld_inLayout _ _⟩

example : (M0007.migrate (exOld layoutBefore7 .VERB)).bind M0007.migrate = .error .IndexError := by
  obtain ⟨d1, _, _, _, h, _⟩ := C60_compose .VERB _ (exOld_inLayout layoutBefore7 .VERB)
  rw [h]
  exact (C119_m0007_again .VERB _ d1 (exOld_inLayout _ _) h).1 (by decide)

example : StoreIn layoutBefore7 [exOld layoutBefore7 .NOUN, exOld layoutBefore7 .VERB, exOld layoutBefore7 .PRONOUN] ∧
    StoreIn layoutBefore9 [exOld layoutBefore9 .PRONOUN, exOld layoutBefore9 .TEXT] := by
  constructor <;> intro d hd <;> simp only [List.mem_cons, List.not_mem_nil, or_false] at hd
  · rcases hd with rfl | rfl | rfl <;> exact ⟨_, exOld_inLayout _ _⟩
  · rcases hd with rfl | rfl <;> exact ⟨_, exOld_inLayout _ _⟩

example : StoreIn layoutBefore8 [exOld layoutBefore8 .NOUN, exOld layoutBefore8 .ADJECTIVE] ∧
    ∀ d ∈ [exOld layoutBefore8 .NOUN, exOld layoutBefore8 .ADJECTIVE].take 1,
      d.type ≠ (WordType.ADJECTIVE.value : Int) ∧ d.type ≠ (WordType.PARTICIPLE.value : Int) := by
  constructor
  · intro d hd
    simp only [List.mem_cons, List.not_mem_nil, or_false] at hd
    rcases hd with rfl | rfl <;> exact ⟨_, exOld_inLayout _ _⟩
  · decide +kernel

example : InLayout layoutBefore8 .ADJECTIVE (exOld layoutBefore8 .ADJECTIVE) ∧ (exOld layoutBefore8 .ADJECTIVE).forms.Nodup ∧
    InLayout layoutBefore8 .PARTICIPLE (exOld layoutBefore8 .PARTICIPLE) ∧ (exOld layoutBefore8 .PARTICIPLE).forms.Nodup :=
  ⟨exOld_inLayout _ _, by decide +kernel, exOld_inLayout _ _, by decide +kernel⟩

example : (M0004.migrate ⟨10, [str! "в", str! "во"], []⟩).bind M0004.migrate =
    .ok ⟨10, [str! "в", str! "во", str! "во", str! "во"], []⟩ := by decide +kernel

example : (M0002.migrate exOldNoun).bind M0002.migrate ≠ M0002.migrate exOldNoun ∧
    (M0002.migrate exPatchedNoun).toOption ≠ none := by decide +kernel

example : ∃ d1, M0001.migrate ⟨1, (List.range 144).map fun (i : Nat) => pyStr i, []⟩ = .ok d1 := by
  obtain ⟨d', _, h, _⟩ := C62_adjective_violated ⟨1, (List.range 144).map fun (i : Nat) => pyStr i, []⟩ (by decide) (by decide +kernel)
  exact ⟨d', h⟩

end Utg
