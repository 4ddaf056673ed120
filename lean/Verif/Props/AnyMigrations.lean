import Verif.Spec.AnyMigrations
import Verif.Model.AnyMigrations
import Verif.Props.AnyJson
import Verif.Props.OldMigrations
/-!
# C148: migrations of any JSON document
-/

namespace Utg
open Py Spec

/-! ## fields -/

theorem set_split {K V : Type} [DecidableEq K] (pre post : Dict K V) (k : K) (x y : V) (h : ∀ kv ∈ pre, kv.1 ≠ k) :
    Dict.set (pre ++ (k, x) :: post) k y = pre ++ (k, y) :: post := by
  induction pre with
  | nil => simp [Dict.set]
  | cons a pre ih =>
    obtain ⟨k', v⟩ := a
    have : k' ≠ k := h (k', v) (by simp)
    simp only [List.cons_append, Dict.set, if_neg this]
    rw [ih fun kv hkv => h kv (by simp [hkv])]

theorem replaced_of_item {j x : Json} {k : Str} (y : Json) (h : j.item k = .ok x) : Replaced k j x y (j.assign k y) := by
  obtain ⟨pre, post, rfl, hp⟩ := item_ok.mp h
  exact ⟨pre, post, rfl, by simp only [Json.assign]; rw [set_split _ _ _ _ _ hp], hp⟩

theorem replaced_field {j x y j' : Json} {k : Str} (h : Replaced k j x y j') : HasField j k x := by
  obtain ⟨pre, post, rfl, -, hp⟩ := h
  exact ⟨pre, post, rfl, hp⟩

theorem replaced_field' {j x y j' : Json} {k : Str} (h : Replaced k j x y j') : HasField j' k y := by
  obtain ⟨pre, post, -, rfl, hp⟩ := h
  exact ⟨pre, post, rfl, hp⟩

theorem replaced_assign {j x y j' : Json} {k : Str} (h : Replaced k j x y j') : j' = j.assign k y := by
  obtain ⟨pre, post, rfl, rfl, hp⟩ := h
  simp only [Json.assign]; rw [set_split _ _ _ _ _ hp]

theorem hasField_unique {j x y : Json} {k : Str} (h : HasField j k x) (h' : HasField j k y) : x = y := by
  have := (item_ok.mpr h).symm.trans (item_ok.mpr h'); injection this

/-- The fields of another name are the same. -/
theorem replaced_other {j x y j' z : Json} {k k' : Str} (h : Replaced k j x y j') (hk : k' ≠ k) : HasField j k' z ↔ HasField j' k' z := by
  obtain ⟨pre, post, rfl, rfl, -⟩ := h
  rw [← item_ok, ← item_ok]
  have : ∀ (v : Json) (pre : Dict Str Json), Dict.get? (pre ++ (k, v) :: post) k' = Dict.get? (pre ++ post) k' := by
    intro v pre
    induction pre with
    | nil => simp [Dict.get?, hk.symm]
    | cons a pre ih => simp only [List.cons_append, Dict.get?, ih]
  simp only [Json.item, this]

/-! ## the loop -/

theorem nth_listed {f x : Json} {parts : List Json} {i : Nat} (h : Listed f parts) : f.nth i = .ok x ↔ parts[i]? = some x := by
  cases h with
  | arr items => simp only [Json.nth]; cases parts[i]? <;> simp
  | str s => simp only [Json.nth, List.getElem?_map]; cases s[i]? <;> simp

theorem nth_listed_error {f : Json} {parts : List Json} {i : Nat} {e : LoadErr} (h : Listed f parts) (he : f.nth i = .error e) :
    e = .other .IndexError ∧ parts.length ≤ i := by
  cases h with
  | arr items =>
    simp only [Json.nth] at he
    cases hi : parts[i]? with
    | none => rw [hi] at he; injection he with he; exact ⟨he.symm, by simpa using hi⟩
    | some x => rw [hi] at he; cases he
  | str s =>
    simp only [Json.nth] at he
    cases hi : s[i]? with
    | none => rw [hi] at he; injection he with he; exact ⟨he.symm, by simpa using hi⟩
    | some x => rw [hi] at he; cases he

theorem nth_ok_listed {f x : Json} {i : Nat} (h : f.nth i = .ok x) : ∃ parts, Listed f parts := by
  cases f with
  | str s => exact ⟨_, .str s⟩
  | arr items => exact ⟨_, .arr items⟩
  | _ => simp [Json.nth] at h

theorem picks_foldlM (near : Key → Except PyErr Nat) (f : Json) (ks : List Key) (plan : List Nat)
    (h : List.Forall₂ (fun k i => near k = .ok i) ks plan) (rs : List Json) :
    (ks.zipIdx rs.length).foldlM (fun newForms e => match near e.1 with
      | .error x => .error (.other x)
      | .ok i => movePart f newForms e.2 i) (rs ++ List.replicate ks.length (.str []))
      = (plan.mapM fun i => f.nth i).map fun xs => rs ++ xs := by
  induction h generalizing rs with
  | nil => simp [pure, Except.pure, Except.map]
  | @cons k i ks plan hk hrest ih =>
    rw [List.zipIdx_cons, List.foldlM_cons, List.mapM_cons]
    simp only [hk]
    cases hn : f.nth i with
    | error e => simp [movePart, hn, bind, Except.bind, Except.map]
    | ok x =>
      have hm : movePart f (rs ++ List.replicate (k :: ks).length (.str [])) rs.length i
          = .ok ((rs ++ [x]) ++ List.replicate ks.length (.str [])) := by
        simp only [movePart, hn]
        simp only [List.length_append, List.length_replicate, List.length_cons]
        rw [if_pos (by omega)]
        simp [List.replicate_succ]
      have := ih (rs ++ [x])
      simp only [List.length_append, List.length_cons, List.length_nil] at this
      simp only [bind, Except.bind] at this ⊢
      rw [hm]
      simp only [this]
      cases List.mapM (fun i => f.nth i) plan <;> simp [Except.map, pure, Except.pure]

theorem pickParts_plan {near : Key → Except PyErr Nat} {new : Dict Key Nat} {f : Json} {plan : List Nat}
    (hnew : new = new.keys.zipIdx) (hplan : new.keys.mapM near = .ok plan) : pickParts near new f = plan.mapM fun i => f.nth i := by
  have := picks_foldlM near f new.keys plan (forall₂_of_mapM hplan) []
  simp only [List.length_nil, List.nil_append] at this
  have hl : new.length = new.keys.length := by simp [Dict.keys]
  unfold pickParts
  rw [← hnew] at this
  rw [hl]
  refine Eq.trans this ?_
  cases List.mapM (fun i => f.nth i) plan <;> simp [Except.map]

/-- `need` forms are enough, and none of them too many. -/
def Needs (plan : List Nat) (need : Nat) : Prop := ∀ n, need ≤ n ↔ ∀ i ∈ plan, i < n

theorem needs_max {plan : List Nat} {need : Nat} (h : plan.foldr (fun i n => max (i + 1) n) 0 = need) : Needs plan need := by
  subst h
  intro n
  induction plan with
  | nil => simp
  | cons i plan ih => simp only [List.foldr_cons, List.mem_cons, forall_eq_or_imp, ← ih]; omega

/-- A form read by position. -/
theorem mapM_nth_listed {f : Json} {parts : List Json} (h : Listed f parts) (plan : List Nat) (hb : ∀ i ∈ plan, i < parts.length) :
    (plan.mapM fun i => f.nth i) = .ok (plan.map fun i => parts.getD i .null) := by
  induction plan with
  | nil => rfl
  | cons i plan ih =>
    have hi := hb i (by simp)
    have : f.nth i = .ok (parts.getD i .null) := (nth_listed h).mpr (by simp [hi])
    rw [List.mapM_cons]
    simp only [this, ih fun j hj => hb j (by simp [hj]), bind, Except.bind, pure, Except.pure, List.map_cons]

theorem migratePicked_ok {near : Key → Except PyErr Nat} {new : Dict Key Nat} {plan : List Nat} {need : Nat}
    (hnew : new = new.keys.zipIdx) (hplan : new.keys.mapM near = .ok plan) (hneed : Needs plan need) (hne : plan ≠ []) (j j' : Json) :
    (migratePicked near new j).result = .ok j' ↔ ∃ f parts, Listed f parts ∧ need ≤ parts.length ∧
      Replaced (str! "forms") j f (.arr (plan.map fun i => parts.getD i .null)) j' := by
  unfold migratePicked
  cases hf : j.item (str! "forms") with
  | error e =>
    simp only [reduceCtorEq, false_iff]
    rintro ⟨f, parts, -, -, hr⟩
    rw [item_ok.mpr (replaced_field hr)] at hf
    cases hf
  | ok f =>
    simp only
    rw [pickParts_plan hnew hplan]
    constructor
    · intro h
      cases hp : plan.mapM fun i => f.nth i with
      | error e => rw [hp] at h; cases h
      | ok xs =>
        rw [hp] at h
        obtain ⟨i, hi⟩ := List.exists_mem_of_ne_nil _ hne
        obtain ⟨x, hx⟩ := mapM_ok_mem hp i hi
        obtain ⟨parts, hl⟩ := nth_ok_listed hx
        have hb : ∀ i ∈ plan, i < parts.length := by
          intro i hi
          obtain ⟨x, hx⟩ := mapM_ok_mem hp i hi
          have := (nth_listed hl).mp hx
          exact (List.getElem?_eq_some_iff.mp this).1
        rw [mapM_nth_listed hl plan hb] at hp
        injection hp with hp
        simp only [Except.ok.injEq] at h
        refine ⟨f, parts, hl, (hneed _).mpr hb, ?_⟩
        rw [← h, hp]
        exact replaced_of_item _ hf
    · rintro ⟨f', parts, hl, hn, hr⟩
      have := hasField_unique (item_ok.mp hf) (replaced_field hr)
      subst this
      rw [mapM_nth_listed hl plan ((hneed _).mp hn)]
      simp only [Except.ok.injEq]
      exact (replaced_assign hr).symm

theorem migratePicked_error {near : Key → Except PyErr Nat} {new : Dict Key Nat} {plan : List Nat} {need : Nat}
    (hnew : new = new.keys.zipIdx) (hplan : new.keys.mapM near = .ok plan) (hneed : Needs plan need) {j : Json} {e : LoadErr}
    (hj : ∃ items, j = .obj items) (h : (migratePicked near new j).result = .error e) : BadForms need j e := by
  unfold migratePicked at h
  cases hf : j.item (str! "forms") with
  | error e' =>
    rw [hf] at h
    injection h with h
    subst h
    rcases item_error hf with ⟨-, h2⟩ | ⟨rfl, h2⟩
    · obtain ⟨items, rfl⟩ := hj; exact absurd rfl (h2 items)
    · exact .missing j h2
  | ok f =>
    rw [hf] at h
    simp only at h
    rw [pickParts_plan hnew hplan] at h
    cases hp : plan.mapM fun i => f.nth i with
    | ok xs => rw [hp] at h; cases h
    | error e' =>
      rw [hp] at h
      injection h with h
      subst h
      obtain ⟨i, hi, hx⟩ := mapM_error_mem hp
      have hlt : i < need := by
        by_contra hc
        exact absurd ((hneed need).mp le_rfl i hi) hc
      have hfield := item_ok.mp hf
      cases f with
      | str s =>
        obtain ⟨rfl, h2⟩ := nth_listed_error (.str s) hx
        exact .short j _ _ hfield (.str s) (by omega)
      | arr items =>
        obtain ⟨rfl, h2⟩ := nth_listed_error (.arr items) hx
        exact .short j _ _ hfield (.arr items) (by omega)
      | obj items =>
        simp only [Json.nth, Except.error.injEq] at hx
        subst hx
        exact .keys j items i hfield hlt
      | _ =>
        simp only [Json.nth, Except.error.injEq] at hx
        subst hx
        exact .other j _ hfield (by intro h; cases h) (by intro parts h; cases h)

theorem migratePicked_doc (near : Key → Except PyErr Nat) (new : Dict Key Nat) (j : Json) :
    (∀ e, (migratePicked near new j).result = .error e → (migratePicked near new j).doc = j) ∧
    (∀ j', (migratePicked near new j).result = .ok j' → (migratePicked near new j).doc = j') := by
  unfold migratePicked
  cases j.item (str! "forms") with
  | error e => simp
  | ok f => cases h : pickParts near new f <;> simp [h]

/-! ## the tables -/

theorem needs7 (t : WordType) : Needs ((layoutBefore8 t).map fun m => (layoutBefore7 t).idxOf (source7 t m)) (needed7 t) :=
  needs_max (by cases t <;> decide +kernel)
theorem needs8 (t : WordType) : Needs ((layoutBefore9 t).map fun m => (layoutBefore8 t).idxOf m) (needed8 t) :=
  needs_max (by cases t <;> decide +kernel)
theorem needs9 (t : WordType) : Needs ((layoutNow t).map fun m => (layoutBefore9 t).idxOf (source9 t m)) (needed9 t) :=
  needs_max (by cases t <;> decide +kernel)

theorem wordTypeOfJson_ok {x : Json} {t : WordType} : wordTypeOfJson x = .ok t ↔ IsNumber x t.value := by
  unfold wordTypeOfJson
  constructor
  · intro h
    cases hk : x.asKey with
    | error e => rw [hk] at h; cases h
    | ok v => cases v with
      | none => rw [hk] at h; cases h
      | some v =>
        rw [hk] at h
        simp only at h
        cases hv : wordTypeOfValue v with
        | none => rw [hv] at h; cases h
        | some t' =>
          rw [hv] at h
          injection h with h
          subst h
          rw [wordTypeOfValue_some.mp hv] at hk
          exact asKey_some.mp hk
  · intro h
    rw [asKey_some.mpr h]
    simp only
    rw [wordTypeOfValue_value]

theorem wordTypeOfJson_error {x : Json} {e : LoadErr} (h : wordTypeOfJson x = .error e) :
    (e = .TypeError ∧ IsCompound x) ∨ (e = .Lookup x ∧ ∀ t : WordType, ¬ IsNumber x t.value) := by
  have hn : ∀ t : WordType, ¬ IsNumber x t.value := fun t ht => by rw [wordTypeOfJson_ok.mpr ht] at h; cases h
  unfold wordTypeOfJson at h
  cases hk : x.asKey with
  | error e' =>
    rw [hk] at h
    injection h with h
    subst h
    exact .inl (asKey_error.mp hk)
  | ok v => cases v with
    | none => rw [hk] at h; injection h with h; exact .inr ⟨h.symm, hn⟩
    | some v =>
      rw [hk] at h
      simp only at h
      cases hv : wordTypeOfValue v with
      | none => rw [hv] at h; injection h with h; exact .inr ⟨h.symm, hn⟩
      | some t' => rw [hv] at h; cases h

theorem layouts_plan {plan : List Nat} {need : Nat} {old new : WordType → Dict Key Nat} {t : WordType}
    (hnew : new t = (new t).keys.zipIdx) (hplan : (new t).keys.mapM (getNearestOldIndex · (old t)) = .ok plan) (hneed : Needs plan need)
    {parts : List Json} (hn : need ≤ parts.length) (g : Json → Str) (properties : Dict JKey Int) :
    migrateWith old new ⟨t.value, parts.map g, properties⟩ =
      .ok ⟨t.value, (plan.map fun i => parts.getD i .null).map g, properties⟩ := by
  unfold migrateWith
  simp only [wordTypeOfValue_value]
  have hb := (hneed _).mp hn
  rw [migrateForms_plan hnew hplan (by simpa using hb)]
  simp only [bind, Except.bind, Except.ok.injEq, WordData.mk.injEq, true_and, and_true, List.map_map]
  apply List.map_congr_left
  intro i hi
  have := hb i hi
  simp [this]

open Classical in
/-- Two lists that are written alike by every writer of texts are the same. -/
theorem map_texts_inj {l l' : List Json} (h : ∀ g : Json → Str, l.map g = l'.map g) : l = l' := by
  apply List.ext_getElem?
  intro i
  have hl : l.length = l'.length := by simpa using congrArg List.length (h fun _ => [])
  cases ha : l[i]? with
  | none => rw [List.getElem?_eq_none_iff] at ha; rw [List.getElem?_eq_none (by omega)]
  | some a =>
    have := congrArg (·[i]?) (h fun x => if x = a then ['a'] else [])
    simp only [List.getElem?_map, ha, Option.map_some, if_true] at this
    cases hb : l'[i]? with
    | none => rw [hb] at this; cases this
    | some b =>
      rw [hb] at this
      simp only [Option.map_some, Option.some.injEq] at this
      by_cases hab : b = a
      · rw [hab]
      · rw [if_neg hab] at this; cases this

theorem migrateJson_ok {old new : WordType → Dict Key Nat} {need : WordType → Nat} {plan : WordType → List Nat}
    (hnew : ∀ t, new t = (new t).keys.zipIdx) (hplan : ∀ t, (new t).keys.mapM (getNearestOldIndex · (old t)) = .ok (plan t))
    (hneed : ∀ t, Needs (plan t) (need t)) (hpos : ∀ t, plan t ≠ []) (j j' : Json) :
    (migrateJson old new j).result = .ok j' ↔ MigratedBy (migrateWith old new) need j j' := by
  unfold migrateJson MigratedBy
  cases hx : j.item (str! "type") with
  | error e =>
    simp only [reduceCtorEq, false_iff]
    rintro ⟨t, x, f, parts, n, h1, -⟩
    rw [item_ok.mpr h1] at hx
    cases hx
  | ok x =>
    simp only
    cases ht : wordTypeOfJson x with
    | error e =>
      simp only [reduceCtorEq, false_iff]
      rintro ⟨t, x', f, parts, n, h1, h2, -⟩
      have := hasField_unique (item_ok.mp hx) h1
      subst this
      rw [wordTypeOfJson_ok.mpr h2] at ht
      cases ht
    | ok t =>
      simp only
      rw [migratePicked_ok (hnew t) (hplan t) (hneed t) (hpos t)]
      constructor
      · rintro ⟨f, parts, hl, hn, hr⟩
        exact ⟨t, x, f, parts, _, item_ok.mp hx, wordTypeOfJson_ok.mp ht, hl, hn, hr, layouts_plan (hnew t) (hplan t) (hneed t) hn⟩
      · rintro ⟨t', x', f, parts, n, h1, h2, hl, hn, hr, hg⟩
        have := hasField_unique (item_ok.mp hx) h1
        subst this
        have := ht.symm.trans (wordTypeOfJson_ok.mpr h2)
        injection this with this
        subst this
        refine ⟨f, parts, hl, hn, ?_⟩
        have hnl : n = (plan t).map fun i => parts.getD i .null := by
          apply map_texts_inj
          intro g
          have e := (hg g []).symm.trans (layouts_plan (hnew t) (hplan t) (hneed t) hn g [])
          simpa only [Except.ok.injEq, WordData.mk.injEq, true_and, and_true] using e
        rw [← hnl]
        exact hr

theorem migrateJson_error {old new : WordType → Dict Key Nat} {need : WordType → Nat} {plan : WordType → List Nat}
    (hnew : ∀ t, new t = (new t).keys.zipIdx) (hplan : ∀ t, (new t).keys.mapM (getNearestOldIndex · (old t)) = .ok (plan t))
    (hneed : ∀ t, Needs (plan t) (need t)) {j : Json} {e : LoadErr} (h : (migrateJson old new j).result = .error e) :
    BadData need j e := by
  unfold migrateJson at h
  cases hx : j.item (str! "type") with
  | error e' =>
    rw [hx] at h
    injection h with h
    subst h
    rcases item_error hx with ⟨rfl, h2⟩ | ⟨rfl, h2⟩
    · exact .noObject j h2
    · exact .missing j h2
  | ok x =>
    rw [hx] at h
    simp only at h
    have hf := item_ok.mp hx
    cases ht : wordTypeOfJson x with
    | error e' =>
      rw [ht] at h
      injection h with h
      subst h
      rcases wordTypeOfJson_error ht with ⟨rfl, h2⟩ | ⟨rfl, h2⟩
      · exact .typeCompound j x hf h2
      · exact .typeUnknown j x hf h2
    | ok t =>
      rw [ht] at h
      refine .forms j x t e hf (wordTypeOfJson_ok.mp ht) (migratePicked_error (hnew t) (hplan t) (hneed t) ?_ h)
      obtain ⟨pre, post, h1, -⟩ := hf
      exact ⟨_, h1⟩

theorem migrateJson_doc (old new : WordType → Dict Key Nat) (j : Json) :
    (∀ e, (migrateJson old new j).result = .error e → (migrateJson old new j).doc = j) ∧
    (∀ j', (migrateJson old new j).result = .ok j' → (migrateJson old new j).doc = j') := by
  unfold migrateJson
  cases j.item (str! "type") with
  | error e => simp
  | ok x =>
    simp only
    cases wordTypeOfJson x with
    | error e => simp
    | ok t => exact migratePicked_doc _ _ j

/-! ## the claim -/

/-- C148: m_0007 migrates exactly the documents with a known part of speech and enough forms that can be taken by position (a list, or even a
text), and replaces only the forms; they need not be texts. -/
theorem C148_m0007 (j j' : Json) : (M0007.migrateJson j).result = .ok j' ↔ MigratedBy M0007.migrate needed7 j j' :=
  migrateJson_ok new7 plan7 needs7 (by intro t; cases t <;> decide) j j'

/-- C148: the same for m_0008. -/
theorem C148_m0008 (j j' : Json) : (M0008.migrateJson j).result = .ok j' ↔ MigratedBy M0008.migrate needed8 j j' :=
  migrateJson_ok new8 plan8 needs8 (by intro t; cases t <;> decide) j j'

/-- C148: the same for m_0009. -/
theorem C148_m0009 (j j' : Json) : (M0009.migrateJson j).result = .ok j' ↔ MigratedBy M0009.migrate needed9 j j' :=
  migrateJson_ok new9 plan9 needs9 (by intro t; cases t <;> decide) j j'

/-- C148: what m_0007, m_0008 and m_0009 raise is what is wrong with the document. -/
theorem C148_raises (j : Json) (e : LoadErr) :
    ((M0007.migrateJson j).result = .error e → BadData needed7 j e) ∧
    ((M0008.migrateJson j).result = .error e → BadData needed8 j e) ∧
    ((M0009.migrateJson j).result = .error e → BadData needed9 j e) :=
  ⟨migrateJson_error new7 plan7 needs7, migrateJson_error new8 plan8 needs8, migrateJson_error new9 plan9 needs9⟩

theorem isInt_iff {x : Json} {n : Int} : x.isInt n = true ↔ IsNumber x n := by
  rw [← asKey_some]
  unfold Json.isInt
  cases x.asKey with
  | error e => simp
  | ok v => cases v <;> simp

theorem isInt_false {x : Json} {n : Int} : x.isInt n = false ↔ ¬ IsNumber x n := by
  rw [← isInt_iff]; simp

/-- C148: an exception leaves the document as it was, and what is returned is the changed document. -/
theorem C148_untouched (plus : Json → Json → Json) (migrate : Json → Migrated)
    (h : migrate ∈ [M0001.migrateJson, M0002.migrateJson plus, M0004.migrateJson, M0005.migrateJson, M0007.migrateJson, M0008.migrateJson,
      M0009.migrateJson]) (j : Json) :
    (∀ e, (migrate j).result = .error e → (migrate j).doc = j) ∧ (∀ j', (migrate j).result = .ok j' → (migrate j).doc = j') := by
  simp only [List.mem_cons, List.not_mem_nil, or_false] at h
  rcases h with rfl | rfl | rfl | rfl | rfl | rfl | rfl
  · unfold M0001.migrateJson
    cases j.item (str! "type") with
    | error e => simp
    | ok x =>
      simp only
      by_cases h1 : x.isInt 1 = true
      · rw [if_pos h1]; exact migratePicked_doc _ _ j
      · rw [if_neg h1]
        by_cases h4 : x.isInt 4 = true
        · rw [if_pos h4]; exact migratePicked_doc _ _ j
        · rw [if_neg h4]; simp
  · unfold M0002.migrateJson
    cases j.item (str! "type") with
    | error e => simp
    | ok x =>
      simp only
      by_cases h1 : (!x.isInt 0) = true
      · rw [if_pos h1]; simp
      · rw [if_neg h1]
        cases j.item (str! "patches") with
        | error e => simp
        | ok patches => cases j.item (str! "forms") with
          | error e => simp
          | ok forms =>
            simp only
            cases M0002.addition j patches forms with
            | error e => simp
            | ok more =>
              simp only
              cases forms.add plus more <;> simp
  · unfold M0004.migrateJson
    cases j.item (str! "type") with
    | error e => simp
    | ok x =>
      simp only
      by_cases h1 : (!x.isInt 10) = true
      · rw [if_pos h1]; simp
      · rw [if_neg h1]
        cases j.item (str! "forms") with
        | error e => simp
        | ok forms => cases forms with
          | arr items => simp only; cases items.getLast? <;> simp
          | _ => simp
  · unfold M0005.migrateJson
    cases j.item (str! "type") with
    | error e => simp
    | ok x =>
      simp only
      by_cases h1 : (!x.isInt 4) = true
      · rw [if_pos h1]; simp
      · rw [if_neg h1]
        cases j.item (str! "properties") with
        | error e => simp
        | ok p =>
          simp only
          cases p.hasFive with
          | error e => simp
          | ok b => cases b <;> cases p <;> simp
  · exact migrateJson_doc _ _ j
  · exact migrateJson_doc _ _ j
  · exact migrateJson_doc _ _ j

/-- C148: m_0004. -/
theorem C148_m0004 (j j' : Json) : (M0004.migrateJson j).result = .ok j' ↔ MigratedBy4 j j' := by
  unfold M0004.migrateJson MigratedBy4
  cases hx : j.item (str! "type") with
  | error e =>
    have hn : ∀ x, ¬ HasField j (str! "type") x := fun x h => by rw [item_ok.mpr h] at hx; cases hx
    simp [hn]
  | ok x =>
    have hx' := item_ok.mp hx
    simp only
    by_cases h1 : IsNumber x 10
    · rw [if_neg (by simp [isInt_iff.mpr h1])]
      constructor
      · intro h
        right
        cases hf : j.item (str! "forms") with
        | error e => rw [hf] at h; cases h
        | ok forms =>
          rw [hf] at h
          cases forms with
          | arr items =>
            simp only at h
            cases hl : items.getLast? with
            | none => rw [hl] at h; cases h
            | some last =>
              rw [hl] at h
              simp only [Except.ok.injEq] at h
              obtain ⟨ini, rfl⟩ := List.getLast?_eq_some_iff.mp hl
              refine ⟨x, ini, last, hx', h1, ?_⟩
              rw [← h]
              simpa using replaced_of_item (.arr (ini ++ [last] ++ [last])) hf
          | _ => cases h
      · rintro (⟨x', hx2, hn, -⟩ | ⟨x', items, last, hx2, -, hr⟩)
        · exact absurd (hasField_unique hx' hx2 ▸ h1) hn
        · rw [item_ok.mpr (replaced_field hr)]
          simp only [List.getLast?_append, List.getLast?_singleton, Option.some_or, Except.ok.injEq]
          rw [replaced_assign hr]
          simp
    · rw [if_pos (by simp [isInt_false.mpr h1])]
      constructor
      · intro h
        injection h with h
        exact .inl ⟨x, hx', h1, h.symm⟩
      · rintro (⟨x', hx2, hn, rfl⟩ | ⟨x', items, last, hx2, hn, hr⟩)
        · rfl
        · exact absurd (hasField_unique hx' hx2 ▸ hn) h1

/-- C148: what m_0004 raises is what is wrong with the document. -/
theorem C148_m0004_raises (j : Json) (e : LoadErr) (h : (M0004.migrateJson j).result = .error e) : BadData4 j e := by
  unfold M0004.migrateJson at h
  cases hx : j.item (str! "type") with
  | error e' =>
    rw [hx] at h
    injection h with h
    subst h
    rcases item_error hx with ⟨rfl, h2⟩ | ⟨rfl, h2⟩
    · exact .noObject j h2
    · exact .missing j h2
  | ok x =>
    rw [hx] at h
    have hx' := item_ok.mp hx
    simp only at h
    by_cases h1 : IsNumber x 10
    · rw [if_neg (by simp [isInt_iff.mpr h1])] at h
      cases hf : j.item (str! "forms") with
      | error e' =>
        rw [hf] at h
        injection h with h
        subst h
        rcases item_error hf with ⟨rfl, h2⟩ | ⟨rfl, h2⟩
        · exact .noObject j h2
        · exact .missingForms j x hx' h1 h2
      | ok forms =>
        rw [hf] at h
        have hf' := item_ok.mp hf
        cases forms with
        | arr items =>
          simp only at h
          cases hl : items.getLast? with
          | none =>
            rw [hl] at h
            injection h with h
            subst h
            rw [List.getLast?_eq_none_iff] at hl
            subst hl
            exact .empty j x hx' h1 hf'
          | some last => rw [hl] at h; cases h
        | _ =>
          injection h with h
          subst h
          exact .noList j x _ hx' h1 hf' (by intro items hc; cases hc)
    · rw [if_pos (by simp [isInt_false.mpr h1])] at h
      cases h

theorem filter_no_five {items : Dict Str Json} (h : Dict.contains items (str! "5") = false) :
    items.filter (fun kv => decide (kv.1 ≠ str! "5")) = items := by
  rw [List.filter_eq_self]
  intro kv hkv
  simp only [Dict.contains, Option.isSome_eq_false_iff, Option.isNone_iff_eq_none] at h
  rw [decide_eq_true_iff]
  intro hk
  induction items with
  | nil => cases hkv
  | cons a items ih =>
    obtain ⟨k, v⟩ := a
    simp only [Dict.get?] at h
    split at h
    · cases h
    · rename_i hne
      rcases List.mem_cons.mp hkv with rfl | hm
      · exact hne hk
      · exact ih hm h

theorem assign_same {j x : Json} {k : Str} (h : j.item k = .ok x) : j.assign k x = j := by
  obtain ⟨pre, post, rfl, hp⟩ := item_ok.mp h
  simp only [Json.assign]; rw [set_split _ _ _ _ _ hp]

theorem replaced_same {j x j' : Json} {k : Str} (h : Replaced k j x x j') : j' = j := by
  rw [replaced_assign h, assign_same (item_ok.mpr (replaced_field h))]

/-- C148: m_0005. -/
theorem C148_m0005 (j j' : Json) : (M0005.migrateJson j).result = .ok j' ↔ MigratedBy5 j j' := by
  unfold M0005.migrateJson MigratedBy5
  cases hx : j.item (str! "type") with
  | error e =>
    have hn : ∀ x, ¬ HasField j (str! "type") x := fun x h => by rw [item_ok.mpr h] at hx; cases hx
    simp [hn]
  | ok x =>
    have hx' := item_ok.mp hx
    simp only
    by_cases h1 : IsNumber x 4
    · rw [if_neg (by simp [isInt_iff.mpr h1])]
      have key : (∃ x, HasField j (str! "type") x ∧ ¬ IsNumber x 4 ∧ j' = j) ↔ False := by
        simp only [iff_false]
        rintro ⟨x', hx2, hn, -⟩
        exact hn (hasField_unique hx' hx2 ▸ h1)
      rw [key, false_or]
      cases hp : j.item (str! "properties") with
      | error e =>
        have hn : ∀ x, ¬ HasField j (str! "properties") x := fun x h => by rw [item_ok.mpr h] at hp; cases hp
        simp only [reduceCtorEq, false_iff]
        rintro ⟨x', -, -, ⟨items, hr⟩ | ⟨items, hr, -⟩ | ⟨s, hr, -⟩⟩
        · exact hn _ (replaced_field hr)
        · exact hn _ hr
        · exact hn _ hr
      | ok p =>
        have hp' := item_ok.mp hp
        cases p with
        | obj items =>
          have hr0 : ∀ y, Replaced (str! "properties") j (.obj items) y (j.assign (str! "properties") y) := fun y => replaced_of_item y hp
          have goal' : (∃ x, HasField j (str! "type") x ∧ IsNumber x 4 ∧
              ((∃ items, Replaced (str! "properties") j (.obj items) (.obj (items.filter fun kv => decide (kv.1 ≠ str! "5"))) j') ∨
               (∃ items, HasField j (str! "properties") (.arr items) ∧ .str (str! "5") ∉ items ∧ j' = j) ∨
               (∃ s, HasField j (str! "properties") (.str s) ∧ '5' ∉ s ∧ j' = j))) ↔
              j.assign (str! "properties") (.obj (items.filter fun kv => decide (kv.1 ≠ str! "5"))) = j' := by
            constructor
            · rintro ⟨x', -, -, ⟨items', hr⟩ | ⟨items', hr, -⟩ | ⟨s, hr, -⟩⟩
              · have := hasField_unique hp' (replaced_field hr)
                injection this with this
                subst this
                exact (replaced_assign hr).symm
              · exact absurd (hasField_unique hp' hr) (by simp)
              · exact absurd (hasField_unique hp' hr) (by simp)
            · rintro rfl
              exact ⟨x, hx', h1, .inl ⟨items, hr0 _⟩⟩
          rw [goal']
          simp only [Json.hasFive]
          cases hc : Dict.contains items (str! "5") with
          | true => simp
          | false => rw [filter_no_five hc, assign_same hp]; simp
        | arr items =>
          simp only [Json.hasFive]
          have hany : items.any (Json.isText (str! "5")) = true ↔ Json.str (str! "5") ∈ items := by
            rw [List.any_eq_true]
            constructor
            · rintro ⟨y, hy, ht⟩
              cases y <;> simp [Json.isText] at ht
              subst ht; exact hy
            · intro hm; exact ⟨_, hm, by simp [Json.isText]⟩
          have goal' : (∃ x, HasField j (str! "type") x ∧ IsNumber x 4 ∧
              ((∃ items, Replaced (str! "properties") j (.obj items) (.obj (items.filter fun kv => decide (kv.1 ≠ str! "5"))) j') ∨
               (∃ items, HasField j (str! "properties") (.arr items) ∧ .str (str! "5") ∉ items ∧ j' = j) ∨
               (∃ s, HasField j (str! "properties") (.str s) ∧ '5' ∉ s ∧ j' = j))) ↔
              (.str (str! "5") ∉ items ∧ j = j') := by
            constructor
            · rintro ⟨x', -, -, ⟨items', hr⟩ | ⟨items', hr, hm, rfl⟩ | ⟨s, hr, -⟩⟩
              · exact absurd (hasField_unique hp' (replaced_field hr)) (by simp)
              · have := hasField_unique hp' hr
                injection this with this
                subst this
                exact ⟨hm, rfl⟩
              · exact absurd (hasField_unique hp' hr) (by simp)
            · rintro ⟨hm, rfl⟩
              exact ⟨x, hx', h1, .inr (.inl ⟨items, hp', hm, rfl⟩)⟩
          rw [goal', ← hany]
          cases items.any (Json.isText (str! "5")) <;> simp
        | str s =>
          simp only [Json.hasFive]
          have goal' : (∃ x, HasField j (str! "type") x ∧ IsNumber x 4 ∧
              ((∃ items, Replaced (str! "properties") j (.obj items) (.obj (items.filter fun kv => decide (kv.1 ≠ str! "5"))) j') ∨
               (∃ items, HasField j (str! "properties") (.arr items) ∧ .str (str! "5") ∉ items ∧ j' = j) ∨
               (∃ s, HasField j (str! "properties") (.str s) ∧ '5' ∉ s ∧ j' = j))) ↔
              ('5' ∉ s ∧ j = j') := by
            constructor
            · rintro ⟨x', -, -, ⟨items', hr⟩ | ⟨items', hr, -⟩ | ⟨s', hr, hm, rfl⟩⟩
              · exact absurd (hasField_unique hp' (replaced_field hr)) (by simp)
              · exact absurd (hasField_unique hp' hr) (by simp)
              · have := hasField_unique hp' hr
                injection this with this
                subst this
                exact ⟨hm, rfl⟩
            · rintro ⟨hm, rfl⟩
              exact ⟨x, hx', h1, .inr (.inr ⟨s, hp', hm, rfl⟩)⟩
          rw [goal', ← List.contains_iff_mem]
          cases s.contains '5' <;> simp
        | _ =>
          simp only [Json.hasFive, reduceCtorEq, false_iff]
          rintro ⟨x', -, -, ⟨items', hr⟩ | ⟨items', hr, -⟩ | ⟨s, hr, -⟩⟩
          · exact absurd (hasField_unique hp' (replaced_field hr)) (by simp)
          · exact absurd (hasField_unique hp' hr) (by simp)
          · exact absurd (hasField_unique hp' hr) (by simp)
    · rw [if_pos (by simp [isInt_false.mpr h1])]
      constructor
      · intro h
        injection h with h
        exact .inl ⟨x, hx', h1, h.symm⟩
      · rintro (⟨x', hx2, hn, rfl⟩ | ⟨x', hx2, hn, -⟩)
        · rfl
        · exact absurd (hasField_unique hx' hx2 ▸ hn) h1

/-- The sum of two values. -/
theorem add_ok {plus : Json → Json → Json} {x y z : Json} : x.add plus y = .ok z ↔ Joined plus x y z := by
  constructor
  · intro h
    cases x with
    | arr items =>
      simp only [Json.add] at h
      cases hi : y.iterate with
      | error e => rw [hi] at h; cases h
      | ok more =>
        rw [hi] at h
        injection h with h
        subst h
        exact .list items y more (iterate_ok.mp hi)
    | str s =>
      cases y with
      | str t => simp only [Json.add] at h; injection h with h; subst h; exact .text s t
      | _ => simp [Json.add, Json.isNumeral] at h
    | null => simp [Json.add, Json.isNumeral] at h
    | obj items => simp [Json.add, Json.isNumeral] at h
    | bool b =>
      simp only [Json.add] at h
      by_cases hy : y.isNumeral = true
      · rw [if_pos (by rw [hy]; rfl)] at h; injection h with h; subst h; exact .numbers _ _ rfl hy
      · rw [if_neg (by simp [hy])] at h; cases h
    | int b =>
      simp only [Json.add] at h
      by_cases hy : y.isNumeral = true
      · rw [if_pos (by rw [hy]; rfl)] at h; injection h with h; subst h; exact .numbers _ _ rfl hy
      · rw [if_neg (by simp [hy])] at h; cases h
    | float w b =>
      simp only [Json.add] at h
      by_cases hy : y.isNumeral = true
      · rw [if_pos (by rw [hy]; rfl)] at h; injection h with h; subst h; exact .numbers _ _ rfl hy
      · rw [if_neg (by simp [hy])] at h; cases h
  · intro h
    cases h with
    | list items y more hp => simp only [Json.add, iterate_ok.mpr hp]
    | text s t => rfl
    | numbers x y hx hy =>
      cases x <;> simp [Json.isNumeral] at hx <;> (simp only [Json.add, hy]; rfl)

theorem truth_false {x : Json} : x.truth = false ↔ Nothing x := by
  constructor
  · intro h
    cases x with
    | null => exact .null
    | bool b => simp only [Json.truth] at h; subst h; exact .number _ .no
    | int n => simp [Json.truth] at h; subst h; exact .number _ (.int 0)
    | float w n => simp [Json.truth] at h; subst h; exact .number _ (.float w 0)
    | str s => simp [Json.truth] at h; subst h; exact .str
    | arr s => simp [Json.truth] at h; subst h; exact .arr
    | obj s => simp [Json.truth] at h; subst h; exact .obj
  · intro h
    cases h with
    | number x hx => cases hx <;> simp [Json.truth]
    | _ => rfl

/-- C148: m_0002. -/
theorem C148_m0002 (plus : Json → Json → Json) (j j' : Json) : (M0002.migrateJson plus j).result = .ok j' ↔ MigratedBy2 plus j j' := by
  unfold M0002.migrateJson MigratedBy2
  cases hx : j.item (str! "type") with
  | error e =>
    have hn : ∀ x, ¬ HasField j (str! "type") x := fun x h => by rw [item_ok.mpr h] at hx; cases hx
    simp [hn]
  | ok x =>
    have hx' := item_ok.mp hx
    simp only
    by_cases h1 : IsNumber x 0
    · rw [if_neg (by simp [isInt_iff.mpr h1])]
      constructor
      · intro h
        right
        cases hp : j.item (str! "patches") with
        | error e => rw [hp] at h; cases h
        | ok patches =>
          rw [hp] at h
          simp only at h
          refine ⟨x, patches, hx', h1, item_ok.mp hp, ?_⟩
          cases hf : j.item (str! "forms") with
          | error e => rw [hf] at h; cases h
          | ok forms =>
            rw [hf] at h
            simp only at h
            cases ha : M0002.addition j patches forms with
            | error e => rw [ha] at h; cases h
            | ok more =>
              rw [ha] at h
              simp only at h
              cases hs : forms.add plus more with
              | error e => rw [hs] at h; cases h
              | ok forms' =>
                rw [hs] at h
                simp only [Except.ok.injEq] at h
                subst h
                unfold M0002.addition at ha
                by_cases ht : patches.truth = true
                · right
                  rw [if_pos ht, hp] at ha
                  simp only at ha
                  cases hn : patches.nth 7 with
                  | error e => rw [hn] at ha; cases ha
                  | ok patch =>
                    rw [hn] at ha
                    simp only at ha
                    obtain ⟨parts, hl⟩ := nth_ok_listed hn
                    have hn' := (nth_listed hl).mp hn
                    cases hl with
                    | arr items =>
                      exact ⟨parts, patch, more, forms, forms', rfl, hn', item_ok.mp ha, add_ok.mp hs, replaced_of_item _ hf⟩
                    | str s =>
                      rw [List.getElem?_map] at hn'
                      cases hc : s[7]? with
                      | none => rw [hc] at hn'; cases hn'
                      | some c =>
                        rw [hc] at hn'
                        injection hn' with hn'
                        subst hn'
                        simp [Json.item] at ha
                · left
                  rw [if_neg ht] at ha
                  refine ⟨truth_false.mp (by simpa using ht), ?_⟩
                  cases forms with
                  | arr items =>
                    simp only [Json.rest, Except.ok.injEq] at ha
                    subst ha
                    simp only [Json.add, Json.iterate, Except.ok.injEq] at hs
                    subst hs
                    exact ⟨items, replaced_of_item _ hf⟩
                  | str s =>
                    simp only [Json.rest, Except.ok.injEq] at ha
                    subst ha
                    simp [Json.add, Json.isNumeral] at hs
                  | _ => simp [Json.rest] at ha
      · rintro (⟨x', hx2, hn, -⟩ | ⟨x', patches, hx2, -, hp, h⟩)
        · exact absurd (hasField_unique hx' hx2 ▸ h1) hn
        · rw [item_ok.mpr hp]
          simp only
          rcases h with ⟨hn, items, hr⟩ | ⟨items, patch, more, forms, new, rfl, h7, hm, hj, hr⟩
          · rw [item_ok.mpr (replaced_field hr)]
            simp only [M0002.addition, truth_false.mpr hn, Json.rest]
            simp only [Bool.false_eq_true, if_false, Json.add, Json.iterate, Except.ok.injEq]
            exact (replaced_assign hr).symm
          · have ht : (Json.arr items).truth = true := by
              cases items with
              | nil => simp at h7
              | cons a items => rfl
            rw [item_ok.mpr (replaced_field hr)]
            simp only [M0002.addition, ht, item_ok.mpr hp, Json.nth, h7, item_ok.mpr hm, if_true, add_ok.mpr hj, Except.ok.injEq]
            exact (replaced_assign hr).symm
    · rw [if_pos (by simp [isInt_false.mpr h1])]
      constructor
      · intro h
        injection h with h
        exact .inl ⟨x, hx', h1, h.symm⟩
      · rintro (⟨x', hx2, hn, rfl⟩ | ⟨x', patches, hx2, hn, -⟩)
        · rfl
        · exact absurd (hasField_unique hx' hx2 ▸ hn) h1

/-- C148: the patches of a noun that was read from JSON are an object, and its keys are texts: m_0002 cannot find the patch number 7. -/
theorem C148_m0002_patches (plus : Json → Json → Json) (j x forms : Json) (kv : Str × Json) (items : List (Str × Json))
    (hx : HasField j (str! "type") x) (hn : IsNumber x 0) (hp : HasField j (str! "patches") (.obj (kv :: items)))
    (hf : HasField j (str! "forms") forms) :
    (M0002.migrateJson plus j).result = .error (.KeyError (str! "7")) ∧ (M0002.migrateJson plus j).doc = j := by
  have h : (M0002.migrateJson plus j).result = .error (.KeyError (str! "7")) := by
    unfold M0002.migrateJson
    rw [item_ok.mpr hx]
    simp only [isInt_iff.mpr hn, item_ok.mpr hp, item_ok.mpr hf, M0002.addition, Json.truth, Json.nth]
    have : pyStr ((7 : Nat) : Int) = str! "7" := by decide +kernel
    simp
    exact this
  exact ⟨h, (C148_untouched plus _ (by simp) j).1 _ h⟩

theorem M0001.nearest_eq (old : Dict Key Nat) : M0001.nearest old = M0001.near old := by
  funext k; rfl

theorem plan1_adjective_needs : Needs (List.replicate 101 (adjectiveBefore1.idxOf [.NUMBER_PLURAL, .CASE_INSTRUMENTAL, .ANIMALITY_ANIMATE, .GRADE_POSITIVE])) 133 :=
  needs_max (by decide +kernel)

set_option maxHeartbeats 4000000 in
theorem plan1_participle_needs : ∃ plan, (wordsCache .PARTICIPLE).keys.mapM (M0001.near M0001.oldParticiple) = .ok plan ∧
    Needs plan 187 ∧ plan ≠ [] := by
  have h : (match (wordsCache .PARTICIPLE).keys.mapM (M0001.near M0001.oldParticiple) with
    | .error _ => false
    | .ok plan => decide (plan.foldr (fun i n => max (i + 1) n) 0 = 187 ∧ plan ≠ [])) = true := by decide +kernel
  cases hp : (wordsCache .PARTICIPLE).keys.mapM (M0001.near M0001.oldParticiple) with
  | error e => rw [hp] at h; simp at h
  | ok plan =>
    rw [hp] at h
    have := of_decide_eq_true h
    exact ⟨plan, rfl, needs_max this.1, this.2⟩

theorem m0001_plan {plan : List Nat} {need : Nat} {old new : Dict Key Nat}
    (hnew : new = new.keys.zipIdx) (hplan : new.keys.mapM (M0001.near old) = .ok plan) (hneed : Needs plan need)
    {parts : List Json} (hn : need ≤ parts.length) (g : Json → Str) :
    M0001.migrateForms old new (parts.map g) = .ok ((plan.map fun i => parts.getD i .null).map g) := by
  have hb := (hneed _).mp hn
  rw [M0001.migrateForms_plan hnew hplan (by simpa using hb)]
  simp only [Except.ok.injEq, List.map_map]
  apply List.map_congr_left
  intro i hi
  have := hb i hi
  simp [this]

/-- C148: m_0001. -/
theorem C148_m0001 (j j' : Json) : (M0001.migrateJson j).result = .ok j' ↔ MigratedBy1 j j' := by
  obtain ⟨plan4, hp4, hn4, he4⟩ := plan1_participle_needs
  have hp1 := plan1_adjective
  have hn1 := plan1_adjective_needs
  generalize hq : List.replicate 101 (adjectiveBefore1.idxOf [.NUMBER_PLURAL, .CASE_INSTRUMENTAL, .ANIMALITY_ANIMATE, .GRADE_POSITIVE]) = plan1 at hp1 hn1
  have he1 : plan1 ≠ [] := by rw [← hq]; simp
  have m1 : ∀ (parts : List Json) (g : Json → Str) (properties : Dict JKey Int), 133 ≤ parts.length →
      M0001.migrate ⟨1, parts.map g, properties⟩ = .ok ⟨1, (plan1.map fun i => parts.getD i .null).map g, properties⟩ := by
    intro parts g properties hn
    unfold M0001.migrate
    rw [if_pos rfl, m0001_plan (wordsCache_zipIdx _) hp1 hn1 hn g]
    rfl
  have m4 : ∀ (parts : List Json) (g : Json → Str) (properties : Dict JKey Int), 187 ≤ parts.length →
      M0001.migrate ⟨4, parts.map g, properties⟩ = .ok ⟨4, (plan4.map fun i => parts.getD i .null).map g, properties⟩ := by
    intro parts g properties hn
    unfold M0001.migrate
    rw [if_neg (by simp), if_pos rfl, m0001_plan (wordsCache_zipIdx _) hp4 hn4 hn g]
    rfl
  have inj : ∀ (n : Int) (l l' : List Json), (∀ (g : Json → Str) (properties : Dict JKey Int),
      (Except.ok ⟨n, l.map g, properties⟩ : Except PyErr WordData) = .ok ⟨n, l'.map g, properties⟩) → l = l' := by
    intro n l l' h
    apply map_texts_inj
    intro g
    simpa only [Except.ok.injEq, WordData.mk.injEq, true_and, and_true] using h g []
  have excl : ∀ x, IsNumber x 1 → ¬ IsNumber x 4 := by
    intro x h1 h4
    have := (asKey_some.mpr h1).symm.trans (asKey_some.mpr h4)
    simp at this
  unfold M0001.migrateJson MigratedBy1
  rw [M0001.nearest_eq, M0001.nearest_eq]
  cases hx : j.item (str! "type") with
  | error e =>
    have hn : ∀ x, ¬ HasField j (str! "type") x := fun x h => by rw [item_ok.mpr h] at hx; cases hx
    simp [hn]
  | ok x =>
    have hx' := item_ok.mp hx
    simp only
    by_cases h1 : IsNumber x 1
    · rw [if_pos (isInt_iff.mpr h1), migratePicked_ok (wordsCache_zipIdx _) hp1 hn1 he1]
      constructor
      · rintro ⟨f, parts, hl, hn, hr⟩
        exact .inr ⟨1, 133, x, f, parts, _, .inl ⟨rfl, rfl⟩, hx', h1, hl, hn, hr, fun g p => m1 parts g p hn⟩
      · rintro (⟨x', hx2, hn, -⟩ | ⟨n, need, x', f, parts, new, hc, hx2, hi, hl, hn, hr, hg⟩)
        · exact absurd (hasField_unique hx' hx2 ▸ h1) hn
        · have := hasField_unique hx' hx2
          subst this
          rcases hc with ⟨rfl, rfl⟩ | ⟨rfl, rfl⟩
          · refine ⟨f, parts, hl, hn, ?_⟩
            rw [← inj 1 new _ fun g p => (hg g p).symm.trans (m1 parts g p hn)]
            exact hr
          · exact absurd hi (excl x h1)
    · rw [if_neg (by simp [isInt_false.mpr h1])]
      by_cases h4 : IsNumber x 4
      · rw [if_pos (isInt_iff.mpr h4), migratePicked_ok (wordsCache_zipIdx _) hp4 hn4 he4]
        constructor
        · rintro ⟨f, parts, hl, hn, hr⟩
          exact .inr ⟨4, 187, x, f, parts, _, .inr ⟨rfl, rfl⟩, hx', h4, hl, hn, hr, fun g p => m4 parts g p hn⟩
        · rintro (⟨x', hx2, -, hn, -⟩ | ⟨n, need, x', f, parts, new, hc, hx2, hi, hl, hn, hr, hg⟩)
          · exact absurd (hasField_unique hx' hx2 ▸ h4) hn
          · have := hasField_unique hx' hx2
            subst this
            rcases hc with ⟨rfl, rfl⟩ | ⟨rfl, rfl⟩
            · exact absurd hi h1
            · refine ⟨f, parts, hl, hn, ?_⟩
              rw [← inj 4 new _ fun g p => (hg g p).symm.trans (m4 parts g p hn)]
              exact hr
      · rw [if_neg (by simp [isInt_false.mpr h4])]
        constructor
        · intro h
          injection h with h
          exact .inl ⟨x, hx', h1, h4, h.symm⟩
        · rintro (⟨x', hx2, -, -, rfl⟩ | ⟨n, need, x', f, parts, new, hc, hx2, hi, -⟩)
          · rfl
          · have := hasField_unique hx' hx2
            subst this
            rcases hc with ⟨rfl, rfl⟩ | ⟨rfl, rfl⟩
            · exact absurd hi h1
            · exact absurd hi h4

/-- One migration after the other. -/
theorem migratedBy_next {old new : WordType → Dict Key Nat} {need : WordType → Nat} {layout : WordType → Layout} {plan : WordType → List Nat}
    (hnew : ∀ t, new t = (new t).keys.zipIdx) (hplan : ∀ t, (new t).keys.mapM (getNearestOldIndex · (old t)) = .ok (plan t))
    (hneed : ∀ t, Needs (plan t) (need t)) (hlen : ∀ t, (plan t).length = (layout t).length) {j j' : Json}
    (h : MigratedBy (migrateWith old new) need j j') :
    ∃ t x items, HasField j' (str! "type") x ∧ IsNumber x t.value ∧ HasField j' (str! "forms") (.arr items) ∧ items.length = (layout t).length := by
  obtain ⟨t, x, f, parts, n, h1, h2, h3, h4, h5, h6⟩ := h
  have hnl : n = (plan t).map fun i => parts.getD i .null := by
    apply map_texts_inj
    intro g
    have e := (h6 g []).symm.trans (layouts_plan (hnew t) (hplan t) (hneed t) h4 g [])
    simpa only [Except.ok.injEq, WordData.mk.injEq, true_and, and_true] using e
  refine ⟨t, x, n, (replaced_other h5 (by decide)).mp h1, h2, replaced_field' h5, ?_⟩
  rw [hnl, List.length_map, hlen]

/-- C148: a document that m_0007 takes goes through m_0008 and m_0009 as well, and it can then be loaded as a word exactly if its properties can
be read: they, and all the other fields, are those of the document at the start. -/
theorem C148_chain (j j1 : Json) (h : (M0007.migrateJson j).result = .ok j1) :
    ∃ j2 j3, (M0008.migrateJson j1).result = .ok j2 ∧ (M0009.migrateJson j2).result = .ok j3 ∧
      (∀ key x, key ≠ str! "forms" → (HasField j key x ↔ HasField j3 key x)) ∧
      ((∃ w, loadWord j3 = .ok w) ↔ ∃ items, HasField j (str! "properties") (.obj items) ∧ Readable items) := by
  have m7 := (C148_m0007 j j1).mp h
  obtain ⟨t, x, items, a1, a2, a3, a4⟩ := migratedBy_next (layout := layoutBefore8) new7 plan7 needs7 (fun t => by simp) m7
  have e2 : ∃ j2, (M0008.migrateJson j1).result = .ok j2 :=
    ⟨_, (C148_m0008 j1 _).mpr ⟨t, x, _, items, _, a1, a2, .arr items, le_of_eq (by rw [a4]; rfl), replaced_of_item _ (item_ok.mpr a3),
      layouts_plan (new8 t) (plan8 t) (needs8 t) (le_of_eq (by rw [a4]; rfl))⟩⟩
  obtain ⟨j2, e2⟩ := e2
  have m8 := (C148_m0008 j1 j2).mp e2
  obtain ⟨t', x', items', b1, b2, b3, b4⟩ := migratedBy_next (layout := layoutBefore9) new8 plan8 needs8 (fun t => by simp) m8
  have e3 : ∃ j3, (M0009.migrateJson j2).result = .ok j3 :=
    ⟨_, (C148_m0009 j2 _).mpr ⟨t', x', _, items', _, b1, b2, .arr items', le_of_eq (by rw [b4]; rfl), replaced_of_item _ (item_ok.mpr b3),
      layouts_plan (new9 t') (plan9 t') (needs9 t') (le_of_eq (by rw [b4]; rfl))⟩⟩
  obtain ⟨j3, e3⟩ := e3
  have m9 := (C148_m0009 j2 j3).mp e3
  obtain ⟨t3, x3, items3, c1, c2, c3, c4⟩ := migratedBy_next (layout := layoutNow) new9 plan9 needs9 (fun t => by simp) m9
  have hkeep : ∀ key x, key ≠ str! "forms" → (HasField j key x ↔ HasField j3 key x) := by
    intro key x hk
    obtain ⟨_, _, _, _, _, -, -, -, -, r7, -⟩ := m7
    obtain ⟨_, _, _, _, _, -, -, -, -, r8, -⟩ := m8
    obtain ⟨_, _, _, _, _, -, -, -, -, r9, -⟩ := m9
    rw [replaced_other r7 hk, replaced_other r8 hk, replaced_other r9 hk]
  refine ⟨j2, j3, e2, e3, hkeep, ?_⟩
  rw [C142_loads]
  constructor
  · rintro ⟨_, _, _, _, ps, -, -, -, -, -, hp, hr⟩
    exact ⟨ps, (hkeep _ _ (by decide)).mpr hp, hr⟩
  · rintro ⟨ps, hp, hr⟩
    refine ⟨t3, x3, _, items3, ps, c1, c2, c3, .arr items3, ?_, (hkeep _ _ (by decide)).mp hp, hr⟩
    rw [c4]
    cases t3 <;> decide +kernel

/-! ## examples -/

/-- A noun of the old layout with one more field, forms that are not all texts, and the part of speech written `0.0`. -/
def exOldDocument : Json := .obj [(str! "note", .str (str! "from 2014")), (str! "type", .float (str! "0.0") (some 0)),
  (str! "forms", .arr (.null :: List.replicate 17 (.str (str! "x")))), (str! "properties", .obj [(str! "2", .int 0)])]

/-- It is migrated: the forms stay as they are, the other fields too. -/
example : (M0007.migrateJson exOldDocument).result = .ok exOldDocument := rfl

/-- A preposition whose forms are a text: m_0009 makes its letters the forms. -/
example : (M0009.migrateJson (.obj [(str! "type", .int 10), (str! "forms", .str (str! "abc"))])).result =
    .ok (.obj [(str! "type", .int 10), (str! "forms", .arr [.str (str! "a"), .str (str! "b"), .str (str! "c")])]) := rfl

/-- A preposition with two forms: m_0009 raises `IndexError`, m_0004 gives it the third. -/
example : (M0009.migrateJson (.obj [(str! "type", .int 10), (str! "forms", .arr [.int 1, .int 2])])).result = .error (.other .IndexError) ∧
    (M0004.migrateJson (.obj [(str! "type", .int 10), (str! "forms", .arr [.int 1, .int 2])])).result =
      .ok (.obj [(str! "type", .int 10), (str! "forms", .arr [.int 1, .int 2, .int 2])]) := ⟨rfl, rfl⟩

/-- A noun with patches, as it is read from JSON. -/
example (plus : Json → Json → Json) : (M0002.migrateJson plus (.obj [(str! "type", .int 0), (str! "forms", .arr []),
    (str! "patches", .obj [(str! "7", .obj [(str! "forms", .arr [.str (str! "x")])])])])).result = .error (.KeyError (str! "7")) :=
  (C148_m0002_patches plus _ (.int 0) (.arr []) _ [] ⟨[], _, rfl, by simp⟩ (.int 0) ⟨[_, _], [], rfl, by decide⟩ ⟨[_], _, rfl, by decide⟩).1

/-- A participle loses the property `5`; a participle whose properties are a list with `'5'` in it raises `TypeError`. -/
example : (M0005.migrateJson (.obj [(str! "type", .int 4), (str! "properties", .obj [(str! "5", .int 1), (str! "6", .int 0)])])).result =
      .ok (.obj [(str! "type", .int 4), (str! "properties", .obj [(str! "6", .int 0)])]) ∧
    (M0005.migrateJson (.obj [(str! "type", .int 4), (str! "properties", .arr [.str (str! "5")])])).result = .error .TypeError := ⟨rfl, rfl⟩

end Utg
