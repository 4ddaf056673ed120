import Verif.Spec.MigrationFaults
import Verif.Props.AnyMigrations
/-! # C148: exactly what the migrations raise -/

namespace Utg
open Py Spec

theorem fieldFault_iff {key : Str} {j : Json} {e : LoadErr} : j.item key = .error e ↔ FieldFault key j e := by
  constructor
  · intro h
    rcases item_error h with ⟨rfl, h2⟩ | ⟨rfl, h2⟩
    · exact .noObject j h2
    · cases j with
      | obj items => exact .missing items h2
      | _ => cases h
  · intro h
    cases h with
    | noObject j h => cases j <;> first | rfl | exact absurd rfl (h _)
    | missing items h =>
      cases hi : (Json.obj items).item key with
      | ok x => exact absurd (item_ok.mp hi) (h x)
      | error e =>
        rcases item_error hi with ⟨-, h2⟩ | ⟨rfl, -⟩
        · exact absurd rfl (h2 items)
        · rfl

theorem not_fieldFault {key : Str} {j x : Json} {e : LoadErr} (h : HasField j key x) : ¬ FieldFault key j e := by
  intro hf
  have := (fieldFault_iff.mpr hf).symm.trans (item_ok.mpr h)
  cases this

theorem mapM_nth_error {f : Json} {parts : List Json} {plan : List Nat} {need : Nat} {e : LoadErr} (hl : Listed f parts) (hn : Needs plan need) :
    (plan.mapM fun i => f.nth i) = .error e ↔ e = .other .IndexError ∧ parts.length < need := by
  constructor
  · intro h
    obtain ⟨i, hi, hx⟩ := mapM_error_mem h
    obtain ⟨rfl, h2⟩ := nth_listed_error hl hx
    refine ⟨rfl, ?_⟩
    by_contra hc
    have := (hn parts.length).mp (by omega) i hi
    omega
  · rintro ⟨rfl, hlt⟩
    cases hm : plan.mapM fun i => f.nth i with
    | error e =>
      obtain ⟨i, hi, hx⟩ := mapM_error_mem hm
      rw [(nth_listed_error hl hx).1]
    | ok xs =>
      exfalso
      have hall : ∀ i ∈ plan, i < parts.length := by
        intro i hi
        obtain ⟨x, -, hx⟩ : ∃ x ∈ xs, f.nth i = .ok x := by
          clear hn
          induction plan generalizing xs with
          | nil => cases hi
          | cons a plan ih =>
            rw [List.mapM_cons] at hm
            cases ha : f.nth a with
            | error e => rw [ha] at hm; cases hm
            | ok y =>
              rw [ha] at hm
              cases hr : plan.mapM fun i => f.nth i with
              | error e => rw [hr] at hm; cases hm
              | ok ys =>
                rw [hr] at hm
                injection hm with hm
                subst hm
                rcases List.mem_cons.mp hi with rfl | hi
                · exact ⟨y, by simp, ha⟩
                · obtain ⟨x, hx, hx'⟩ := ih ys hr hi
                  exact ⟨x, by simp [hx], hx'⟩
        exact (List.getElem?_eq_some_iff.mp ((nth_listed hl).mp hx)).1
      have := (hn parts.length).mpr hall
      omega

theorem formsFault_ok {need first : Nat} {j x : Json} {e : LoadErr} (hx : HasField j (str! "forms") x) :
    FormsFault need first j e ↔ (e = .TypeError ∧ ¬ IsCompound x ∧ ∀ parts, ¬ Listed x parts) ∨
      (∃ items, x = .obj items ∧ e = .KeyError (pyStr first)) ∨ ∃ parts, Listed x parts ∧ parts.length < need ∧ e = .other .IndexError := by
  constructor
  · intro h
    cases h with
    | field e h => exact absurd h (not_fieldFault hx)
    | other y hy h1 h2 => obtain rfl := hasField_unique hx hy; exact .inl ⟨rfl, h1, h2⟩
    | keys items hy => obtain rfl := hasField_unique hx hy; exact .inr (.inl ⟨items, rfl, rfl⟩)
    | short y parts hy h1 h2 => obtain rfl := hasField_unique hx hy; exact .inr (.inr ⟨parts, h1, h2, rfl⟩)
  · rintro (⟨rfl, h1, h2⟩ | ⟨items, rfl, rfl⟩ | ⟨parts, h1, h2, rfl⟩)
    · exact .other x hx h1 h2
    · exact .keys items hx
    · exact .short x parts hx h1 h2

theorem migratePicked_fault {near : Key → Except PyErr Nat} {new : Dict Key Nat} {plan : List Nat} {need first : Nat}
    (hnew : new = new.keys.zipIdx) (hplan : new.keys.mapM near = .ok plan) (hneed : Needs plan need) (hfirst : plan.head? = some first)
    {j : Json} {e : LoadErr} : (migratePicked near new j).result = .error e ↔ FormsFault need first j e := by
  unfold migratePicked
  cases hf : j.item (str! "forms") with
  | error e' =>
    simp only [Except.error.injEq]
    constructor
    · rintro rfl; exact .field _ (fieldFault_iff.mp hf)
    · intro h
      have hno : ∀ x, ¬ HasField j (str! "forms") x := fun x hx => by rw [item_ok.mpr hx] at hf; cases hf
      cases h with
      | field e h => have := hf.symm.trans (fieldFault_iff.mpr h); injection this
      | other y hy h1 h2 => exact absurd hy (hno _)
      | keys items hy => exact absurd hy (hno _)
      | short y parts hy h1 h2 => exact absurd hy (hno _)
  | ok f =>
    rw [formsFault_ok (item_ok.mp hf)]
    simp only
    rw [pickParts_plan hnew hplan]
    have hres : (match plan.mapM fun i => f.nth i with
        | .error e => (⟨j, .error e⟩ : Migrated)
        | .ok newForms => ⟨j.assign (str! "forms") (.arr newForms), .ok (j.assign (str! "forms") (.arr newForms))⟩).result = .error e ↔
        (plan.mapM fun i => f.nth i) = .error e := by
      cases plan.mapM fun i => f.nth i <;> simp
    refine hres.trans ?_
    have hhead : ∀ e', f.nth first = .error e' → (plan.mapM fun i => f.nth i) = .error e' := by
      intro e' he
      cases plan with
      | nil => cases hfirst
      | cons a plan =>
        injection hfirst with hfirst
        subst hfirst
        rw [List.mapM_cons, he]; rfl
    cases f with
    | str s =>
      rw [mapM_nth_error (.str s) hneed]
      constructor
      · rintro ⟨rfl, h⟩; exact .inr (.inr ⟨_, .str s, h, rfl⟩)
      · rintro (⟨-, -, h⟩ | ⟨_, h, -⟩ | ⟨_, h, h', rfl⟩)
        · exact absurd (.str s) (h _)
        · cases h
        · cases h; exact ⟨rfl, h'⟩
    | arr items =>
      rw [mapM_nth_error (.arr items) hneed]
      constructor
      · rintro ⟨rfl, h⟩; exact .inr (.inr ⟨_, .arr items, h, rfl⟩)
      · rintro (⟨-, -, h⟩ | ⟨_, h, -⟩ | ⟨_, h, h', rfl⟩)
        · exact absurd (.arr items) (h _)
        · cases h
        · cases h; exact ⟨rfl, h'⟩
    | obj items =>
      rw [hhead _ rfl]
      constructor
      · intro h; injection h with h; exact .inr (.inl ⟨items, rfl, h.symm⟩)
      · rintro (⟨-, h, -⟩ | ⟨_, -, rfl⟩ | ⟨_, h, -⟩)
        · exact absurd (.obj items) h
        · rfl
        · cases h
    | _ =>
      rw [hhead _ rfl]
      constructor
      · intro h; injection h with h; exact .inl ⟨h.symm, fun h => (by cases h), fun _ h => (by cases h)⟩
      · rintro (⟨rfl, -, -⟩ | ⟨_, h, -⟩ | ⟨_, h, -⟩)
        · rfl
        · cases h
        · cases h

theorem migrateJson_fault {old new : WordType → Dict Key Nat} {need first : WordType → Nat} {plan : WordType → List Nat}
    (hnew : ∀ t, new t = (new t).keys.zipIdx) (hplan : ∀ t, (new t).keys.mapM (getNearestOldIndex · (old t)) = .ok (plan t))
    (hneed : ∀ t, Needs (plan t) (need t)) (hfirst : ∀ t, (plan t).head? = some (first t)) {j : Json} {e : LoadErr} :
    (migrateJson old new j).result = .error e ↔ LayoutFault need first j e := by
  unfold migrateJson
  cases hx : j.item (str! "type") with
  | error e' =>
    simp only [Except.error.injEq]
    have hno : ∀ x, ¬ HasField j (str! "type") x := fun x hx' => by rw [item_ok.mpr hx'] at hx; cases hx
    constructor
    · rintro rfl; exact .type _ (fieldFault_iff.mp hx)
    · intro h
      cases h with
      | type e h => have := hx.symm.trans (fieldFault_iff.mpr h); injection this
      | compound x h => exact absurd h (hno _)
      | unknown x h => exact absurd h (hno _)
      | forms x t e h => exact absurd h (hno _)
  | ok x =>
    have hf := item_ok.mp hx
    simp only
    cases ht : wordTypeOfJson x with
    | error e' =>
      have hn : ∀ t : WordType, ¬ IsNumber x t.value := fun t h => by rw [wordTypeOfJson_ok.mpr h] at ht; cases ht
      simp only [Except.error.injEq]
      have hc : e' = .TypeError ∧ IsCompound x ∨ e' = .Lookup x ∧ ¬ IsCompound x := by
        unfold wordTypeOfJson at ht
        by_cases h : IsCompound x
        · rw [asKey_error.mpr ⟨rfl, h⟩] at ht
          injection ht with ht
          exact .inl ⟨ht.symm, h⟩
        · cases hk : x.asKey with
          | error e'' => exact absurd (asKey_error.mp hk).2 h
          | ok v =>
            rw [hk] at ht
            cases v with
            | none => injection ht with ht; exact .inr ⟨ht.symm, h⟩
            | some v =>
              simp only at ht
              cases hv : wordTypeOfValue v with
              | none => rw [hv] at ht; injection ht with ht; exact .inr ⟨ht.symm, h⟩
              | some t => rw [hv] at ht; cases ht
      constructor
      · rintro rfl
        rcases hc with ⟨rfl, h⟩ | ⟨rfl, h⟩
        · exact .compound x hf h
        · exact .unknown x hf h hn
      · intro h
        cases h with
        | type e h => exact absurd h (not_fieldFault hf)
        | compound y hy h =>
          obtain rfl := hasField_unique hf hy
          rcases hc with ⟨rfl, -⟩ | ⟨-, h'⟩
          · rfl
          · exact absurd h h'
        | unknown y hy h =>
          obtain rfl := hasField_unique hf hy
          rcases hc with ⟨-, h'⟩ | ⟨rfl, -⟩
          · exact absurd h' h
          · rfl
        | forms y t e hy h => obtain rfl := hasField_unique hf hy; exact absurd h (hn t)
    | ok t =>
      have hnum := wordTypeOfJson_ok.mp ht
      simp only
      rw [migratePicked_fault (hnew t) (hplan t) (hneed t) (hfirst t)]
      constructor
      · intro h; exact .forms x t e hf hnum h
      · intro h
        cases h with
        | type e h => exact absurd h (not_fieldFault hf)
        | compound y hy h =>
          obtain rfl := hasField_unique hf hy
          cases h <;> cases hnum
        | unknown y hy h1 h2 => obtain rfl := hasField_unique hf hy; exact absurd hnum (h2 t)
        | forms y t' e hy h h' =>
          obtain rfl := hasField_unique hf hy
          rw [wordTypeOfJson_ok.mpr h] at ht
          injection ht with ht
          subst ht
          exact h'

/-- C148: what m_0007, m_0008 and m_0009 raise, exactly. -/
theorem C148_faults (j : Json) (e : LoadErr) :
    ((M0007.migrateJson j).result = .error e ↔ LayoutFault needed7 first7 j e) ∧
    ((M0008.migrateJson j).result = .error e ↔ LayoutFault needed8 first8 j e) ∧
    ((M0009.migrateJson j).result = .error e ↔ LayoutFault needed9 first9 j e) :=
  ⟨migrateJson_fault new7 plan7 needs7 (fun t => by cases t <;> decide +kernel),
   migrateJson_fault new8 plan8 needs8 (fun t => by cases t <;> decide +kernel),
   migrateJson_fault new9 plan9 needs9 (fun t => by cases t <;> decide +kernel)⟩

theorem type_fault {F : Json → LoadErr → Prop} {j : Json} {e e' : LoadErr} (hx : j.item (str! "type") = .error e')
    (h : F j e → FieldFault (str! "type") j e ∨ ∃ x, HasField j (str! "type") x) : F j e → e' = e := by
  intro hF
  rcases h hF with h | ⟨x, h⟩
  · have := hx.symm.trans (fieldFault_iff.mpr h); injection this
  · rw [item_ok.mpr h] at hx; cases hx

/-- C148: what m_0001 raises, exactly. -/
theorem C148_m0001_faults (j : Json) (e : LoadErr) : (M0001.migrateJson j).result = .error e ↔ Fault1 j e := by
  obtain ⟨plan4, hp4, hn4, he4⟩ : ∃ plan, (wordsCache .PARTICIPLE).keys.mapM (M0001.near M0001.oldParticiple) = .ok plan ∧
      Needs plan 187 ∧ plan.head? = some 49 := by
    have h : (match (wordsCache .PARTICIPLE).keys.mapM (M0001.near M0001.oldParticiple) with
      | .error _ => false
      | .ok plan => decide (plan.foldr (fun i n => max (i + 1) n) 0 = 187 ∧ plan.head? = some 49)) = true := by decide +kernel
    cases hp : (wordsCache .PARTICIPLE).keys.mapM (M0001.near M0001.oldParticiple) with
    | error e => rw [hp] at h; simp at h
    | ok plan =>
      rw [hp] at h
      have := of_decide_eq_true h
      exact ⟨plan, rfl, needs_max this.1, this.2⟩
  have excl : ∀ x, IsNumber x 1 → ¬ IsNumber x 4 := by
    intro x h1 h4
    have := (asKey_some.mpr h1).symm.trans (asKey_some.mpr h4)
    simp at this
  unfold M0001.migrateJson
  rw [M0001.nearest_eq, M0001.nearest_eq]
  cases hx : j.item (str! "type") with
  | error e' =>
    simp only [Except.error.injEq]
    refine ⟨?_, type_fault hx ?_⟩
    · rintro rfl; exact .type _ (fieldFault_iff.mp hx)
    · intro h
      cases h with
      | type e h => exact .inl h
      | adjective x e h => exact .inr ⟨x, h⟩
      | participle x e h => exact .inr ⟨x, h⟩
  | ok x =>
    have hf := item_ok.mp hx
    simp only
    by_cases h1 : IsNumber x 1
    · rw [if_pos (isInt_iff.mpr h1), migratePicked_fault (wordsCache_zipIdx _) plan1_adjective plan1_adjective_needs (first := 132) (by decide +kernel)]
      refine ⟨.adjective x e hf h1, ?_⟩
      intro h
      cases h with
      | type e h => exact absurd h (not_fieldFault hf)
      | adjective y e hy h h' => exact h'
      | participle y e hy h => obtain rfl := hasField_unique hf hy; exact absurd h (excl _ h1)
    · rw [if_neg (by simp [isInt_false.mpr h1])]
      by_cases h4 : IsNumber x 4
      · rw [if_pos (isInt_iff.mpr h4), migratePicked_fault (wordsCache_zipIdx _) hp4 hn4 he4]
        refine ⟨.participle x e hf h4, ?_⟩
        intro h
        cases h with
        | type e h => exact absurd h (not_fieldFault hf)
        | adjective y e hy h => obtain rfl := hasField_unique hf hy; exact absurd h h1
        | participle y e hy h h' => exact h'
      · rw [if_neg (by simp [isInt_false.mpr h4])]
        refine ⟨fun h => (by cases h), ?_⟩
        intro h
        cases h with
        | type e h => exact absurd h (not_fieldFault hf)
        | adjective y e hy h => obtain rfl := hasField_unique hf hy; exact absurd h h1
        | participle y e hy h => obtain rfl := hasField_unique hf hy; exact absurd h h4

/-- C148: what m_0004 raises, exactly. -/
theorem C148_m0004_faults (j : Json) (e : LoadErr) : (M0004.migrateJson j).result = .error e ↔ Fault4 j e := by
  unfold M0004.migrateJson
  cases hx : j.item (str! "type") with
  | error e' =>
    simp only [Except.error.injEq]
    refine ⟨?_, type_fault hx ?_⟩
    · rintro rfl; exact .type _ (fieldFault_iff.mp hx)
    · intro h
      cases h with
      | type e h => exact .inl h
      | forms x e h => exact .inr ⟨x, h⟩
      | noList x f h => exact .inr ⟨x, h⟩
      | empty x h => exact .inr ⟨x, h⟩
  | ok x =>
    have hf := item_ok.mp hx
    simp only
    by_cases h1 : IsNumber x 10
    · rw [if_neg (by simp [isInt_iff.mpr h1])]
      cases hi : j.item (str! "forms") with
      | error e' =>
        have hno : ∀ x, ¬ HasField j (str! "forms") x := fun x hx' => by rw [item_ok.mpr hx'] at hi; cases hi
        simp only [Except.error.injEq]
        constructor
        · rintro rfl; exact .forms x _ hf h1 (fieldFault_iff.mp hi)
        · intro h
          cases h with
          | type e h => exact absurd h (not_fieldFault hf)
          | forms y e hy h h' => have := hi.symm.trans (fieldFault_iff.mpr h'); injection this
          | noList y f hy h h' => exact absurd h' (hno _)
          | empty y hy h h' => exact absurd h' (hno _)
      | ok forms =>
        have hfo := item_ok.mp hi
        have back : Fault4 j e → e = .AttributeError ∧ (∀ items, forms ≠ .arr items) ∨ e = .other .IndexError ∧ forms = .arr [] := by
          intro h
          cases h with
          | type e h => exact absurd h (not_fieldFault hf)
          | forms y e hy h h' => exact absurd h' (not_fieldFault hfo)
          | noList y f hy h h' hn => obtain rfl := hasField_unique hfo h'; exact .inl ⟨rfl, hn⟩
          | empty y hy h h' => obtain rfl := hasField_unique hfo h'; exact .inr ⟨rfl, rfl⟩
        cases forms with
        | arr items =>
          simp only
          cases hl : items.getLast? with
          | none =>
            rw [List.getLast?_eq_none_iff] at hl
            subst hl
            simp only [Except.error.injEq]
            constructor
            · rintro rfl; exact .empty x hf h1 hfo
            · intro h
              rcases back h with ⟨-, h⟩ | ⟨rfl, -⟩
              · exact absurd rfl (h _)
              · rfl
          | some last =>
            refine ⟨fun h => (by cases h), fun h => ?_⟩
            rcases back h with ⟨-, h⟩ | ⟨-, h⟩
            · exact absurd rfl (h _)
            · injection h with h; subst h; cases hl
        | _ =>
          simp only [Except.error.injEq]
          constructor
          · rintro rfl; exact .noList x _ hf h1 hfo (fun _ h => (by cases h))
          · intro h
            rcases back h with ⟨rfl, -⟩ | ⟨-, h⟩
            · rfl
            · cases h
    · rw [if_pos (by simp [isInt_false.mpr h1])]
      refine ⟨fun h => (by cases h), ?_⟩
      intro h
      cases h with
      | type e h => exact absurd h (not_fieldFault hf)
      | forms y e hy h => obtain rfl := hasField_unique hf hy; exact absurd h h1
      | noList y f hy h => obtain rfl := hasField_unique hf hy; exact absurd h h1
      | empty y hy h => obtain rfl := hasField_unique hf hy; exact absurd h h1

theorem hasFive_str (s : Str) : s.contains '5' = true ↔ Json.str (str! "5") ∈ s.map fun c => Json.str [c] := by
  simp only [List.contains_iff_mem, List.mem_map, Json.str.injEq]
  constructor
  · intro h; exact ⟨'5', h, rfl⟩
  · rintro ⟨c, hc, h⟩
    have : c = '5' := by injection h
    rwa [← this]

theorem hasFive_arr (items : List Json) : items.any (Json.isText (str! "5")) = true ↔ Json.str (str! "5") ∈ items := by
  rw [List.any_eq_true]
  constructor
  · rintro ⟨x, hx, h⟩
    cases x with
    | str t => simp only [Json.isText, beq_iff_eq] at h; subst h; exact hx
    | _ => simp [Json.isText] at h
  · intro h; exact ⟨_, h, by simp [Json.isText]⟩

/-- C148: what m_0005 raises, exactly. -/
theorem C148_m0005_faults (j : Json) (e : LoadErr) : (M0005.migrateJson j).result = .error e ↔ Fault5 j e := by
  unfold M0005.migrateJson
  cases hx : j.item (str! "type") with
  | error e' =>
    simp only [Except.error.injEq]
    refine ⟨?_, type_fault hx ?_⟩
    · rintro rfl; exact .type _ (fieldFault_iff.mp hx)
    · intro h
      cases h with
      | type e h => exact .inl h
      | properties x e h => exact .inr ⟨x, h⟩
      | other x f h => exact .inr ⟨x, h⟩
      | five x f p h => exact .inr ⟨x, h⟩
  | ok x =>
    have hf := item_ok.mp hx
    simp only
    by_cases h1 : IsNumber x 4
    · rw [if_neg (by simp [isInt_iff.mpr h1])]
      cases hi : j.item (str! "properties") with
      | error e' =>
        have hno : ∀ x, ¬ HasField j (str! "properties") x := fun x hx' => by rw [item_ok.mpr hx'] at hi; cases hi
        simp only [Except.error.injEq]
        constructor
        · rintro rfl; exact .properties x _ hf h1 (fieldFault_iff.mp hi)
        · intro h
          cases h with
          | type e h => exact absurd h (not_fieldFault hf)
          | properties y e hy h h' => have := hi.symm.trans (fieldFault_iff.mpr h'); injection this
          | other y f hy h h' => exact absurd h' (hno _)
          | five y f p hy h h' => exact absurd h' (hno _)
      | ok ps =>
        have hfo := item_ok.mp hi
        have back : Fault5 j e → e = .TypeError ∧ (¬ IsCompound ps ∧ (∀ parts, ¬ Listed ps parts) ∨
            ∃ parts, Listed ps parts ∧ .str (str! "5") ∈ parts) := by
          intro h
          cases h with
          | type e h => exact absurd h (not_fieldFault hf)
          | properties y e hy h h' => exact absurd h' (not_fieldFault hfo)
          | other y f hy h h' h2 h3 => obtain rfl := hasField_unique hfo h'; exact ⟨rfl, .inl ⟨h2, h3⟩⟩
          | five y f p hy h h' h2 h3 => obtain rfl := hasField_unique hfo h'; exact ⟨rfl, .inr ⟨p, h2, h3⟩⟩
        cases ps with
        | obj items =>
          simp only [Json.hasFive]
          constructor
          · intro h
            cases hc : Dict.contains items (str! "5") <;> rw [hc] at h <;> cases h
          · intro h
            rcases back h with ⟨-, ⟨h, -⟩ | ⟨_, h, -⟩⟩
            · exact absurd (.obj items) h
            · cases h
        | arr items =>
          simp only [Json.hasFive]
          cases hc : items.any (Json.isText (str! "5")) with
          | true =>
            simp only [Except.error.injEq]
            constructor
            · rintro rfl; exact .five x _ _ hf h1 hfo (.arr items) ((hasFive_arr items).mp hc)
            · intro h; exact (back h).1.symm
          | false =>
            refine ⟨fun h => (by cases h), fun h => ?_⟩
            rcases back h with ⟨-, ⟨h, -⟩ | ⟨_, h, h'⟩⟩
            · exact absurd (.arr items) h
            · cases h; rw [(hasFive_arr items).mpr h'] at hc; cases hc
        | str s =>
          simp only [Json.hasFive]
          cases hc : s.contains '5' with
          | true =>
            simp only [Except.error.injEq]
            constructor
            · rintro rfl; exact .five x _ _ hf h1 hfo (.str s) ((hasFive_str s).mp hc)
            · intro h; exact (back h).1.symm
          | false =>
            refine ⟨fun h => (by cases h), fun h => ?_⟩
            rcases back h with ⟨-, ⟨-, h⟩ | ⟨_, h, h'⟩⟩
            · exact absurd (.str s) (h _)
            · cases h; rw [(hasFive_str s).mpr h'] at hc; cases hc
        | _ =>
          simp only [Json.hasFive, Except.error.injEq]
          constructor
          · rintro rfl; exact .other x _ hf h1 hfo (fun h => (by cases h)) (fun _ h => (by cases h))
          · intro h; exact (back h).1.symm
    · rw [if_pos (by simp [isInt_false.mpr h1])]
      refine ⟨fun h => (by cases h), ?_⟩
      intro h
      cases h with
      | type e h => exact absurd h (not_fieldFault hf)
      | properties y e hy h => obtain rfl := hasField_unique hf hy; exact absurd h h1
      | other y f hy h => obtain rfl := hasField_unique hf hy; exact absurd h h1
      | five y f p hy h => obtain rfl := hasField_unique hf hy; exact absurd h h1

theorem add_error {plus : Json → Json → Json} {x y : Json} {e : LoadErr} :
    x.add plus y = .error e ↔ e = .TypeError ∧ ∀ z, ¬ Joined plus x y z := by
  have hT : ∀ e, x.add plus y = .error e → e = .TypeError := by
    intro e h
    cases x with
    | arr items =>
      simp only [Json.add] at h
      cases hi : y.iterate with
      | error e' => rw [hi] at h; injection h with h; subst h; exact (iterate_error hi).1
      | ok more => rw [hi] at h; cases h
    | str s =>
      cases y <;> simp [Json.add, Json.isNumeral] at h <;> exact h.symm
    | _ =>
      simp only [Json.add] at h
      split at h
      · cases h
      · injection h with h; exact h.symm
  constructor
  · intro h
    refine ⟨hT e h, fun z hz => ?_⟩
    rw [add_ok.mpr hz] at h
    cases h
  · rintro ⟨rfl, h⟩
    cases ha : x.add plus y with
    | error e => rw [hT e ha]
    | ok z => exact absurd (add_ok.mp ha) (h z)

/-- What is wrong with the forms that m_0002 adds. -/
theorem addition_error {j patches forms : Json} {e : LoadErr} (hp : HasField j (str! "patches") patches) :
    M0002.addition j patches forms = .error e ↔
      (Nothing patches ∧ e = .TypeError ∧ ∀ parts, ¬ Listed forms parts) ∨
      (∃ kv items, patches = .obj (kv :: items) ∧ e = .KeyError (str! "7")) ∨
      (¬ Nothing patches ∧ ¬ IsCompound patches ∧ (∀ parts, ¬ Listed patches parts) ∧ e = .TypeError) ∨
      (∃ parts, ¬ Nothing patches ∧ Listed patches parts ∧ parts.length ≤ 7 ∧ e = .other .IndexError) ∨
      ∃ parts patch, Listed patches parts ∧ parts[7]? = some patch ∧ FieldFault (str! "forms") patch e := by
  have hnl : ∀ parts patch, Nothing patches → Listed patches parts → parts[7]? ≠ some patch := by
    intro parts patch hn hl
    cases hl with
    | arr items =>
      cases hn with
      | number h => rename_i hx; cases hx
      | arr => simp
    | str s =>
      cases hn with
      | number h => rename_i hx; cases hx
      | str => simp
  unfold M0002.addition
  by_cases hn : Nothing patches
  · rw [if_neg (by simp [truth_false.mpr hn])]
    have hobj : ∀ kv items, patches ≠ .obj (kv :: items) := by
      rintro kv items rfl
      cases hn with
      | number h => rename_i hx; cases hx
    constructor
    · intro h
      refine .inl ⟨hn, ?_⟩
      cases forms with
      | str s => cases h
      | arr s => cases h
      | _ => simp only [Json.rest, Except.error.injEq] at h; exact ⟨h.symm, fun _ h => (by cases h)⟩
    · rintro (⟨-, rfl, h⟩ | ⟨kv, items, h, -⟩ | ⟨h, -⟩ | ⟨_, h, -⟩ | ⟨parts, patch, h1, h2, -⟩)
      · cases forms with
        | str s => exact absurd (.str s) (h _)
        | arr s => exact absurd (.arr s) (h _)
        | _ => rfl
      · exact absurd h (hobj _ _)
      · exact absurd hn h
      · exact absurd hn h
      · exact absurd h2 (hnl _ _ hn h1)
  · have ht : patches.truth = true := by
      cases h : patches.truth with
      | true => rfl
      | false => exact absurd (truth_false.mp h) hn
    rw [if_pos ht, item_ok.mpr hp]
    simp only [hn, false_and, false_or, not_false_eq_true, true_and]
    have hlisted : ∀ parts, Listed patches parts →
        ((match patches.nth 7 with
          | .error e => .error e
          | .ok patch => patch.item (str! "forms") : Except LoadErr Json) = .error e ↔
          (parts.length ≤ 7 ∧ e = .other .IndexError) ∨ ∃ patch, parts[7]? = some patch ∧ FieldFault (str! "forms") patch e) := by
      intro parts hl
      cases h7 : patches.nth 7 with
      | error e' =>
        obtain ⟨rfl, h2⟩ := nth_listed_error hl h7
        simp only [Except.error.injEq]
        constructor
        · rintro rfl; exact .inl ⟨h2, rfl⟩
        · rintro (⟨-, rfl⟩ | ⟨patch, h, -⟩)
          · rfl
          · have := (List.getElem?_eq_some_iff.mp h).1; omega
      | ok patch =>
        have h7' := (nth_listed hl).mp h7
        simp only
        rw [fieldFault_iff]
        constructor
        · intro h; exact .inr ⟨patch, h7', h⟩
        · rintro (⟨h, -⟩ | ⟨patch', h, h'⟩)
          · have := (List.getElem?_eq_some_iff.mp h7').1; omega
          · rw [h7'] at h; injection h with h; subst h; exact h'
    cases patches with
    | arr items =>
      refine (hlisted _ (.arr items)).trans ?_
      constructor
      · rintro (⟨h1, rfl⟩ | ⟨patch, h1, h2⟩)
        · exact .inr (.inr (.inl ⟨_, .arr items, h1, rfl⟩))
        · exact .inr (.inr (.inr ⟨_, patch, .arr items, h1, h2⟩))
      · rintro (⟨_, _, h, -⟩ | ⟨h, -⟩ | ⟨_, h, h1, rfl⟩ | ⟨_, patch, h, h1, h2⟩)
        · cases h
        · exact absurd (.arr items) h
        · cases h; exact .inl ⟨h1, rfl⟩
        · cases h; exact .inr ⟨patch, h1, h2⟩
    | str s =>
      refine (hlisted _ (.str s)).trans ?_
      constructor
      · rintro (⟨h1, rfl⟩ | ⟨patch, h1, h2⟩)
        · exact .inr (.inr (.inl ⟨_, .str s, h1, rfl⟩))
        · exact .inr (.inr (.inr ⟨_, patch, .str s, h1, h2⟩))
      · rintro (⟨_, _, h, -⟩ | ⟨-, h, -⟩ | ⟨_, h, h1, rfl⟩ | ⟨_, patch, h, h1, h2⟩)
        · cases h
        · exact absurd (.str s) (h _)
        · cases h; exact .inl ⟨h1, rfl⟩
        · cases h; exact .inr ⟨patch, h1, h2⟩
    | obj items =>
      cases items with
      | nil => cases ht
      | cons kv items =>
        simp only [Json.nth, Except.error.injEq]
        have h7 : pyStr ((7 : Nat) : Int) = str! "7" := by decide +kernel
        constructor
        · rintro rfl; exact .inl ⟨kv, items, rfl, by rw [h7]⟩
        · rintro (⟨_, _, -, rfl⟩ | ⟨h, -⟩ | ⟨_, h, -⟩ | ⟨_, _, h, -⟩)
          · rw [h7]
          · exact absurd (.obj _) h
          · cases h
          · cases h
    | _ =>
      simp only [Json.nth, Except.error.injEq]
      constructor
      · rintro rfl; exact .inr (.inl ⟨fun h => (by cases h), fun _ h => (by cases h), rfl⟩)
      · rintro (⟨_, _, h, -⟩ | ⟨-, -, rfl⟩ | ⟨_, h, -⟩ | ⟨_, _, h, -⟩)
        · cases h
        · rfl
        · cases h
        · cases h

theorem addition_ok {j patches forms more : Json} (hp : HasField j (str! "patches") patches) (h : M0002.addition j patches forms = .ok more) :
    (Nothing patches ∧ forms.rest 6 = .ok more) ∨
      (¬ Nothing patches ∧ ∃ parts patch, Listed patches parts ∧ parts[7]? = some patch ∧ HasField patch (str! "forms") more) := by
  unfold M0002.addition at h
  cases ht : patches.truth with
  | false => rw [ht, if_neg (by simp)] at h; exact .inl ⟨truth_false.mp ht, h⟩
  | true =>
    rw [ht, if_pos rfl, item_ok.mpr hp] at h
    simp only at h
    refine .inr ⟨fun hn => (by rw [truth_false.mpr hn] at ht; cases ht), ?_⟩
    cases h7 : patches.nth 7 with
    | error e => rw [h7] at h; cases h
    | ok patch =>
      rw [h7] at h
      obtain ⟨parts, hl⟩ := nth_ok_listed h7
      exact ⟨parts, patch, hl, (nth_listed hl).mp h7, item_ok.mp h⟩

theorem listed_unique {x : Json} {l l' : List Json} (h : Listed x l) (h' : Listed x l') : l = l' := by
  cases h <;> cases h' <;> rfl

theorem nothing_short {patches patch : Json} {parts : List Json} (hl : Listed patches parts) (h7 : parts[7]? = some patch) : ¬ Nothing patches := by
  intro hn
  cases hl with
  | arr items =>
    cases hn with
    | number h => rename_i hx; cases hx
    | arr => simp at h7
  | str s =>
    cases hn with
    | number h => rename_i hx; cases hx
    | str => simp at h7

/-- C148: what m_0002 raises, exactly. -/
theorem C148_m0002_faults (plus : Json → Json → Json) (j : Json) (e : LoadErr) :
    (M0002.migrateJson plus j).result = .error e ↔ Fault2 plus j e := by
  unfold M0002.migrateJson
  cases hx : j.item (str! "type") with
  | error e' =>
    simp only [Except.error.injEq]
    refine ⟨?_, type_fault hx ?_⟩
    · rintro rfl; exact .type _ (fieldFault_iff.mp hx)
    · intro h
      cases h <;> first | exact .inl (by assumption) | exact .inr ⟨_, by assumption⟩
  | ok x =>
    have hf := item_ok.mp hx
    simp only
    by_cases h1 : IsNumber x 0
    · rw [if_neg (by simp [isInt_iff.mpr h1])]
      cases hi : j.item (str! "patches") with
      | error e' =>
        have hno : ∀ x, ¬ HasField j (str! "patches") x := fun x hx' => by rw [item_ok.mpr hx'] at hi; cases hi
        simp only [Except.error.injEq]
        constructor
        · rintro rfl; exact .patches x _ hf h1 (fieldFault_iff.mp hi)
        · intro h
          cases h with
          | type e h => exact absurd h (not_fieldFault hf)
          | patches y e hy h h' => have := hi.symm.trans (fieldFault_iff.mpr h'); injection this
          | _ => exact absurd (by assumption) (hno _)
      | ok patches =>
        have hp := item_ok.mp hi
        simp only
        cases hfo : j.item (str! "forms") with
        | error e' =>
          have hno : ∀ x, ¬ HasField j (str! "forms") x := fun x hx' => by rw [item_ok.mpr hx'] at hfo; cases hfo
          simp only [Except.error.injEq]
          constructor
          · rintro rfl; exact .forms x patches _ hf h1 hp (fieldFault_iff.mp hfo)
          · intro h
            cases h with
            | type e h => exact absurd h (not_fieldFault hf)
            | patches y e hy h h' => exact absurd h' (not_fieldFault hp)
            | forms y q e hy h h' h'' => have := hfo.symm.trans (fieldFault_iff.mpr h''); injection this
            | noList y q f hy h h' hq hff => exact absurd hff (hno _)
            | keys y f kv items hy h h' hff => exact absurd hff (hno _)
            | number y q f hy h h' _ _ _ hff => exact absurd hff (hno _)
            | short y q f p hy h h' _ _ _ hff => exact absurd hff (hno _)
            | patch y q f pp p e hy h h' _ _ hff => exact absurd hff (hno _)
            | sum y q f pp m p hy h h' _ _ hff => exact absurd hff (hno _)
        | ok forms =>
          have hff := item_ok.mp hfo
          simp only
          cases ha : M0002.addition j patches forms with
          | error e' =>
            have ha' := (addition_error hp).mp ha
            simp only [Except.error.injEq]
            constructor
            · rintro rfl
              rcases ha' with ⟨hn, rfl, h⟩ | ⟨kv, items, rfl, rfl⟩ | ⟨hn, hc, hl, rfl⟩ | ⟨parts, hn, hl, h7, rfl⟩ | ⟨parts, patch, hl, h7, h⟩
              · exact .noList x patches forms hf h1 hp hn hff (fun items hc => h items (hc ▸ .arr items))
              · exact .keys x forms kv items hf h1 hp hff
              · exact .number x patches forms hf h1 hp hn hc hl hff
              · exact .short x patches forms parts hf h1 hp hn hl h7 hff
              · exact .patch x patches forms patch parts _ hf h1 hp hl h7 hff h
            · intro h
              have same : ∀ e'', M0002.addition j patches forms = .error e'' → e' = e'' := by
                intro e'' h; rw [ha] at h; injection h
              cases h with
              | type e h => exact absurd h (not_fieldFault hf)
              | patches y e hy h h' => exact absurd h' (not_fieldFault hp)
              | forms y q e hy h h' h'' => exact absurd h'' (not_fieldFault hff)
              | noList y q f hy h h' hn hf2 hl =>
                obtain rfl := hasField_unique hp h'
                rcases ha' with ⟨-, rfl, -⟩ | ⟨kv, items, rfl, rfl⟩ | ⟨hn', -⟩ | ⟨parts, hn', -⟩ | ⟨parts, patch, hl, h7, -⟩
                · rfl
                · cases hn with
                  | number h => rename_i hx; cases hx
                · exact absurd hn hn'
                · exact absurd hn hn'
                · exact absurd hn (nothing_short hl h7)
              | keys y f kv items hy h h' hf2 =>
                obtain rfl := hasField_unique hp h'
                exact same _ ((addition_error hp).mpr (.inr (.inl ⟨kv, items, rfl, rfl⟩)))
              | number y q f hy h h' hn hc hl hf2 =>
                obtain rfl := hasField_unique hp h'
                exact same _ ((addition_error hp).mpr (.inr (.inr (.inl ⟨hn, hc, hl, rfl⟩))))
              | short y q f p hy h h' hn hl h7 hf2 =>
                obtain rfl := hasField_unique hp h'
                exact same _ ((addition_error hp).mpr (.inr (.inr (.inr (.inl ⟨p, hn, hl, h7, rfl⟩)))))
              | patch y q f pp p e hy h h' hl h7 hf2 hpf =>
                obtain rfl := hasField_unique hp h'
                exact same _ ((addition_error hp).mpr (.inr (.inr (.inr (.inr ⟨p, pp, hl, h7, hpf⟩)))))
              | sum y q f pp m p hy h h' hl h7 hf2 hm hj =>
                exfalso
                obtain rfl := hasField_unique hp h'
                rcases ha' with ⟨hn, -⟩ | ⟨kv, items, rfl, -⟩ | ⟨-, -, h, -⟩ | ⟨parts, -, hl', hle, -⟩ | ⟨parts, patch, hl', h7', hpf⟩
                · exact nothing_short hl h7 hn
                · cases hl
                · exact h _ hl
                · obtain rfl := listed_unique hl hl'
                  have := (List.getElem?_eq_some_iff.mp h7).1; omega
                · obtain rfl := listed_unique hl hl'
                  rw [h7] at h7'
                  injection h7' with h7'
                  subst h7'
                  exact not_fieldFault hm hpf
          | ok more =>
            have ha' := addition_ok hp ha
            simp only
            have hno : ∀ e'', M0002.addition j patches forms ≠ .error e'' := by intro e'' h; rw [ha] at h; cases h
            have key : (match forms.add plus more with
                | .error e => (⟨j, .error e⟩ : Migrated)
                | .ok forms' => ⟨j.assign (str! "forms") forms', .ok (j.assign (str! "forms") forms')⟩).result = .error e ↔
                forms.add plus more = .error e := by cases forms.add plus more <;> simp
            refine key.trans ?_
            rw [add_error]
            constructor
            · rintro ⟨rfl, hj⟩
              rcases ha' with ⟨hn, hr⟩ | ⟨-, parts, patch, hl, h7, hm⟩
              · refine .noList x patches forms hf h1 hp hn hff ?_
                rintro items rfl
                simp only [Json.rest, Except.ok.injEq] at hr
                subst hr
                exact hj _ (.list items _ _ (.arr _))
              · exact .sum x patches forms patch more parts hf h1 hp hl h7 hff hm hj
            · intro h
              cases h with
              | type e h => exact absurd h (not_fieldFault hf)
              | patches y e hy h h' => exact absurd h' (not_fieldFault hp)
              | forms y q e hy h h' h'' => exact absurd h'' (not_fieldFault hff)
              | noList y q f hy h h' hn hf2 hl =>
                obtain rfl := hasField_unique hp h'
                obtain rfl := hasField_unique hff hf2
                rcases ha' with ⟨-, hr⟩ | ⟨hn', -⟩
                · refine ⟨rfl, fun z hz => ?_⟩
                  cases forms with
                  | arr items => exact hl items rfl
                  | str s => simp only [Json.rest, Except.ok.injEq] at hr; subst hr; cases hz; rename_i h1 h2; cases h1
                  | _ => cases hr
                · exact absurd hn hn'
              | keys y f kv items hy h h' hf2 =>
                obtain rfl := hasField_unique hp h'
                exact absurd ((addition_error hp).mpr (.inr (.inl ⟨kv, items, rfl, rfl⟩))) (hno _)
              | number y q f hy h h' hn hc hl hf2 =>
                obtain rfl := hasField_unique hp h'
                exact absurd ((addition_error hp).mpr (.inr (.inr (.inl ⟨hn, hc, hl, rfl⟩)))) (hno _)
              | short y q f p hy h h' hn hl h7 hf2 =>
                obtain rfl := hasField_unique hp h'
                exact absurd ((addition_error hp).mpr (.inr (.inr (.inr (.inl ⟨p, hn, hl, h7, rfl⟩))))) (hno _)
              | patch y q f pp p e hy h h' hl h7 hf2 hpf =>
                obtain rfl := hasField_unique hp h'
                exact absurd ((addition_error hp).mpr (.inr (.inr (.inr (.inr ⟨p, pp, hl, h7, hpf⟩))))) (hno _)
              | sum y q f pp m p hy h h' hl h7 hf2 hm hj =>
                obtain rfl := hasField_unique hp h'
                obtain rfl := hasField_unique hff hf2
                rcases ha' with ⟨hn, -⟩ | ⟨-, parts, patch, hl', h7', hm'⟩
                · exact absurd hn (nothing_short hl h7)
                · obtain rfl := listed_unique hl hl'
                  rw [h7] at h7'
                  injection h7' with h7'
                  subst h7'
                  obtain rfl := hasField_unique hm hm'
                  exact ⟨rfl, hj⟩
    · rw [if_pos (by simp [isInt_false.mpr h1])]
      refine ⟨fun h => (by cases h), ?_⟩
      intro h
      have hno : ∀ y, HasField j (str! "type") y → ¬ IsNumber y 0 := by
        intro y hy; obtain rfl := hasField_unique hf hy; exact h1
      cases h with
      | type e h => exact absurd h (not_fieldFault hf)
      | _ => exact absurd (by assumption) (hno _ (by assumption))

/-! ## examples -/

/-- A pronoun whose forms are an object: m_0009 looks for the form 6 first; a participle without forms; a preposition whose forms are a text. -/
example : LayoutFault needed9 first9 (.obj [(str! "type", .int 2), (str! "forms", .obj [])]) (.KeyError (str! "6")) ∧
    Fault1 (.obj [(str! "type", .bool true)]) (.KeyError (str! "forms")) ∧
    Fault4 (.obj [(str! "type", .int 10), (str! "forms", .str (str! "ab"))]) .AttributeError :=
  ⟨.forms (.int 2) .PRONOUN _ ⟨[], _, rfl, by simp⟩ (.int 2)
      ((show pyStr ((6 : Nat) : Int) = str! "6" by decide +kernel) ▸ .keys [] ⟨[_], [], rfl, by decide⟩), (C148_m0001_faults _ _).mp rfl, (C148_m0004_faults _ _).mp rfl⟩

/-- A participle whose properties are the number 5; a noun with eight patches, the last of them without forms. -/
example (plus : Json → Json → Json) : Fault5 (.obj [(str! "type", .int 4), (str! "properties", .int 5)]) .TypeError ∧
    Fault2 plus (.obj [(str! "type", .int 0), (str! "forms", .arr []), (str! "patches", .arr (List.replicate 8 (.obj [])))]) (.KeyError (str! "forms")) :=
  ⟨(C148_m0005_faults _ _).mp rfl, (C148_m0002_faults _ _ _).mp rfl⟩

end Utg
