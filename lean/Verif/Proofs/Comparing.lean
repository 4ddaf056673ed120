import Verif.Spec.AnyDictionary
import Verif.Props.AnyJson
/-! # Comparing JSON values: lemmas -/

namespace Utg
open Py Spec

theorem hasField_obj {d : List (Str × Json)} {k : Str} {x : Json} : HasField (.obj d) k x ↔ Dict.get? d k = some x := by
  rw [← item_ok]
  unfold Json.item
  cases h : Dict.get? d k <;> simp [h]

theorem hkey_plain {x y : Json} (hx : ∀ l, x ≠ .arr l) (hx' : ∀ l, x ≠ .obj l) :
    (match x.hkey, y.hkey with
    | .ok a, .ok b => decide (a = b)
    | _, _ => false) = true ↔ Same x y := by
  constructor
  · intro h
    cases x with
    | arr l => exact absurd rfl (hx l)
    | obj l => exact absurd rfl (hx' l)
    | null => cases y with
      | null => exact .null
      | float s v => cases v <;> simp [Json.hkey] at h
      | _ => simp [Json.hkey] at h
    | str s => cases y with
      | str t => simp [Json.hkey] at h; subst h; exact .text s
      | float s v => cases v <;> simp [Json.hkey] at h
      | _ => simp [Json.hkey] at h
    | bool b => cases y with
      | bool b' => cases b <;> cases b' <;> simp [Json.hkey] at h <;> first | exact .number _ _ 1 .yes .yes | exact .number _ _ 0 .no .no
      | int n =>
        simp [Json.hkey] at h
        subst h
        cases b
        · exact .number _ _ 0 .no (.int _)
        · exact .number _ _ 1 .yes (.int _)
      | float s v => cases v with
        | none => simp [Json.hkey] at h
        | some n =>
          simp [Json.hkey] at h
          subst h
          cases b
          · exact .number _ _ 0 .no (.float _ _)
          · exact .number _ _ 1 .yes (.float _ _)
      | _ => simp [Json.hkey] at h
    | int m => cases y with
      | bool b =>
        simp [Json.hkey] at h
        subst h
        cases b
        · exact .number _ _ 0 (.int _) .no
        · exact .number _ _ 1 (.int _) .yes
      | int n => simp [Json.hkey] at h; subst h; exact .number _ _ _ (.int _) (.int _)
      | float s v => cases v with
        | none => simp [Json.hkey] at h
        | some n => simp [Json.hkey] at h; subst h; exact .number _ _ _ (.int _) (.float _ _)
      | _ => simp [Json.hkey] at h
    | float r u => cases u with
      | none => cases y with
        | float s v => cases v with
          | none => simp [Json.hkey] at h; subst h; exact .fraction _
          | some n => simp [Json.hkey] at h
        | _ => simp [Json.hkey] at h
      | some m => cases y with
        | bool b =>
          simp [Json.hkey] at h
          subst h
          cases b
          · exact .number _ _ 0 (.float _ _) .no
          · exact .number _ _ 1 (.float _ _) .yes
        | int n => simp [Json.hkey] at h; subst h; exact .number _ _ _ (.float _ _) (.int _)
        | float s v => cases v with
          | none => simp [Json.hkey] at h
          | some n => simp [Json.hkey] at h; subst h; exact .number _ _ _ (.float _ _) (.float _ _)
        | _ => simp [Json.hkey] at h
  · intro h
    cases h with
    | null => simp [Json.hkey]
    | number _ _ n h1 h2 => cases h1 <;> cases h2 <;> simp [Json.hkey]
    | fraction => simp [Json.hkey]
    | text => simp [Json.hkey]
    | list xs ys => exact absurd rfl (hx xs)
    | object xs ys => exact absurd rfl (hx' xs)

mutual
theorem eqv_iff : ∀ x y : Json, x.eqv y = true ↔ Same x y
  | .arr xs, y => by
    unfold Json.eqv
    cases y with
    | arr ys =>
      dsimp only
      rw [eqvList_iff xs ys]
      exact ⟨.list _ _, fun h => by cases h with | list _ _ h => exact h | number _ _ _ h => cases h⟩
    | _ => exact ⟨fun h => (by cases h), fun h => (by cases h with | number _ _ _ h => cases h)⟩
  | .obj xs, y => by
    unfold Json.eqv
    cases y with
    | obj ys =>
      dsimp only
      rw [Bool.and_eq_true, decide_eq_true_iff, eqvItems_iff xs ys]
      exact ⟨fun h => .object _ _ h.1 h.2, fun h => by cases h with | object _ _ h h' => exact ⟨h, h'⟩ | number _ _ _ h => cases h⟩
    | _ => exact ⟨fun h => (by cases h), fun h => (by cases h with | number _ _ _ h => cases h)⟩
  | .null, y => by rw [← hkey_plain (by simp) (by simp)]; unfold Json.eqv; rfl
  | .bool b, y => by rw [← hkey_plain (by simp) (by simp)]; unfold Json.eqv; rfl
  | .int n, y => by rw [← hkey_plain (by simp) (by simp)]; unfold Json.eqv; rfl
  | .float s v, y => by rw [← hkey_plain (by simp) (by simp)]; unfold Json.eqv; rfl
  | .str s, y => by rw [← hkey_plain (by simp) (by simp)]; unfold Json.eqv; rfl
theorem eqvList_iff : ∀ xs ys : List Json, eqvList xs ys = true ↔ EqualLists xs ys
  | [], ys => by
    unfold eqvList
    cases ys with
    | nil => exact ⟨fun _ => .nil, fun _ => rfl⟩
    | cons y ys => exact ⟨fun h => (by cases h), fun h => (by cases h)⟩
  | x :: xs, ys => by
    unfold eqvList
    cases ys with
    | nil => exact ⟨fun h => (by cases h), fun h => (by cases h)⟩
    | cons y ys =>
      dsimp only
      rw [Bool.and_eq_true, eqv_iff x y, eqvList_iff xs ys]
      exact ⟨fun h => .cons _ _ _ _ h.1 h.2, fun h => by cases h with | cons _ _ _ _ h h' => exact ⟨h, h'⟩⟩
theorem eqvItems_iff : ∀ xs ys : List (Str × Json), eqvItems xs ys = true ↔ EqualFields xs ys
  | [], ys => by
    unfold eqvItems
    exact ⟨fun _ => .nil _, fun _ => rfl⟩
  | (k, x) :: xs, ys => by
    unfold eqvItems
    rw [Bool.and_eq_true, eqvItems_iff xs ys]
    cases hg : Dict.get? ys k with
    | none =>
      refine ⟨fun h => (by cases h.1), fun h => ?_⟩
      cases h with
      | cons _ _ y _ _ h _ _ => rw [hasField_obj, hg] at h; cases h
    | some y =>
      dsimp only
      rw [eqv_iff x y]
      refine ⟨fun h => .cons _ _ y _ _ (hasField_obj.mpr hg) h.1 h.2, fun h => ?_⟩
      cases h with
      | cons _ _ y' _ _ h h1 h2 =>
        rw [hasField_obj, hg] at h
        injection h with h
        subst h
        exact ⟨h1, h2⟩
end

theorem numeric_iff {x : Json} : x.numeric = true ↔ (∃ b, x = .bool b) ∨ (∃ n, x = .int n) ∨ (∃ s v, x = .float s v) := by
  cases x <;> simp [Json.numeric]

theorem sameKind_plain {x y : Json} (hx : ∀ l, x ≠ .arr l) (hx' : ∀ l, x ≠ .str l) : OfOneKind x y ↔ x.numeric = true ∧ y.numeric = true := by
  constructor
  · intro h
    cases h with
    | numbers _ _ h h' => exact ⟨numeric_iff.mpr h, numeric_iff.mpr h'⟩
    | texts s => exact absurd rfl (hx' s)
    | lists xs => exact absurd rfl (hx xs)
  · rintro ⟨h, h'⟩
    exact .numbers _ _ (numeric_iff.mp h) (numeric_iff.mp h')

theorem less_plain {numLess : Json → Json → Bool} {x y : Json} (hx : ∀ l, x ≠ .arr l) (hx' : ∀ l, x ≠ .str l) :
    (if x.numeric && y.numeric then .ok (numLess x y) else .error .TypeError : Except LoadErr Bool) = .error .TypeError ↔ CannotCompare x y := by
  by_cases h : x.numeric = true ∧ y.numeric = true
  · rw [if_pos (by simpa using h)]
    refine ⟨fun h => (by cases h), fun hi => ?_⟩
    cases hi with
    | kinds _ _ hk => exact absurd ((sameKind_plain hx hx').mpr h) hk
    | items pre pre' x y xs ys => exact absurd rfl (hx (pre ++ x :: xs))
  · rw [if_neg (by simpa using h)]
    exact ⟨fun _ => .kinds _ _ fun hk => h ((sameKind_plain hx hx').mp hk), fun _ => rfl⟩

mutual
/-- `<` raises exactly for values that cannot be compared. -/
theorem less_raises (numLess : Json → Json → Bool) : ∀ x y : Json, x.less numLess y = .error .TypeError ↔ CannotCompare x y
  | .arr xs, y => by
    unfold Json.less
    cases y with
    | arr ys =>
      dsimp only
      rw [lessList_raises numLess xs ys]
      constructor
      · rintro ⟨pre, pre', a, b, as, bs, rfl, rfl, h1, h2, h3⟩
        exact .items _ _ _ _ _ _ h1 h2 h3
      · intro h
        generalize hx : Json.arr xs = x at h
        generalize hy : Json.arr ys = y at h
        cases h with
        | kinds _ _ hk => subst hx; subst hy; exact absurd (.lists _ _) hk
        | items pre pre' a b as bs h1 h2 h3 =>
          injection hx with hx
          injection hy with hy
          exact ⟨pre, pre', a, b, as, bs, hx, hy, h1, h2, h3⟩
    | _ => exact ⟨fun _ => .kinds _ _ fun h => (by cases h with | numbers _ _ h => simp at h), fun _ => rfl⟩
  | .str s, y => by
    unfold Json.less
    cases y with
    | str t =>
      refine ⟨fun h => (by cases h), fun h => ?_⟩
      cases h with
      | kinds _ _ hk => exact absurd (.texts _ _) hk
    | _ => exact ⟨fun _ => .kinds _ _ fun h => (by cases h with | numbers _ _ h => simp at h), fun _ => rfl⟩
  | .null, y => by rw [← less_plain (by simp) (by simp)]; unfold Json.less; rfl
  | .bool b, y => by rw [← less_plain (by simp) (by simp)]; unfold Json.less; rfl
  | .int n, y => by rw [← less_plain (by simp) (by simp)]; unfold Json.less; rfl
  | .float s v, y => by rw [← less_plain (by simp) (by simp)]; unfold Json.less; rfl
  | .obj l, y => by rw [← less_plain (by simp) (by simp)]; unfold Json.less; rfl
theorem lessList_raises (numLess : Json → Json → Bool) : ∀ xs ys : List Json, lessList numLess xs ys = .error .TypeError ↔
    ∃ pre pre' a b as bs, xs = pre ++ a :: as ∧ ys = pre' ++ b :: bs ∧ EqualLists pre pre' ∧ ¬ Same a b ∧ CannotCompare a b
  | [], ys => by
    unfold lessList
    exact ⟨fun h => (by cases h), fun ⟨pre, _, _, _, _, _, h, _⟩ => by cases pre <;> cases h⟩
  | x :: xs, [] => by
    unfold lessList
    exact ⟨fun h => (by cases h), fun ⟨_, pre, _, _, _, _, _, h, _⟩ => by cases pre <;> cases h⟩
  | x :: xs, y :: ys => by
    unfold lessList
    dsimp only
    by_cases he : x.eqv y = true
    · rw [if_pos he, lessList_raises numLess xs ys]
      rw [eqv_iff] at he
      constructor
      · rintro ⟨pre, pre', a, b, as, bs, rfl, rfl, h1, h2, h3⟩
        exact ⟨x :: pre, y :: pre', a, b, as, bs, rfl, rfl, .cons _ _ _ _ he h1, h2, h3⟩
      · rintro ⟨pre, pre', a, b, as, bs, hx, hy, h1, h2, h3⟩
        cases h1 with
        | nil =>
          injection hx with hx hx'
          injection hy with hy hy'
          subst hx; subst hy
          exact absurd he h2
        | cons c d pre pre' h0 h1 =>
          injection hx with hx hx'
          injection hy with hy hy'
          exact ⟨pre, pre', a, b, as, bs, hx', hy', h1, h2, h3⟩
    · rw [if_neg he, less_raises numLess x y]
      rw [eqv_iff] at he
      constructor
      · intro h
        exact ⟨[], [], x, y, xs, ys, rfl, rfl, .nil, he, h⟩
      · rintro ⟨pre, pre', a, b, as, bs, hx, hy, h1, h2, h3⟩
        cases h1 with
        | nil =>
          injection hx with hx hx'
          injection hy with hy hy'
          subst hx; subst hy
          exact h3
        | cons c d pre pre' h0 h1 =>
          injection hx with hx hx'
          injection hy with hy hy'
          subst hx; subst hy
          exact absurd h0 he
end

/-! ## symmetry -/

theorem sameFields_keys {xs ys : List (Str × Json)} (h : EqualFields xs ys) : ∀ k ∈ xs.map Prod.fst, k ∈ ys.map Prod.fst := by
  induction xs with
  | nil => simp
  | cons kv xs ih =>
    cases h with
    | cons k x y _ _ h1 h2 h3 =>
      intro k' hk'
      rw [List.map_cons, List.mem_cons] at hk'
      rcases hk' with rfl | hk'
      · rw [hasField_obj] at h1
        by_contra hn
        rw [Dict.get?_eq_none.mpr hn] at h1
        cases h1
      · exact ih h3 k' hk'

theorem sameFields_of {xs ys : List (Str × Json)} (h : ∀ kv ∈ ys, ∃ x, HasField (.obj xs) kv.1 x ∧ Same kv.2 x) : EqualFields ys xs := by
  induction ys with
  | nil => exact .nil _
  | cons kv ys ih =>
    obtain ⟨k, y⟩ := kv
    obtain ⟨x, h1, h2⟩ := h (k, y) (by simp)
    exact .cons _ _ _ _ _ h1 h2 (ih fun kv hkv => h kv (by simp [hkv]))

theorem distinctItems_mem {xs : List (Str × Json)} (h : DistinctItems xs) {kv : Str × Json} (hkv : kv ∈ xs) : Distinct kv.2 := by
  induction xs with
  | nil => simp at hkv
  | cons x xs ih =>
    unfold DistinctItems at h
    rcases List.mem_cons.mp hkv with rfl | hkv
    · exact h.1
    · exact ih h.2 hkv

mutual
theorem same_symm : ∀ x y : Json, Distinct x → Distinct y → Same x y → Same y x
  | .arr xs, y, hx, hy, h => by
    cases h with
    | number _ _ _ h => cases h
    | list _ ys h =>
      unfold Distinct at hx hy
      exact .list _ _ (sameList_symm xs ys hx hy h)
  | .obj xs, y, hx, hy, h => by
    cases h with
    | number _ _ _ h => cases h
    | object _ ys hl h =>
      unfold Distinct at hx hy
      refine .object _ _ hl.symm (sameFields_of fun kv hkv => ?_)
      have hk : kv.1 ∈ xs.map Prod.fst := by
        have hsub : xs.map Prod.fst ⊆ ys.map Prod.fst := sameFields_keys h
        have hp : (xs.map Prod.fst).Subperm (ys.map Prod.fst) := List.subperm_of_subset hx.1 hsub
        have hp' := hp.perm_of_length_le (by simp [hl])
        exact hp'.symm.subset (List.mem_map_of_mem hkv)
      rw [List.mem_map] at hk
      obtain ⟨⟨k, x⟩, hm, hkx⟩ := hk
      obtain ⟨y, h1, h2⟩ := sameFields_symm xs ys hx.2 hy.2 h (k, x) hm
      refine ⟨x, hasField_obj.mpr (Dict.get?_of_mem hx.1 (by rw [← hkx]; exact hm)), ?_⟩
      simp only at hkx h1
      rw [hasField_obj, hkx, Dict.get?_of_mem (v := kv.2) hy.1 hkv] at h1
      injection h1 with h1
      subst h1
      exact h2
  | .null, _, _, _, h => by cases h with | null => exact .null | number _ _ _ h => cases h
  | .bool _, _, _, _, h => by cases h with | number _ _ _ h h' => exact .number _ _ _ h' h
  | .int _, _, _, _, h => by cases h with | number _ _ _ h h' => exact .number _ _ _ h' h
  | .float _ _, _, _, _, h => by cases h with | number _ _ _ h h' => exact .number _ _ _ h' h | fraction => exact .fraction _
  | .str _, _, _, _, h => by cases h with | number _ _ _ h h' => exact .number _ _ _ h' h | text => exact .text _
theorem sameList_symm : ∀ xs ys : List Json, DistinctList xs → DistinctList ys → EqualLists xs ys → EqualLists ys xs
  | [], ys, _, _, h => by cases h; exact .nil
  | x :: xs, ys, hx, hy, h => by
    cases h with
    | cons _ y _ ys h h' =>
      unfold DistinctList at hx hy
      exact .cons _ _ _ _ (same_symm x y hx.1 hy.1 h) (sameList_symm xs ys hx.2 hy.2 h')
theorem sameFields_symm : ∀ xs ys : List (Str × Json), DistinctItems xs → DistinctItems ys → EqualFields xs ys →
    ∀ kv ∈ xs, ∃ y, HasField (.obj ys) kv.1 y ∧ Same y kv.2
  | [], _, _, _, _ => by simp
  | (k, x) :: xs, ys, hx, hy, h => by
    cases h with
    | cons _ _ y _ _ h1 h2 h3 =>
      unfold DistinctItems at hx
      have hd : Distinct y := by
        obtain ⟨pre, post, he, _⟩ := h1
        injection he with he
        exact distinctItems_mem hy (kv := (k, y)) (by rw [he]; simp)
      intro kv hkv
      rcases List.mem_cons.mp hkv with rfl | hkv
      · exact ⟨y, h1, same_symm x y hx.1 hd h2⟩
      · exact sameFields_symm xs ys hx.2 hy h3 kv hkv
end

theorem distinctList_mem {xs : List Json} (h : DistinctList xs) {x : Json} (hx : x ∈ xs) : Distinct x := by
  induction xs with
  | nil => simp at hx
  | cons a xs ih =>
    unfold DistinctList at h
    rcases List.mem_cons.mp hx with rfl | hx
    · exact h.1
    · exact ih h.2 hx

theorem distinctList_append {xs ys : List Json} (h : DistinctList (xs ++ ys)) : DistinctList xs := by
  induction xs with
  | nil => trivial
  | cons a xs ih =>
    rw [List.cons_append] at h
    unfold DistinctList at h ⊢
    exact ⟨h.1, ih h.2⟩

theorem sameKind_symm {x y : Json} (h : OfOneKind x y) : OfOneKind y x := by
  cases h with
  | numbers _ _ h h' => exact .numbers _ _ h' h
  | texts s t => exact .texts t s
  | lists xs ys => exact .lists ys xs

theorem cannotCompare_symm {x y : Json} (h : CannotCompare x y) (hx : Distinct x) (hy : Distinct y) : CannotCompare y x := by
  induction h with
  | kinds x y h => exact .kinds _ _ fun h' => h (sameKind_symm h')
  | items pre pre' x y xs ys h1 h2 h3 ih =>
    unfold Distinct at hx hy
    have dx : Distinct x := distinctList_mem hx (by simp)
    have dy : Distinct y := distinctList_mem hy (by simp)
    exact .items _ _ _ _ _ _ (sameList_symm _ _ (distinctList_append hx) (distinctList_append hy) h1)
      (fun h => h2 (same_symm _ _ dy dx h)) (ih dx dy)

end Utg
