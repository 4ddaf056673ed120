import Verif.Spec.AnyJson
import Verif.Props.WordForms
import Verif.Props.Templates
import Verif.Proofs.Migrations
/-!
# C142, C143: words and templates from any JSON document
-/

namespace Utg
open Py Spec

/-! ## fields, numbers, parts -/

theorem get?_split {K V : Type} [DecidableEq K] {d : Dict K V} {k : K} {x : V} :
    Dict.get? d k = some x ↔ ∃ pre post, d = pre ++ (k, x) :: post ∧ ∀ kv ∈ pre, kv.1 ≠ k := by
  induction d with
  | nil => simp [Dict.get?]
  | cons kv d ih =>
    obtain ⟨k', v⟩ := kv
    by_cases hk : k' = k
    · subst hk
      simp only [Dict.get?, if_true, Option.some.injEq]
      constructor
      · rintro rfl; exact ⟨[], d, rfl, by simp⟩
      · rintro ⟨pre, post, h1, h2⟩
        cases pre with
        | nil => simp at h1; exact h1.1
        | cons a pre =>
          simp at h1
          exact absurd (by rw [← h1.1]) (h2 a (by simp))
    · simp only [Dict.get?, if_neg hk, ih]
      constructor
      · rintro ⟨pre, post, h1, h2⟩
        refine ⟨(k', v) :: pre, post, by rw [h1]; rfl, ?_⟩
        intro kv hkv
        rcases List.mem_cons.mp hkv with rfl | h
        · exact hk
        · exact h2 kv h
      · rintro ⟨pre, post, h1, h2⟩
        cases pre with
        | nil => simp at h1; exact absurd h1.1.1 hk
        | cons a pre =>
          simp at h1
          exact ⟨pre, post, h1.2, fun kv hkv => h2 kv (by simp [hkv])⟩

theorem item_ok {j : Json} {k : Str} {x : Json} : j.item k = .ok x ↔ HasField j k x := by
  unfold HasField
  cases j with
  | obj items =>
    simp only [Json.item, Json.obj.injEq]
    rw [← get?_split]
    cases Dict.get? items k <;> simp
  | _ => simp [Json.item]

theorem item_error {j : Json} {k : Str} {e : LoadErr} (h : j.item k = .error e) :
    (e = .TypeError ∧ ∀ items, j ≠ .obj items) ∨ (e = .KeyError k ∧ ∀ x, ¬ HasField j k x) := by
  cases j with
  | obj items =>
    refine .inr ?_
    have hx : ∀ x, ¬ HasField (.obj items) k x := fun x hx => by rw [item_ok.mpr hx] at h; cases h
    simp only [Json.item] at h
    cases hg : Dict.get? items k with
    | none => rw [hg] at h; injection h with h; exact ⟨h.symm, hx⟩
    | some x => rw [hg] at h; cases h
  | _ => simp [Json.item] at h; exact .inl ⟨h.symm, by simp⟩

theorem asKey_some {x : Json} {n : Int} : x.asKey = .ok (some n) ↔ IsNumber x n := by
  constructor
  · intro h
    cases x with
    | bool b => cases b <;> simp [Json.asKey] at h <;> subst h <;> constructor
    | int m => simp [Json.asKey] at h; subst h; constructor
    | float w m => simp [Json.asKey] at h; subst h; constructor
    | _ => simp [Json.asKey] at h
  · intro h; cases h <;> simp [Json.asKey]

theorem asKey_error {x : Json} {e : LoadErr} : x.asKey = .error e ↔ e = .TypeError ∧ IsCompound x := by
  constructor
  · intro h
    cases x with
    | arr l => simp [Json.asKey] at h; exact ⟨h.symm, .arr l⟩
    | obj l => simp [Json.asKey] at h; exact ⟨h.symm, .obj l⟩
    | _ => simp [Json.asKey] at h
  · rintro ⟨rfl, h⟩; cases h <;> rfl

theorem iterate_ok {x : Json} {l : List Json} : x.iterate = .ok l ↔ Parts x l := by
  constructor
  · intro h
    cases x with
    | arr l' => simp [Json.iterate] at h; subst h; constructor
    | obj l' => simp [Json.iterate] at h; subst h; constructor
    | str s => simp [Json.iterate] at h; subst h; constructor
    | _ => simp [Json.iterate] at h
  · intro h; cases h <;> rfl

theorem iterate_error {x : Json} {e : LoadErr} (h : x.iterate = .error e) : e = .TypeError ∧ ∀ l, ¬ Parts x l := by
  have hp : ∀ l, ¬ Parts x l := fun l hl => by rw [iterate_ok.mpr hl] at h; cases h
  cases x <;> simp [Json.iterate] at h <;> exact ⟨h.symm, hp⟩

theorem size_ok {x : Json} {n : Nat} : x.size = .ok n ↔ ∃ l, Parts x l ∧ l.length = n := by
  constructor
  · intro h
    cases x with
    | arr l' => simp [Json.size] at h; exact ⟨_, .arr _, h⟩
    | obj l' => simp [Json.size] at h; exact ⟨_, .obj _, by simpa using h⟩
    | str s => simp [Json.size] at h; exact ⟨_, .str _, by simpa using h⟩
    | _ => simp [Json.size] at h
  · rintro ⟨l, h, rfl⟩; cases h <;> simp [Json.size]

theorem size_error {x : Json} {e : LoadErr} (h : x.size = .error e) : e = .TypeError ∧ ∀ l, ¬ Parts x l := by
  have hp : ∀ l, ¬ Parts x l := fun l hl => by rw [size_ok.mpr ⟨l, hl, rfl⟩] at h; cases h
  cases x <;> simp [Json.size] at h <;> exact ⟨h.symm, hp⟩

theorem wordTypeOfValue_some {v : Int} {t : WordType} : wordTypeOfValue v = some t ↔ v = t.value := by
  constructor
  · intro h
    have := List.find?_some h
    simp at this
    exact this.symm
  · rintro rfl; exact wordTypeOfValue_value t

/-! ## properties -/

/-- The item with its value as an integer, -1 if it is none. -/
def asItem (kv : Str × Json) : JKey × Int := (.str kv.1, match kv.2.asKey with | .ok (some v) => v | _ => -1)

theorem recOfValue_neg (g : Group) : recOfValue g (-1) = none := by cases g <;> decide

theorem loadItem_ok {kv : Str × Json} {n : Int} (hn : pyInt kv.1 = .ok n) (hv : (∃ g : Group, (g.code : Int) = n) → ¬ IsCompound kv.2) :
    ∃ o, loadItem kv = .ok o ∧ deserializeItem (asItem kv) = .ok o := by
  unfold loadItem deserializeItem asItem
  simp only [JKey.toInt, hn, bind, Except.bind]
  cases hg : groupOfCode n with
  | none => exact ⟨_, rfl, rfl⟩
  | some g =>
    dsimp only
    cases hk : kv.2.asKey with
    | error e => exact absurd (asKey_error.mp hk).2 (hv ⟨g, groupOfCode_some hg⟩)
    | ok o =>
      cases o with
      | none => exact ⟨none, rfl, by dsimp only; rw [recOfValue_neg]⟩
      | some v => exact ⟨_, rfl, rfl⟩

theorem loadItem_error {kv : Str × Json} {e : LoadErr} (h : loadItem kv = .error e) :
    (e = .ValueError ∧ ∀ n, pyInt kv.1 ≠ .ok n) ∨ (e = .TypeError ∧ (∃ g : Group, pyInt kv.1 = .ok (g.code : Int)) ∧ IsCompound kv.2) := by
  unfold loadItem at h
  cases hn : pyInt kv.1 with
  | error e' => rw [hn] at h; injection h with h; exact .inl ⟨h.symm, by simp⟩
  | ok n =>
    rw [hn] at h
    dsimp only at h
    cases hg : groupOfCode n with
    | none => rw [hg] at h; cases h
    | some g =>
      rw [hg] at h
      dsimp only at h
      cases hk : kv.2.asKey with
      | error e' =>
        rw [hk] at h
        injection h with h
        subst h
        obtain ⟨h1, h2⟩ := asKey_error.mp hk
        exact .inr ⟨h1, ⟨g, by rw [groupOfCode_some hg]⟩, h2⟩
      | ok o => rw [hk] at h; cases o <;> cases h

theorem loadItem_readable {kv : Str × Json} {o : Option Rec} (h : loadItem kv = .ok o) :
    ∃ n, pyInt kv.1 = .ok n ∧ ((∃ g : Group, (g.code : Int) = n) → ¬ IsCompound kv.2) := by
  unfold loadItem at h
  cases hn : pyInt kv.1 with
  | error e' => rw [hn] at h; cases h
  | ok n =>
    refine ⟨n, rfl, ?_⟩
    rintro ⟨g, rfl⟩ hc
    rw [hn] at h
    dsimp only at h
    rw [groupOfCode_code] at h
    dsimp only at h
    rw [asKey_error.mpr ⟨rfl, hc⟩] at h
    cases h

theorem loadItems {items : List (Str × Json)} (h : Readable items) :
    ∃ os, items.mapM loadItem = .ok os ∧ (items.map asItem).mapM deserializeItem = .ok os := by
  induction items with
  | nil => exact ⟨[], rfl, rfl⟩
  | cons kv items ih =>
    obtain ⟨os, h1, h2⟩ := ih (fun kv' hkv' => h kv' (by simp [hkv']))
    obtain ⟨n, hn, hv⟩ := h kv (by simp)
    obtain ⟨o, h3, h4⟩ := loadItem_ok hn hv
    refine ⟨o :: os, ?_, ?_⟩
    · rw [List.mapM_cons, h3, h1]; rfl
    · rw [List.map_cons, List.mapM_cons, h4, h2]; rfl

theorem mapM_ok_mem {α β ε : Type} {f : α → Except ε β} {l : List α} {bs : List β} (h : l.mapM f = .ok bs) : ∀ a ∈ l, ∃ b, f a = .ok b := by
  induction l generalizing bs with
  | nil => simp
  | cons a l ih =>
    rw [List.mapM_cons] at h
    cases ha : f a with
    | error e => rw [ha] at h; cases h
    | ok b =>
      rw [ha] at h
      cases hl : l.mapM f with
      | error e => rw [hl] at h; cases h
      | ok bs' =>
        intro x hx
        rcases List.mem_cons.mp hx with rfl | hx
        · exact ⟨b, ha⟩
        · exact ih hl x hx

theorem mapM_error_mem {α β ε : Type} {f : α → Except ε β} {l : List α} {e : ε} (h : l.mapM f = .error e) : ∃ a ∈ l, f a = .error e := by
  induction l with
  | nil => cases h
  | cons a l ih =>
    rw [List.mapM_cons] at h
    cases ha : f a with
    | error e' => rw [ha] at h; injection h with h; subst h; exact ⟨a, by simp, ha⟩
    | ok b =>
      rw [ha] at h
      cases hl : l.mapM f with
      | error e' =>
        rw [hl] at h
        injection h with h
        subst h
        obtain ⟨x, hx, hx'⟩ := ih hl
        exact ⟨x, by simp [hx], hx'⟩
      | ok bs' => rw [hl] at h; cases h

theorem means_asItem {kv : Str × Json} {r : Rec} : Denotes (asItem kv) r ↔ Means kv r := by
  unfold Denotes Means asItem
  dsimp only [JKey.toInt]
  refine and_congr_right fun _ => ?_
  rw [← asKey_some]
  cases hk : kv.2.asKey with
  | error e => constructor <;> intro h <;> first | (dsimp only at h; omega) | cases h
  | ok o =>
    cases o with
    | none => constructor <;> intro h <;> first | (dsimp only at h; omega) | cases h
    | some v => simp

theorem loadProperties_ok {items : List (Str × Json)} (h : Readable items) :
    ∃ p, loadProperties (.obj items) = .ok p ∧ WFProps p ∧ Says items p ∧ Properties.deserialize (items.map asItem) = .ok p := by
  obtain ⟨os, h1, h2⟩ := loadItems h
  obtain ⟨p, h3, h4, h5⟩ := C14_deserialize_known (items.map asItem) (by
    intro kv hkv
    obtain ⟨kv', hkv', rfl⟩ := List.mem_map.mp hkv
    obtain ⟨n, hn, -⟩ := h kv' hkv'
    exact ⟨n, hn⟩)
  refine ⟨p, ?_, h4, ?_, h3⟩
  · unfold Properties.deserialize at h3
    rw [h2] at h3
    simp only [loadProperties]
    rw [h1]
    injection h3 with h3
    rw [← h3]
    rfl
  · intro g r
    rw [h5]
    refine and_congr_right fun _ => ?_
    constructor
    · rintro ⟨pre, kv, post, hd, hm, hlast⟩
      obtain ⟨pre', rest, rfl, rfl, hr⟩ := List.map_eq_append_iff.mp hd
      obtain ⟨kv', post', rfl, rfl, rfl⟩ := List.map_eq_cons_iff.mp hr
      exact ⟨pre', kv', post', rfl, means_asItem.mp hm, fun kv'' h'' r' hr' => hlast (asItem kv'') (List.mem_map_of_mem h'') r' (means_asItem.mpr hr')⟩
    · rintro ⟨pre, kv, post, rfl, hm, hlast⟩
      refine ⟨pre.map asItem, asItem kv, post.map asItem, by simp, means_asItem.mpr hm, ?_⟩
      intro kv' hkv' r' hr'
      obtain ⟨kv'', h'', rfl⟩ := List.mem_map.mp hkv'
      exact hlast kv'' h'' r' (means_asItem.mp hr')

theorem loadProperties_inv {x : Json} {p : Properties} (h : loadProperties x = .ok p) : ∃ items, x = .obj items ∧ Readable items := by
  cases x with
  | obj items =>
    refine ⟨items, rfl, ?_⟩
    simp only [loadProperties] at h
    cases hm : items.mapM loadItem with
    | error e => rw [hm] at h; cases h
    | ok os =>
      intro kv hkv
      obtain ⟨o, ho⟩ := mapM_ok_mem hm kv hkv
      exact loadItem_readable ho
  | _ => simp [loadProperties] at h

theorem loadProperties_error {x : Json} {e : LoadErr} (h : loadProperties x = .error e) :
    (e = .AttributeError ∧ ∀ items, x ≠ .obj items) ∨ ∃ items, x = .obj items ∧ ∃ kv ∈ items,
      (e = .ValueError ∧ ∀ n, pyInt kv.1 ≠ .ok n) ∨ (e = .TypeError ∧ (∃ g : Group, pyInt kv.1 = .ok (g.code : Int)) ∧ IsCompound kv.2) := by
  cases x with
  | obj items =>
    refine .inr ⟨items, rfl, ?_⟩
    simp only [loadProperties] at h
    cases hm : items.mapM loadItem with
    | error e' =>
      rw [hm] at h
      injection h with h
      subst h
      obtain ⟨kv, hkv, hkv'⟩ := mapM_error_mem hm
      exact ⟨kv, hkv, loadItem_error hkv'⟩
    | ok os => rw [hm] at h; cases h
  | _ => simp [loadProperties] at h; exact .inl ⟨h.symm, by simp⟩

/-! ## words -/

theorem cache_slots (t : WordType) : (wordsCache t).length = slotCount t := by
  obtain ⟨ks, -, -, -, h, -⟩ := C07_slot_bijection t
  exact h

theorem loadWord_cases (j : Json) : (∃ t x forms items p n, HasField j (str! "type") x ∧ IsNumber x (t : WordType).value ∧
      HasField j (str! "forms") forms ∧ HasField j (str! "properties") (.obj items) ∧ Readable items ∧ loadProperties (.obj items) = .ok p ∧
      forms.size = .ok n ∧ loadWord j = if n ≠ slotCount t then .error (.WrongFormsNumberError n (slotCount t) forms) else .ok ⟨t, forms, p⟩) ∨
    ∃ e, loadWord j = .error e ∧ BadWord j e := by
  simp only [loadWord]
  cases h1 : j.item (str! "type") with
  | error e =>
    refine .inr ⟨e, rfl, ?_⟩
    rcases item_error h1 with ⟨rfl, h⟩ | ⟨rfl, h⟩
    · exact .noObject j h
    · exact .missing j _ (by simp) h
  | ok x =>
    have f1 := item_ok.mp h1
    simp only [bind, Except.bind]
    cases h2 : x.asKey with
    | error e =>
      obtain ⟨rfl, hc⟩ := asKey_error.mp h2
      exact .inr ⟨_, rfl, .typeCompound j x f1 hc⟩
    | ok o =>
      cases o with
      | none =>
        refine .inr ⟨_, rfl, .typeUnknown j x f1 ?_⟩
        intro t ht
        rw [asKey_some.mpr ht] at h2
        cases h2
      | some v =>
        dsimp only
        cases h3 : wordTypeOfValue v with
        | none =>
          refine .inr ⟨_, rfl, .typeUnknown j x f1 ?_⟩
          intro t ht
          rw [asKey_some.mpr ht] at h2
          injection h2 with h2
          injection h2 with h2
          rw [wordTypeOfValue_some.mpr h2.symm] at h3
          cases h3
        | some t =>
          have ht := wordTypeOfValue_some.mp h3
          subst ht
          have f2 := asKey_some.mp h2
          dsimp only
          cases h4 : j.item (str! "forms") with
          | error e =>
            refine .inr ⟨e, rfl, ?_⟩
            rcases item_error h4 with ⟨rfl, h⟩ | ⟨rfl, h⟩
            · exact .noObject j h
            · exact .missing j _ (by simp) h
          | ok forms =>
            have f3 := item_ok.mp h4
            dsimp only
            cases h5 : j.item (str! "properties") with
            | error e =>
              refine .inr ⟨e, rfl, ?_⟩
              rcases item_error h5 with ⟨rfl, h⟩ | ⟨rfl, h⟩
              · exact .noObject j h
              · exact .missing j _ (by simp) h
            | ok ps =>
              have f4 := item_ok.mp h5
              dsimp only
              cases h6 : loadProperties ps with
              | error e =>
                refine .inr ⟨e, rfl, ?_⟩
                rcases loadProperties_error h6 with ⟨rfl, h⟩ | ⟨items, rfl, kv, hkv, ⟨rfl, h⟩ | ⟨rfl, h, h'⟩⟩
                · exact .noProperties j ps f4 h
                · exact .badKey j items kv f4 hkv h
                · exact .badValue j items kv f4 hkv h h'
              | ok p =>
                obtain ⟨items, rfl, hr⟩ := loadProperties_inv h6
                dsimp only
                cases h7 : forms.size with
                | error e =>
                  obtain ⟨rfl, h⟩ := size_error h7
                  exact .inr ⟨_, rfl, .noForms j forms f3 h⟩
                | ok n =>
                  refine .inl ⟨t, x, forms, items, p, n, f1, f2, f3, f4, hr, h6, h7, ?_⟩
                  rw [cache_slots]

/-- C142: a document can be loaded as a word iff it is an object with a known part of speech, as many forms as the part of speech has slots,
and readable properties. -/
theorem C142_loads (j : Json) : (∃ w, loadWord j = .ok w) ↔ IsWord j := by
  constructor
  · rintro ⟨w, hw⟩
    rcases loadWord_cases j with ⟨t, x, forms, items, p, n, f1, f2, f3, f4, hr, -, h7, h8⟩ | ⟨e, he, -⟩
    · obtain ⟨parts, h9, h10⟩ := size_ok.mp h7
      refine ⟨t, x, forms, parts, items, f1, f2, f3, h9, ?_, f4, hr⟩
      rw [h10]
      by_contra hn
      rw [if_pos hn, hw] at h8
      cases h8
    · rw [he] at hw; cases hw
  · rintro ⟨t, x, forms, parts, items, f1, f2, f3, h9, h10, f4, hr⟩
    obtain ⟨p, hp, -⟩ := loadProperties_ok hr
    refine ⟨⟨t, forms, p⟩, ?_⟩
    simp only [loadWord, item_ok.mpr f1, asKey_some.mpr f2, item_ok.mpr f3, item_ok.mpr f4, hp, size_ok.mpr ⟨parts, h9, h10⟩, bind, Except.bind,
      wordTypeOfValue_value, cache_slots]
    rw [if_neg (by simp)]

/-- C142: the word has the part of speech, the forms and the properties of the document. -/
theorem C142_contents (j : Json) (w : LoadedWord) (h : loadWord j = .ok w) : ∃ (x : Json) (parts : List Json) (items : List (Str × Json)),
    HasField j (str! "type") x ∧ IsNumber x w.type.value ∧ HasField j (str! "forms") w.forms ∧ Parts w.forms parts ∧ parts.length = slotCount w.type ∧
    HasField j (str! "properties") (.obj items) ∧ Says items w.properties ∧ WFProps w.properties := by
  rcases loadWord_cases j with ⟨t, x, forms, items, p, n, f1, f2, f3, f4, hr, h6, h7, h8⟩ | ⟨e, he, -⟩
  · obtain ⟨parts, h9, h10⟩ := size_ok.mp h7
    obtain ⟨p', hp', hwf, hsays, -⟩ := loadProperties_ok hr
    rw [h6] at hp'
    injection hp' with hp'
    subst hp'
    by_cases hn : n = slotCount t
    · rw [if_neg (by simpa using hn), h] at h8
      injection h8 with h8
      subst h8
      exact ⟨x, parts, items, f1, f2, f3, h9, by rw [h10, hn], f4, hsays, hwf⟩
    · rw [if_pos hn, h] at h8
      cases h8
  · rw [he] at h; cases h

/-- C142: whatever is raised, the document has the fault that it tells. -/
theorem C142_raises (j : Json) (e : LoadErr) (h : loadWord j = .error e) : BadWord j e := by
  rcases loadWord_cases j with ⟨t, x, forms, items, p, n, f1, f2, f3, f4, hr, h6, h7, h8⟩ | ⟨e', he, hb⟩
  · obtain ⟨parts, h9, h10⟩ := size_ok.mp h7
    by_cases hn : n = slotCount t
    · rw [if_neg (by simpa using hn), h] at h8
      cases h8
    · rw [if_pos hn, h] at h8
      injection h8 with h8
      subst h8
      rw [← h10]
      exact .number j x forms t parts f1 f2 f3 h9 (by rw [h10]; exact hn)
  · rw [he] at h
    injection h with h
    subst h
    exact hb

theorem item_congr {d d' : List (Str × Json)} {k : Str} (h : ∀ x, HasField (.obj d) k x ↔ HasField (.obj d') k x) :
    Json.item k (.obj d) = Json.item k (.obj d') := by
  have hg : Dict.get? d k = Dict.get? d' k := by
    have hx : ∀ x, Dict.get? d k = some x ↔ Dict.get? d' k = some x := by
      intro x
      have := h x
      rw [← item_ok, ← item_ok] at this
      simp only [Json.item] at this
      cases h1 : Dict.get? d k <;> cases h2 : Dict.get? d' k <;> simp_all
    cases h1 : Dict.get? d k with
    | some x => exact ((hx x).mp h1).symm
    | none =>
      cases h2 : Dict.get? d' k with
      | none => rfl
      | some x => rw [(hx x).mpr h2] at h1; cases h1
  simp only [Json.item, hg]

/-- C142: other fields, and the order of the fields, do not matter. -/
theorem C142_other_fields (d d' : List (Str × Json))
    (h : ∀ k ∈ [str! "type", str! "forms", str! "properties"], ∀ x, HasField (.obj d) k x ↔ HasField (.obj d') k x) :
    loadWord (.obj d) = loadWord (.obj d') := by
  unfold loadWord
  rw [item_congr (h (str! "type") (by simp)), item_congr (h (str! "forms") (by simp)), item_congr (h (str! "properties") (by simp))]

theorem saveProperties_asItem {p : Properties} :
    ∃ items, saveProperties p = .obj items ∧ Readable items ∧ List.Forall₂ ViaJson p.serialize (items.map asItem) ∧
      (items.map asItem).mapM deserializeItem = p.serialize.mapM deserializeItem := by
  refine ⟨_, rfl, ?_, ?_, ?_⟩
  · intro kv hkv
    obtain ⟨kv', -, rfl⟩ := List.mem_map.mp hkv
    exact ⟨kv'.1.code, by simp [pyInt_pyStr], fun _ h => by cases h⟩
  · unfold Properties.serialize
    rw [List.map_map, List.forall₂_map_left_iff, List.forall₂_map_right_iff, List.forall₂_same]
    intro kv _
    exact ViaJson.stringified _ _
  · unfold Properties.serialize
    rw [List.map_map, List.mapM_map, List.mapM_map]
    congr 1
    funext kv
    simp [asItem, deserializeItem, JKey.toInt, pyInt_pyStr, Json.asKey]

theorem loadProperties_save {p : Properties} (hp : WFProps p) : loadProperties (saveProperties p) = .ok p := by
  obtain ⟨items, h1, h2, -, h4⟩ := saveProperties_asItem (p := p)
  obtain ⟨q, hq, -, -, hd⟩ := loadProperties_ok h2
  rw [h1, hq]
  have := C13_roundtrip_exact p hp
  unfold Properties.deserialize at this hd
  rw [h4, this] at hd
  injection hd with hd
  rw [hd]

/-- C142: a loaded word that is saved and loaded again is the same word. -/
theorem C142_resave (j : Json) (w : LoadedWord) (h : loadWord j = .ok w) : loadWord (saveWord w) = .ok w := by
  obtain ⟨x, parts, items, -, -, -, h4, h5, -, -, hwf⟩ := C142_contents j w h
  have e1 : (saveWord w).item (str! "type") = .ok (.int w.type.value) := rfl
  have e2 : (saveWord w).item (str! "forms") = .ok w.forms := rfl
  have e3 : (saveWord w).item (str! "properties") = .ok (saveProperties w.properties) := rfl
  simp only [loadWord, e1, e2, e3, Json.asKey, loadProperties_save hwf, size_ok.mpr ⟨parts, h4, h5⟩, bind, Except.bind, wordTypeOfValue_value,
    cache_slots]
  rw [if_neg (by simp)]

/-- C142: a word that is saved and loaded again is the same word. -/
theorem C142_save_load (w : Word) (hw : Accepted w) :
    loadWord (saveWord ⟨w.type, .arr (w.forms.map .str), w.properties⟩) = .ok ⟨w.type, .arr (w.forms.map .str), w.properties⟩ := by
  obtain ⟨hwf, hlen⟩ := accepted_iff.mp hw
  have hsize : (Json.arr (w.forms.map .str)).size = .ok (slotCount w.type) := by
    simp only [Json.size, List.length_map, hlen, ← cache_slots, wordsCache_length]
  generalize Json.arr (w.forms.map .str) = forms at hsize ⊢
  have e1 : (saveWord ⟨w.type, forms, w.properties⟩).item (str! "type") = .ok (.int w.type.value) := rfl
  have e2 : (saveWord ⟨w.type, forms, w.properties⟩).item (str! "forms") = .ok forms := rfl
  have e3 : (saveWord ⟨w.type, forms, w.properties⟩).item (str! "properties") = .ok (saveProperties w.properties) := rfl
  simp only [loadWord, e1, e2, e3, Json.asKey, loadProperties_save hwf, hsize, bind, Except.bind, wordTypeOfValue_value, cache_slots]
  rw [if_neg (by simp)]

/-- C142: if its forms are a list of texts, it is a word like those the constructor accepts. -/
theorem C142_proper (j : Json) (w : LoadedWord) (forms : List Str) (h : loadWord j = .ok w) (hf : w.forms = .arr (forms.map .str)) :
    Accepted ⟨w.type, forms, w.properties⟩ := by
  obtain ⟨x, parts, items, -, -, -, h4, h5, -, -, hwf⟩ := C142_contents j w h
  rw [hf] at h4
  cases h4
  refine accepted_iff.mpr ⟨hwf, ?_⟩
  rw [← wordsCache_length, cache_slots, ← h5]
  simp

/-- C142: `form` of a loaded word takes the part that it takes of a word with a list of texts; if the forms were an object, it raises
`KeyError`. -/
theorem C142_form (t : WordType) (ps p : Properties) (hps : WFProps ps) (hp : WFProps p) : ∃ i, i < slotCount t ∧
    (∀ forms : List Str, forms.length = slotCount t → ∃ f, forms[i]? = some f ∧ (⟨t, forms, ps⟩ : Word).form p = .ok f) ∧
    (∀ items : List Json, items.length = slotCount t → ∃ x, items[i]? = some x ∧ (⟨t, .arr items, ps⟩ : LoadedWord).form p = .ok x) ∧
    (∀ s : Str, s.length = slotCount t → ∃ c, s[i]? = some c ∧ (⟨t, .str s, ps⟩ : LoadedWord).form p = .ok (.str [c])) ∧
    ∀ items, ∃ k, (⟨t, .obj items, ps⟩ : LoadedWord).form p = .error (.KeyError k) := by
  obtain ⟨cache, hc, hs⟩ := rawWordsCache_spec t
  have hq : WFProps (Properties.new [.props p, .props ps]) := wf_new (wfargs_props (ps := [p, ps]) (by
    intro q hq
    rcases List.mem_cons.mp hq with rfl | hq
    · exact hp
    · rw [List.mem_singleton.mp hq]; exact hps))
  obtain ⟨c, hfull, hraw⟩ := getRawKey_eq hq (schema_not_wordType t)
  obtain ⟨i, hi⟩ := hs.total c hfull
  have hlt : i < slotCount t := by rw [← cache_slots, wordsCache_length]; exact hs.bound _ _ hi
  refine ⟨i, hlt, ?_, ?_, ?_, ?_⟩
  · intro forms hf
    have hlt' : i < forms.length := by omega
    refine ⟨forms[i], by simp, ?_⟩
    simp only [Word.form, Word.formRaw, hc, bind, Except.bind, hraw, hi]
    simp [hlt']
  · intro items hf
    have hlt' : i < items.length := by omega
    refine ⟨items[i], by simp, ?_⟩
    simp only [LoadedWord.form, hc, hraw, hi, Json.nth]
    simp [hlt']
  · intro s hf
    have hlt' : i < s.length := by omega
    refine ⟨s[i], by simp, ?_⟩
    simp only [LoadedWord.form, hc, hraw, hi, Json.nth]
    simp [hlt']
  · intro items
    refine ⟨pyStr i, ?_⟩
    simp only [LoadedWord.form, hc, hraw, hi, Json.nth]

/-! ## templates -/

theorem loadDependency_ok {x : Json} {dep : Dep} (h : loadDependency x = .ok dep) : IsDependency x dep := by
  have hp : ∀ {x : Json}, (do .ok (Dep.props (← loadProperties x)) : Except LoadErr Dep) = .ok dep → IsDependency x dep := by
    intro x h
    cases hx : loadProperties x with
    | error e => rw [hx] at h; cases h
    | ok p =>
      rw [hx] at h
      injection h with h
      subst h
      obtain ⟨items, rfl, hr⟩ := loadProperties_inv hx
      obtain ⟨p', hp', -, hsays, -⟩ := loadProperties_ok hr
      rw [hx] at hp'
      injection hp' with hp'
      subst hp'
      exact .props items p hr hsays
  cases x with
  | str name => injection h with h; subst h; exact .ext name
  | _ => exact hp h

theorem loadDependency_of {x : Json} {dep : Dep} (h : IsDependency x dep) : ∃ dep', loadDependency x = .ok dep' := by
  cases h with
  | ext name => exact ⟨_, rfl⟩
  | props items p hr _ =>
    obtain ⟨p', hp', -⟩ := loadProperties_ok hr
    exact ⟨.props p', by simp only [loadDependency, hp', bind, Except.bind]⟩

theorem forall₂_of_mapM_any {α β ε : Type} {f : α → Except ε β} {l : List α} {bs : List β} (h : l.mapM f = .ok bs) :
    List.Forall₂ (fun a b => f a = .ok b) l bs := by
  induction l generalizing bs with
  | nil => injection h with h; subst h; exact .nil
  | cons a l ih =>
    rw [List.mapM_cons] at h
    cases ha : f a with
    | error e => rw [ha] at h; cases h
    | ok b =>
      rw [ha] at h
      cases hl : l.mapM f with
      | error e => rw [hl] at h; cases h
      | ok bs' =>
        rw [hl] at h
        injection h with h
        subst h
        exact .cons ha (ih hl)

theorem mapM_of_all {α β ε : Type} {f : α → Except ε β} {l : List α} (h : ∀ a ∈ l, ∃ b, f a = .ok b) : ∃ bs, l.mapM f = .ok bs := by
  induction l with
  | nil => exact ⟨[], rfl⟩
  | cons a l ih =>
    obtain ⟨b, hb⟩ := h a (by simp)
    obtain ⟨bs, hbs⟩ := ih (fun a ha => h a (by simp [ha]))
    exact ⟨b :: bs, by rw [List.mapM_cons, hb, hbs]; rfl⟩

theorem forall₂_to_left {α β : Type} {R : α → β → Prop} {as : List α} {bs : List β} (h : List.Forall₂ R as bs) : ∀ a ∈ as, ∃ b, b ∈ bs ∧ R a b := by
  induction h with
  | nil => simp
  | cons hab _ ih =>
    rename_i a b as bs _
    intro x hx
    rcases List.mem_cons.mp hx with rfl | hx
    · exact ⟨b, by simp, hab⟩
    · obtain ⟨y, hy, hxy⟩ := ih x hx
      exact ⟨y, by simp [hy], hxy⟩

theorem loadSubstitution_ok {j : Json} {s : LoadedSubstitution} (h : loadSubstitution j = .ok s) : IsSubstitution j s := by
  simp only [loadSubstitution, bind, Except.bind] at h
  cases h1 : j.item (str! "id") with
  | error e => rw [h1] at h; cases h
  | ok id =>
    rw [h1] at h
    dsimp only at h
    cases h2 : j.item (str! "dependencies") with
    | error e => rw [h2] at h; cases h
    | ok deps =>
      rw [h2] at h
      dsimp only at h
      cases h3 : deps.iterate with
      | error e => rw [h3] at h; cases h
      | ok parts =>
        rw [h3] at h
        dsimp only at h
        cases h4 : parts.mapM loadDependency with
        | error e => rw [h4] at h; cases h
        | ok ds =>
          rw [h4] at h
          injection h with h
          subst h
          exact ⟨item_ok.mp h1, deps, parts, item_ok.mp h2, iterate_ok.mp h3, (forall₂_of_mapM_any h4).imp fun _ _ h => loadDependency_ok h⟩

theorem loadSubstitution_of {j : Json} {s : LoadedSubstitution} (h : IsSubstitution j s) : ∃ s', loadSubstitution j = .ok s' := by
  obtain ⟨h1, deps, parts, h2, h3, h4⟩ := h
  obtain ⟨ds, hds⟩ := mapM_of_all (f := loadDependency) (l := parts) (fun a ha => by
    obtain ⟨b, -, hab⟩ := forall₂_to_left h4 a ha
    exact loadDependency_of hab)
  refine ⟨⟨s.id, ds⟩, ?_⟩
  simp only [loadSubstitution, item_ok.mpr h1, item_ok.mpr h2, iterate_ok.mpr h3, hds, bind, Except.bind]

/-- C143: a template that was loaded is that of the document. -/
theorem C143_contents (j : Json) (t : LoadedTemplate) (h : loadTemplate j = .ok t) : IsTemplate j t := by
  simp only [loadTemplate, bind, Except.bind] at h
  cases h1 : j.item (str! "template") with
  | error e => rw [h1] at h; cases h
  | ok id =>
    rw [h1] at h
    dsimp only at h
    cases h2 : j.item (str! "substitutions") with
    | error e => rw [h2] at h; cases h
    | ok deps =>
      rw [h2] at h
      dsimp only at h
      cases h3 : deps.iterate with
      | error e => rw [h3] at h; cases h
      | ok parts =>
        rw [h3] at h
        dsimp only at h
        cases h4 : parts.mapM loadSubstitution with
        | error e => rw [h4] at h; cases h
        | ok ds =>
          rw [h4] at h
          injection h with h
          subst h
          exact ⟨item_ok.mp h1, deps, parts, item_ok.mp h2, iterate_ok.mp h3, (forall₂_of_mapM_any h4).imp fun _ _ h => loadSubstitution_ok h⟩

/-- C143: a document can be loaded as a template iff it is one. -/
theorem C143_loads (j : Json) : (∃ t, loadTemplate j = .ok t) ↔ ∃ t, IsTemplate j t := by
  constructor
  · rintro ⟨t, h⟩; exact ⟨t, C143_contents j t h⟩
  · rintro ⟨t, h1, deps, parts, h2, h3, h4⟩
    obtain ⟨ds, hds⟩ := mapM_of_all (f := loadSubstitution) (l := parts) (fun a ha => by
      obtain ⟨b, -, hab⟩ := forall₂_to_left h4 a ha
      exact loadSubstitution_of hab)
    refine ⟨⟨t.template, ds⟩, ?_⟩
    simp only [loadTemplate, item_ok.mpr h1, item_ok.mpr h2, iterate_ok.mpr h3, hds, bind, Except.bind]


theorem loadDependency_error {x : Json} {e : LoadErr} (h : loadDependency x = .error e) : BadDependency x e := by
  have hp : ∀ {x : Json}, (∀ s, x ≠ .str s) → (do .ok (Dep.props (← loadProperties x)) : Except LoadErr Dep) = .error e → BadDependency x e := by
    intro x hs h
    cases hx : loadProperties x with
    | ok p => rw [hx] at h; cases h
    | error e' =>
      rw [hx] at h
      injection h with h
      subst h
      rcases loadProperties_error hx with ⟨rfl, ho⟩ | ⟨items, rfl, kv, hkv, ⟨rfl, h'⟩ | ⟨rfl, h', h''⟩⟩
      · exact .other x hs ho
      · exact .badKey items kv hkv h'
      · exact .badValue items kv hkv h' h''
  cases x with
  | str name => cases h
  | _ => exact hp (by simp) h

theorem loadSubstitution_error {j : Json} {e : LoadErr} (h : loadSubstitution j = .error e) : BadSubstitution j e := by
  simp only [loadSubstitution, bind, Except.bind] at h
  cases h1 : j.item (str! "id") with
  | error e' =>
    rw [h1] at h
    injection h with h
    subst h
    rcases item_error h1 with ⟨rfl, h⟩ | ⟨rfl, h⟩
    · exact .noObject j h
    · exact .missing j _ (by simp) h
  | ok id =>
    rw [h1] at h
    dsimp only at h
    cases h2 : j.item (str! "dependencies") with
    | error e' =>
      rw [h2] at h
      injection h with h
      subst h
      rcases item_error h2 with ⟨rfl, h⟩ | ⟨rfl, h⟩
      · exact .noObject j h
      · exact .missing j _ (by simp) h
    | ok deps =>
      rw [h2] at h
      dsimp only at h
      cases h3 : deps.iterate with
      | error e' =>
        rw [h3] at h
        injection h with h
        subst h
        obtain ⟨rfl, hp⟩ := iterate_error h3
        exact .noParts j deps (item_ok.mp h2) hp
      | ok parts =>
        rw [h3] at h
        dsimp only at h
        cases h4 : parts.mapM loadDependency with
        | ok ds => rw [h4] at h; cases h
        | error e' =>
          rw [h4] at h
          injection h with h
          subst h
          obtain ⟨y, hy, hy'⟩ := mapM_error_mem h4
          exact .part j deps y parts _ (item_ok.mp h2) (iterate_ok.mp h3) hy (loadDependency_error hy')

/-- C143: whatever is raised, the document has the fault that it tells. -/
theorem C143_raises (j : Json) (e : LoadErr) (h : loadTemplate j = .error e) : BadTemplate j e := by
  simp only [loadTemplate, bind, Except.bind] at h
  cases h1 : j.item (str! "template") with
  | error e' =>
    rw [h1] at h
    injection h with h
    subst h
    rcases item_error h1 with ⟨rfl, h⟩ | ⟨rfl, h⟩
    · exact .noObject j h
    · exact .missing j _ (by simp) h
  | ok id =>
    rw [h1] at h
    dsimp only at h
    cases h2 : j.item (str! "substitutions") with
    | error e' =>
      rw [h2] at h
      injection h with h
      subst h
      rcases item_error h2 with ⟨rfl, h⟩ | ⟨rfl, h⟩
      · exact .noObject j h
      · exact .missing j _ (by simp) h
    | ok deps =>
      rw [h2] at h
      dsimp only at h
      cases h3 : deps.iterate with
      | error e' =>
        rw [h3] at h
        injection h with h
        subst h
        obtain ⟨rfl, hp⟩ := iterate_error h3
        exact .noParts j deps (item_ok.mp h2) hp
      | ok parts =>
        rw [h3] at h
        dsimp only at h
        cases h4 : parts.mapM loadSubstitution with
        | ok ds => rw [h4] at h; cases h
        | error e' =>
          rw [h4] at h
          injection h with h
          subst h
          obtain ⟨y, hy, hy'⟩ := mapM_error_mem h4
          exact .part j deps y parts _ (item_ok.mp h2) (iterate_ok.mp h3) hy (loadSubstitution_error hy')

theorem mapM_saved {α ε : Type} {f : Json → Except ε α} {g : α → Json} {l : List α} (h : ∀ a ∈ l, f (g a) = .ok a) : (l.map g).mapM f = .ok l := by
  induction l with
  | nil => rfl
  | cons a l ih =>
    rw [List.map_cons, List.mapM_cons, h a (by simp), ih (fun a ha => h a (by simp [ha]))]
    rfl

theorem loadDependency_save {dep : Dep} (h : ∀ p, dep = .props p → WFProps p) : loadDependency (saveDependency dep) = .ok dep := by
  cases dep with
  | ext name => rfl
  | props p =>
    have := loadProperties_save (h p rfl)
    unfold saveProperties at this
    simp only [saveDependency, saveProperties, loadDependency, this, bind, Except.bind]

theorem saveSubstitution_load {s : LoadedSubstitution} (h : ∀ dep ∈ s.dependencies, ∀ p, dep = .props p → WFProps p) :
    loadSubstitution (saveSubstitution s) = .ok s := by
  have e1 : (saveSubstitution s).item (str! "id") = .ok s.id := rfl
  have e2 : (saveSubstitution s).item (str! "dependencies") = .ok (.arr (s.dependencies.map saveDependency)) := rfl
  have e3 := mapM_saved (f := loadDependency) (g := saveDependency) (l := s.dependencies) (fun dep hdep => loadDependency_save (h dep hdep))
  simp only [loadSubstitution, e1, e2, Json.iterate, e3, bind, Except.bind]

/-- C143: every template (with properties made by the library) that is saved and loaded again is the same template. -/
theorem C143_save_load (t : LoadedTemplate) (h : ∀ s ∈ t.substitutions, ∀ dep ∈ s.dependencies, ∀ p, dep = .props p → WFProps p) :
    loadTemplate (saveTemplate t) = .ok t := by
  have e1 : (saveTemplate t).item (str! "template") = .ok t.template := rfl
  have e2 : (saveTemplate t).item (str! "substitutions") = .ok (.arr (t.substitutions.map saveSubstitution)) := rfl
  have e3 := mapM_saved (f := loadSubstitution) (g := saveSubstitution) (l := t.substitutions) (fun s hs => saveSubstitution_load (h s hs))
  simp only [loadTemplate, e1, e2, Json.iterate, e3, bind, Except.bind]

theorem loadDependency_wf {x : Json} {p : Properties} (h : loadDependency x = .ok (.props p)) : WFProps p := by
  have hp : ∀ {x : Json}, (do .ok (Dep.props (← loadProperties x)) : Except LoadErr Dep) = .ok (.props p) → WFProps p := by
    intro x h
    cases hx : loadProperties x with
    | error e => rw [hx] at h; cases h
    | ok p' =>
      rw [hx] at h
      injection h with h
      injection h with h
      subst h
      obtain ⟨items, rfl, hr⟩ := loadProperties_inv hx
      obtain ⟨p'', hp', hwf, -, -⟩ := loadProperties_ok hr
      rw [hx] at hp'
      injection hp' with hp'
      subst hp'
      exact hwf
  cases x with
  | str name => cases h
  | _ => exact hp h


theorem loadSubstitution_wf {j : Json} {s : LoadedSubstitution} (h : loadSubstitution j = .ok s) :
    ∀ dep ∈ s.dependencies, ∀ p, dep = .props p → WFProps p := by
  simp only [loadSubstitution, bind, Except.bind] at h
  cases h1 : j.item (str! "id") with
  | error e => rw [h1] at h; cases h
  | ok id =>
    rw [h1] at h
    dsimp only at h
    cases h2 : j.item (str! "dependencies") with
    | error e => rw [h2] at h; cases h
    | ok deps =>
      rw [h2] at h
      dsimp only at h
      cases h3 : deps.iterate with
      | error e => rw [h3] at h; cases h
      | ok parts =>
        rw [h3] at h
        dsimp only at h
        cases h4 : parts.mapM loadDependency with
        | error e => rw [h4] at h; cases h
        | ok ds =>
          rw [h4] at h
          injection h with h
          subst h
          intro dep hdep p hp
          obtain ⟨x, -, hx⟩ := forall₂_to_left (forall₂_of_mapM_any h4).flip dep hdep
          rw [hp] at hx
          exact loadDependency_wf hx

/-- C143: a loaded template that is saved and loaded again is the same template. -/
theorem C143_resave (j : Json) (t : LoadedTemplate) (h : loadTemplate j = .ok t) : loadTemplate (saveTemplate t) = .ok t := by
  refine C143_save_load t ?_
  simp only [loadTemplate, bind, Except.bind] at h
  cases h1 : j.item (str! "template") with
  | error e => rw [h1] at h; cases h
  | ok id =>
    rw [h1] at h
    dsimp only at h
    cases h2 : j.item (str! "substitutions") with
    | error e => rw [h2] at h; cases h
    | ok deps =>
      rw [h2] at h
      dsimp only at h
      cases h3 : deps.iterate with
      | error e => rw [h3] at h; cases h
      | ok parts =>
        rw [h3] at h
        dsimp only at h
        cases h4 : parts.mapM loadSubstitution with
        | error e => rw [h4] at h; cases h
        | ok ds =>
          rw [h4] at h
          injection h with h
          subst h
          intro s hs
          obtain ⟨x, -, hx⟩ := forall₂_to_left (forall₂_of_mapM_any h4).flip s hs
          exact loadSubstitution_wf hx

/-- C143: other fields, and the order of the fields, do not matter; neither in the template nor in a substitution. -/
theorem C143_other_fields (d d' : List (Str × Json)) :
    ((∀ k ∈ [str! "template", str! "substitutions"], ∀ x, HasField (.obj d) k x ↔ HasField (.obj d') k x) → loadTemplate (.obj d) = loadTemplate (.obj d')) ∧
    ((∀ k ∈ [str! "id", str! "dependencies"], ∀ x, HasField (.obj d) k x ↔ HasField (.obj d') k x) →
      loadSubstitution (.obj d) = loadSubstitution (.obj d')) := by
  constructor <;> intro h
  · unfold loadTemplate
    rw [item_congr (h (str! "template") (by simp)), item_congr (h (str! "substitutions") (by simp))]
  · unfold loadSubstitution
    rw [item_congr (h (str! "id") (by simp)), item_congr (h (str! "dependencies") (by simp))]

/-- C143: only a list of substitutions, or an empty text or object, is accepted as the substitutions. -/
theorem C143_list (j : Json) (t : LoadedTemplate) (h : loadTemplate j = .ok t) :
    (∃ items, HasField j (str! "substitutions") (.arr items) ∧ List.Forall₂ IsSubstitution items t.substitutions) ∨
    (t.substitutions = [] ∧ (HasField j (str! "substitutions") (.str []) ∨ HasField j (str! "substitutions") (.obj []))) := by
  obtain ⟨-, subs, parts, h2, h3, h4⟩ := C143_contents j t h
  have hno : ∀ {s : Str} {x : LoadedSubstitution}, ¬ IsSubstitution (.str s) x := by
    rintro s x ⟨⟨pre, post, h, -⟩, -⟩
    cases h
  generalize t.substitutions = ss at h4 ⊢
  cases h3 with
  | arr items => exact .inl ⟨parts, h2, h4⟩
  | str s =>
    cases s with
    | nil => cases h4; exact .inr ⟨rfl, .inl h2⟩
    | cons c s => cases h4 with | cons h _ => exact absurd h hno
  | obj items =>
    cases items with
    | nil => cases h4; exact .inr ⟨rfl, .inr h2⟩
    | cons c s => cases h4 with | cons h _ => exact absurd h hno

/-! ## examples -/

/-- C142 applies: a preposition with `10.0` as its type, three forms and a property whose code is unknown. -/
def exDocument : Json := .obj [(str! "id", .int 7), (str! "type", .float (str! "10.0") (some 10)),
  (str! "forms", .arr [.str (str! "в"), .str (str! "во"), .str (str! "во")]), (str! "properties", .obj [(str! "99", .arr []), (str! "12", .bool true)])]

example : loadWord exDocument = .ok ⟨.PREPOSITION, .arr [.str (str! "в"), .str (str! "во"), .str (str! "во")],
    .new [.record .WORD_CASE_UPPER]⟩ := rfl

/-- Damaged documents: each raises what its fault tells. -/
example : loadWord (.arr []) = .error .TypeError ∧
    loadWord (.obj [(str! "type", .int 10)]) = .error (.KeyError (str! "forms")) ∧
    loadWord (.obj [(str! "type", .str (str! "10"))]) = .error (.Lookup (.str (str! "10"))) ∧
    loadWord (.obj [(str! "type", .int 10), (str! "forms", .null), (str! "properties", .obj [])]) = .error .TypeError ∧
    loadWord (.obj [(str! "type", .int 10), (str! "forms", .null), (str! "properties", .arr [])]) = .error .AttributeError ∧
    loadWord (.obj [(str! "type", .int 10), (str! "forms", .null), (str! "properties", .obj [(str! "x", .null)])]) = .error .ValueError :=
  ⟨rfl, rfl, rfl, rfl, rfl, rfl⟩

/-- C142: a text of the right length, an object with the right number of fields, or a list of anything is accepted for the forms: the first
gives letters for forms, the second raises `KeyError` when a form is needed. -/
theorem C142_odd_forms :
    (∃ w, loadWord (.obj [(str! "type", .int 10), (str! "forms", .str (str! "вот")), (str! "properties", .obj [])]) = .ok w ∧
      w.form (.new []) = .ok (.str (str! "в"))) ∧
    (∃ w k, loadWord (.obj [(str! "type", .int 6), (str! "forms", .obj [(str! "0", .str (str! "мир"))]), (str! "properties", .obj [])]) = .ok w ∧
      ∀ p, WFProps p → w.form p = .error (.KeyError k)) ∧
    ∃ w, loadWord (.obj [(str! "type", .int 6), (str! "forms", .arr [.null]), (str! "properties", .obj [])]) = .ok w ∧
      ∀ p, WFProps p → w.form p = .ok .null := by
  refine ⟨⟨_, rfl, rfl⟩, ⟨_, pyStr 0, rfl, fun p hp => ?_⟩, _, rfl, fun p hp => ?_⟩
  · rfl
  · rfl

/-- C143 applies: a template in a document; `substitutions` left out; a number among the dependencies. -/
example :
    loadTemplate (.obj [(str! "template", .str (str! "%s!")), (str! "substitutions",
      .arr [.obj [(str! "id", .str (str! "мир")), (str! "dependencies", .arr [.str (str! "x"), .obj [(str! "2", .int 1)]])]])]) =
      .ok ⟨.str (str! "%s!"), [⟨.str (str! "мир"), [.ext (str! "x"), .props (.new [.record .NUMBER_PLURAL])]⟩]⟩ ∧
    loadTemplate (.obj [(str! "template", .str (str! "%s!"))]) = .error (.KeyError (str! "substitutions")) ∧
    loadTemplate (.obj [(str! "template", .null), (str! "substitutions",
      .arr [.obj [(str! "id", .str (str! "мир")), (str! "dependencies", .arr [.int 1])]])]) = .error .AttributeError :=
  ⟨rfl, rfl, rfl⟩

/-- C143: a text for the dependencies is read letter by letter. -/
theorem C143_text_as_list : ∃ t, loadTemplate (.obj [(str! "template", .str (str! "%s!")), (str! "substitutions",
      .arr [.obj [(str! "id", .str (str! "мир")), (str! "dependencies", .str (str! "кот"))]])]) = .ok t ∧
    t.substitutions.map (·.dependencies) = [[.ext (str! "к"), .ext (str! "о"), .ext (str! "т")]] := ⟨_, rfl, rfl⟩

end Utg
