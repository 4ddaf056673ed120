import Verif.Spec.PythonTable
import Verif.Props.AnyTables
import Verif.Props.Templates
import Verif.Props.Integers
/-!
# C123: printed tables can be pasted into a migration
-/

namespace Utg
open Py Spec

/-! ## Names -/

/-- Characters of names and numbers. -/
def Plain (c : Char) : Prop := c ≠ ',' ∧ c ≠ ':' ∧ c ≠ '(' ∧ c ≠ ')' ∧ c ≠ '{' ∧ c ≠ '}' ∧ c ≠ ' ' ∧ c ≠ '\n'

instance (c : Char) : Decidable (Plain c) := by unfold Plain; infer_instance

theorem repr_plain (r : Rec) : ∀ c ∈ r.repr, Plain c := by cases r <;> decide +kernel

theorem repr_ne_nil (r : Rec) : r.repr ≠ [] := by unfold Rec.repr; simp

theorem namedRecord_repr (r : Rec) : namedRecord r.repr = some r := by cases r <;> decide +kernel

theorem namedRecord_iff (s : Str) (r : Rec) : namedRecord s = some r ↔ s = r.repr := by
  constructor
  · intro h
    have := List.find?_some h
    simpa [Rec.repr] using (of_decide_eq_true this).symm
  · rintro rfl; exact namedRecord_repr r

theorem reprEntry_plain (e : Option Rec) : ∀ c ∈ reprEntry e, Plain c := by
  cases e with
  | none => decide
  | some r => exact repr_plain r

theorem reprEntry_ne_nil (e : Option Rec) : reprEntry e ≠ [] := by
  cases e with
  | none => decide
  | some r => exact repr_ne_nil r

theorem entryText_iff (s : Str) (e : Option Rec) : EntryText s e ↔ s = reprEntry e := by
  cases e with
  | none => rfl
  | some r => exact namedRecord_iff s r

theorem repr_injective {r q : Rec} (h : r.repr = q.repr) : r = q := by
  have h1 := namedRecord_repr r
  rw [h, namedRecord_repr q] at h1
  injection h1 with h1
  exact h1.symm

theorem reprEntry_injective {e f : Option Rec} (h : reprEntry e = reprEntry f) : e = f := by
  have hn : ∀ r : Rec, str! "None" ≠ r.repr := by intro r; cases r <;> decide +kernel
  cases e <;> cases f
  · rfl
  · exact absurd h (hn _)
  · exact absurd h.symm (hn _)
  · rw [repr_injective h]

theorem natDigits_plain (n : Nat) : natDigits n ≠ [] ∧ ∀ c ∈ natDigits n, Plain c := by
  have hd : ∀ k < 10, Plain (Char.ofNat ('0'.toNat + k)) := by decide +kernel
  induction n using Nat.strongRecOn with
  | ind n ih =>
    by_cases h : n < 10
    · rw [natDigits_lt h]
      exact ⟨by simp, by simpa using hd n h⟩
    · rw [natDigits_ge h]
      refine ⟨by simp, fun c hc => ?_⟩
      rcases List.mem_append.mp hc with hc | hc
      · exact (ih (n / 10) (by omega)).2 c hc
      · simp only [List.mem_singleton] at hc
        subst hc
        exact hd _ (Nat.mod_lt _ (by omega))

theorem pyStr_nat (n : Nat) : pyStr (n : Int) = natDigits n := by
  unfold pyStr
  rw [if_neg (by omega)]
  rfl

theorem natDigits_value (n : Nat) : (natDigits n).foldl (fun a c => 10 * a + (c.toNat - '0'.toNat)) 0 = n := by
  have hd : ∀ k < 10, (Char.ofNat ('0'.toNat + k)).toNat - '0'.toNat = k := by decide +kernel
  induction n using Nat.strongRecOn with
  | ind n ih =>
    by_cases h : n < 10
    · rw [natDigits_lt h]
      simp only [List.foldl_cons, List.foldl_nil]
      rw [hd n h]; omega
    · rw [natDigits_ge h, List.foldl_append, ih (n / 10) (by omega)]
      simp only [List.foldl_cons, List.foldl_nil]
      rw [hd _ (Nat.mod_lt _ (by omega))]; omega

theorem pyStr_injective {m n : Nat} (h : pyStr (m : Int) = pyStr (n : Int)) : m = n := by
  rw [pyStr_nat, pyStr_nat] at h
  rw [← natDigits_value m, h, natDigits_value]

/-! ## Reading is unique -/

theorem split_first {P : Char → Prop} {a b : Str} {c d : Char} {x y : Str} (h : a ++ c :: x = b ++ d :: y) (ha : ∀ z ∈ a, P z) (hb : ∀ z ∈ b, P z)
    (hc : ¬ P c) (hd : ¬ P d) : a = b ∧ c = d ∧ x = y := by
  induction a generalizing b with
  | nil =>
    cases b with
    | nil => simp only [List.nil_append, List.cons.injEq] at h; exact ⟨rfl, h⟩
    | cons z b =>
      simp only [List.nil_append, List.cons_append, List.cons.injEq] at h
      exact absurd (hb z (by simp)) (h.1 ▸ hc)
  | cons z a ih =>
    cases b with
    | nil =>
      simp only [List.nil_append, List.cons_append, List.cons.injEq] at h
      exact absurd (ha z (by simp)) (h.1 ▸ hd)
    | cons z' b =>
      simp only [List.cons_append, List.cons.injEq] at h
      obtain ⟨rfl, h⟩ := h
      obtain ⟨h1, h2⟩ := ih h (fun w hw => ha w (by simp [hw])) (fun w hw => hb w (by simp [hw]))
      exact ⟨by rw [h1], h2⟩

/-- The body of a tuple. -/
def keyBody (key : Key) : Str := [','].intercalate (key.map reprEntry) ++ if key.length = 1 then [','] else []

theorem keyText_iff (s : Str) (key : Key) : KeyText s key ↔ s = '(' :: keyBody key ++ [')'] := by
  unfold KeyText keyBody
  have hf : ∀ parts : List Str, List.Forall₂ EntryText parts key ↔ parts = key.map reprEntry := by
    intro parts
    induction key generalizing parts with
    | nil => simp
    | cons e key ih =>
      rw [List.map_cons]
      constructor
      · rintro (_ | ⟨h1, h2⟩)
        rw [(entryText_iff _ _).mp h1, (ih _).mp h2]
      · rintro rfl
        exact .cons ((entryText_iff _ _).mpr rfl) ((ih _).mpr rfl)
  constructor
  · rintro ⟨parts, h1, rfl⟩
    rw [hf] at h1
    subst h1
    rw [List.length_map]
    split <;> simp
  · rintro rfl
    refine ⟨_, (hf _).mpr rfl, ?_⟩
    rw [List.length_map]
    split <;> simp

theorem mem_intercalate {c : Char} {sep : Char} {parts : List Str} (h : c ∈ [sep].intercalate parts) : c = sep ∨ ∃ p ∈ parts, c ∈ p := by
  cases parts with
  | nil => simp [List.intercalate] at h
  | cons p ps =>
    rw [intercalate_cons] at h
    rcases List.mem_append.mp h with h | h
    · exact .inr ⟨p, by simp, h⟩
    · simp only [List.mem_flatMap] at h
      obtain ⟨q, hq, h⟩ := h
      rcases List.mem_cons.mp h with rfl | h
      · exact .inl rfl
      · exact .inr ⟨q, by simp [hq], h⟩

theorem keyBody_chars {key : Key} : ∀ c ∈ keyBody key, c = ',' ∨ Plain c := by
  intro c hc
  unfold keyBody at hc
  rcases List.mem_append.mp hc with hc | hc
  · rcases mem_intercalate hc with h | ⟨p, hp, h⟩
    · exact .inl h
    · simp only [List.mem_map] at hp
      obtain ⟨e, -, rfl⟩ := hp
      exact .inr (reprEntry_plain e c h)
  · split at hc
    · simp only [List.mem_singleton] at hc; exact .inl hc
    · simp at hc

theorem keyBody_injective {k l : Key} (h : keyBody k = keyBody l) : k = l := by
  have hs : ∀ k : Key, split ',' (keyBody k) = match k with | [] => [[]] | [e] => [reprEntry e, []] | k => k.map reprEntry := by
    intro k
    have hc : ∀ (e : Option Rec), ',' ∉ reprEntry e := fun e h => (reprEntry_plain e _ h).1 rfl
    unfold keyBody
    match k with
    | [] => decide
    | [e] =>
      simp only [List.map_cons, List.map_nil, List.length_singleton, if_true]
      rw [intercalate_cons]
      simp only [List.flatMap_nil, List.append_nil]
      rw [split_append (hc e)]
      rfl
    | e :: f :: k =>
      rw [if_neg (by simp), List.append_nil, split_intercalate (by simp)]
      intro s hs
      simp only [List.mem_map] at hs
      obtain ⟨x, -, rfl⟩ := hs
      exact hc x
  have hinj : ∀ a b : Key, a.map reprEntry = b.map reprEntry → a = b := fun a b h =>
    List.map_injective_iff.mpr (fun x y => reprEntry_injective) h
  have hnil : ∀ a : Key, [] ∉ a.map reprEntry := by
    intro a ha
    simp only [List.mem_map] at ha
    obtain ⟨e, -, he⟩ := ha
    exact reprEntry_ne_nil e he
  have h' := hs k
  rw [h, hs l] at h'
  match k, l, h' with
  | [], [], _ => rfl
  | [], [e], h' => simp at h'
  | [], e :: f :: l, h' => simp at h'
  | [e], [], h' => simp at h'
  | [e], [f], h' =>
    simp only [List.cons.injEq, and_true] at h'
    rw [reprEntry_injective h']
  | [e], f :: g :: l, h' =>
    exfalso
    apply hnil (f :: g :: l)
    dsimp only at h'
    rw [h']
    simp
  | e :: f :: k, [], h' => simp at h'
  | e :: f :: k, [g], h' =>
    exfalso
    apply hnil (e :: f :: k)
    dsimp only at h'
    rw [← h']
    simp
  | e :: f :: k, g :: i :: l, h' => exact (hinj _ _ h').symm

/-- What follows the first item of a dictionary. -/
def itemsRest (ps : List Str) (x : Str) : Str := ps.flatMap (',' :: ·) ++ '}' :: x

theorem itemsRest_head (ps : List Str) (x : Str) : ∃ c z, itemsRest ps x = c :: z ∧ (c = ',' ∨ c = '}') := by
  cases ps with
  | nil => exact ⟨'}', x, rfl, .inr rfl⟩
  | cons p ps => exact ⟨',', p ++ itemsRest ps x, by simp [itemsRest], .inl rfl⟩

section
variable {α β : Type} {K : Str → α → Prop} {V : Str → β → Prop}
  (hK : ∀ {k k' : Str} {e e' : α} {x y : Str}, K k e → K k' e' → k ++ ':' :: x = k' ++ ':' :: y → e = e' ∧ x = y)
  (hK0 : ∀ {k : Str} {e : α} {x y : Str}, K k e → k ++ ':' :: x ≠ '}' :: y)
  (hV : ∀ {v v' : Str} {e e' : β} {c d : Char} {x y : Str}, V v e → V v' e' → c = ',' ∨ c = '}' → d = ',' ∨ d = '}' →
    v ++ c :: x = v' ++ d :: y → e = e' ∧ c = d ∧ x = y)
include hK hV

theorem item_unique {p p' : Str} {e e' : α × β} {ps ps' : List Str} {x y : Str} (h : ∃ k v, p = k ++ ':' :: v ∧ K k e.1 ∧ V v e.2)
    (h' : ∃ k v, p' = k ++ ':' :: v ∧ K k e'.1 ∧ V v e'.2) (he : p ++ itemsRest ps x = p' ++ itemsRest ps' y) :
    e = e' ∧ itemsRest ps x = itemsRest ps' y := by
  obtain ⟨k, v, rfl, h1, h2⟩ := h
  obtain ⟨k', v', rfl, h1', h2'⟩ := h'
  simp only [List.append_assoc, List.cons_append] at he
  obtain ⟨a, he⟩ := hK h1 h1' he
  obtain ⟨c, z, hz, hc⟩ := itemsRest_head ps x
  obtain ⟨c', z', hz', hc'⟩ := itemsRest_head ps' y
  rw [hz, hz'] at he
  obtain ⟨b, rfl, rfl⟩ := hV h2 h2' hc hc' he
  exact ⟨Prod.ext a b, by rw [hz, hz']⟩

theorem itemsRest_unique {ps ps' : List Str} {es es' : List (α × β)} {x y : Str}
    (h : List.Forall₂ (fun p e => ∃ k v, p = k ++ ':' :: v ∧ K k e.1 ∧ V v e.2) ps es)
    (h' : List.Forall₂ (fun p e => ∃ k v, p = k ++ ':' :: v ∧ K k e.1 ∧ V v e.2) ps' es')
    (he : itemsRest ps x = itemsRest ps' y) : es = es' ∧ x = y := by
  induction h generalizing ps' es' with
  | nil =>
    cases h' with
    | nil => simpa [itemsRest] using he
    | cons => simp [itemsRest] at he
  | cons h1 _ ih =>
    cases h' with
    | nil => simp [itemsRest] at he
    | cons h1' h2' =>
      have he' : ∀ (p : Str) ps x, itemsRest (p :: ps) x = ',' :: (p ++ itemsRest ps x) := by intro p ps x; simp [itemsRest]
      rw [he', he'] at he
      injection he with _ he
      obtain ⟨rfl, he⟩ := item_unique hK hV h1 h1' he
      obtain ⟨rfl, rfl⟩ := ih h2' he
      exact ⟨rfl, rfl⟩

include hK0 in
theorem dictText_unique {s s' : Str} {es es' : List (α × β)} {x y : Str} (h : DictText K V s es) (h' : DictText K V s' es') (he : s ++ x = s' ++ y) :
    es = es' ∧ x = y := by
  obtain ⟨ps, h1, rfl⟩ := h
  obtain ⟨ps', h1', rfl⟩ := h'
  simp only [List.cons_append, List.append_assoc, List.cons.injEq, true_and, List.nil_append] at he
  cases h1 with
  | nil =>
    cases h1' with
    | nil => simp [List.intercalate] at he; exact ⟨rfl, he⟩
    | cons a b =>
      exfalso
      obtain ⟨k, v, rfl, a1, a2⟩ := a
      rw [intercalate_cons] at he
      simp only [List.append_assoc, List.cons_append] at he
      exact hK0 a1 he.symm
  | cons a b =>
    cases h1' with
    | nil =>
      exfalso
      obtain ⟨k, v, rfl, a1, a2⟩ := a
      rw [intercalate_cons] at he
      simp only [List.append_assoc, List.cons_append] at he
      exact hK0 a1 he
    | cons a' b' =>
      rw [intercalate_cons, intercalate_cons] at he
      simp only [List.append_assoc] at he
      obtain ⟨rfl, he⟩ := item_unique hK hV a a' he
      obtain ⟨rfl, rfl⟩ := itemsRest_unique hK hV b b' he
      exact ⟨rfl, rfl⟩

end

theorem keyText_unique {s s' : Str} {k k' : Key} {x y : Str} (h : KeyText s k) (h' : KeyText s' k') (he : s ++ ':' :: x = s' ++ ':' :: y) :
    k = k' ∧ x = y := by
  rw [keyText_iff] at h h'
  subst h h'
  simp only [List.cons_append, List.append_assoc, List.cons.injEq, true_and, List.nil_append] at he
  have hp : ∀ k : Key, ∀ c ∈ keyBody k, c ≠ ')' := by
    intro k c hc
    rcases keyBody_chars c hc with rfl | h
    · decide
    · exact h.2.2.2.1
  obtain ⟨h1, -, h2⟩ := split_first (P := (· ≠ ')')) he (hp k) (hp k') (by simp) (by simp)
  injection h2 with _ h2
  exact ⟨keyBody_injective h1, h2⟩

theorem innerText_unique {s s' : Str} {es es' : List (Key × Nat)} {x y : Str}
    (h : DictText KeyText (fun s (n : Nat) => s = pyStr n) s es) (h' : DictText KeyText (fun s (n : Nat) => s = pyStr n) s' es')
    (he : s ++ x = s' ++ y) : es = es' ∧ x = y := by
  refine dictText_unique keyText_unique ?_ ?_ h h' he
  · intro k e x y hk he
    rw [keyText_iff] at hk
    subst hk
    simp at he
  · rintro v v' e e' c d x y rfl rfl hc hd he
    have hp : ∀ n : Nat, ∀ c ∈ pyStr (n : Int), Plain c := by intro n; rw [pyStr_nat]; exact (natDigits_plain n).2
    have hcp : ∀ c : Char, c = ',' ∨ c = '}' → ¬ Plain c := by rintro c (rfl | rfl) <;> decide
    obtain ⟨h1, h2, h3⟩ := split_first he (hp e) (hp e') (hcp c hc) (hcp d hd)
    exact ⟨pyStr_injective h1, h2, h3⟩

theorem toRec_injective {t u : WordType} (h : t.toRec = u.toRec) : t = u := by
  revert h; cases t <;> cases u <;> decide

/-- C123: a text is the expression of one table at most. -/
theorem C123_unique (text : Str) (items items' : List (WordType × List (Key × Nat))) (h : Displays text items) (h' : Displays text items') :
    items = items' := by
  unfold Displays TableText at h h'
  refine (dictText_unique (x := []) (y := []) ?_ ?_ ?_ h.2 h'.2 rfl).1
  · intro k k' e e' x y h1 h2 he
    rw [namedRecord_iff] at h1 h2
    subst h1 h2
    obtain ⟨h1, -, h2⟩ := split_first he (repr_plain _) (repr_plain _) (by decide) (by decide)
    exact ⟨toRec_injective (repr_injective h1), h2⟩
  · intro k e x y h1 he
    rw [namedRecord_iff] at h1
    subst h1
    obtain ⟨c, z, hz⟩ := List.exists_cons_of_ne_nil (repr_ne_nil e.toRec)
    have := repr_plain e.toRec c (by rw [hz]; simp)
    rw [hz] at he
    simp only [List.cons_append, List.cons.injEq] at he
    rw [he.1] at this
    exact absurd this (by decide)
  · intro v v' e e' c d x y h1 h2 hc hd he
    obtain ⟨h1, h2⟩ := innerText_unique h1 h2 he
    injection h2 with h2 h3
    exact ⟨h1, h2, h3⟩

/-! ## Printing -/

theorem wb_append (a b : Str) : withoutBlanks (a ++ b) = withoutBlanks a ++ withoutBlanks b := List.filter_append ..

theorem wb_plain {s : Str} (h : ∀ c ∈ s, Plain c) : withoutBlanks s = s := by
  unfold withoutBlanks
  rw [List.filter_eq_self]
  intro c hc
  have := h c hc
  simpa using ⟨this.2.2.2.2.2.2.1, this.2.2.2.2.2.2.2⟩

theorem wb_replicate (n : Nat) : withoutBlanks (List.replicate n ' ') = [] := by
  unfold withoutBlanks
  simp

theorem wb_joinComma (ps : List Str) : withoutBlanks (joinComma ps) = [','].intercalate (ps.map withoutBlanks) := by
  induction ps using joinComma.induct with
  | case1 => rfl
  | case2 p => simp [joinComma]
  | case3 p q ps ih =>
    rw [joinComma, wb_append, wb_append, ih]
    rw [List.map_cons, List.map_cons, List.map_cons, intercalate_cons, intercalate_cons, List.flatMap_cons]
    simp [withoutBlanks]

theorem wb_reprKey (k : Key) : KeyText (withoutBlanks (reprKey k)) k := by
  rw [keyText_iff]
  unfold keyBody
  have hm : ∀ k : Key, (k.map reprEntry).map withoutBlanks = k.map reprEntry := by
    intro k
    rw [List.map_map]
    apply List.map_congr_left
    intro e _
    exact wb_plain (reprEntry_plain e)
  match k with
  | [] => decide
  | [e] =>
    have : reprKey [e] = str! "(" ++ reprEntry e ++ str! ",)" := rfl
    rw [this, wb_append, wb_append, wb_plain (reprEntry_plain e)]
    simp [withoutBlanks]
  | e :: f :: k =>
    have : reprKey (e :: f :: k) = str! "(" ++ joinComma ((e :: f :: k).map reprEntry) ++ str! ")" := rfl
    rw [this, wb_append, wb_append, wb_joinComma, hm, if_neg (by simp)]
    simp [withoutBlanks]

section
variable {α β : Type} {K : Str → α → Prop} {V : Str → β → Prop} {reprK : α → Str} {reprV : β → Str} {formatV : β → Nat → Nat → Str}

theorem wb_reprDict {items : List (α × β)} (hK : ∀ e ∈ items, K (withoutBlanks (reprK e.1)) e.1) (hV : ∀ e ∈ items, V (withoutBlanks (reprV e.2)) e.2) :
    DictText K V (withoutBlanks (reprDict reprK reprV items)) items := by
  refine ⟨items.map fun e => withoutBlanks (reprK e.1) ++ ':' :: withoutBlanks (reprV e.2), ?_, ?_⟩
  · rw [List.forall₂_map_left_iff, List.forall₂_same]
    exact fun e he => ⟨_, _, rfl, hK e he, hV e he⟩
  · have : reprDict reprK reprV items = str! "{" ++ joinComma (items.map fun e => reprK e.1 ++ str! ": " ++ reprV e.2) ++ str! "}" := rfl
    rw [this, wb_append, wb_append, wb_joinComma, List.map_map]
    have : (withoutBlanks ∘ fun e : α × β => reprK e.1 ++ str! ": " ++ reprV e.2) =
        fun e => withoutBlanks (reprK e.1) ++ ':' :: withoutBlanks (reprV e.2) := by
      funext e
      simp only [Function.comp, wb_append]
      simp [withoutBlanks]
    rw [this]
    rfl

theorem wb_formatItems {items : List (α × β)} (indent allowance : Nat) (hK : ∀ e ∈ items, K (withoutBlanks (reprK e.1)) e.1)
    (hV : ∀ e ∈ items, ∀ i a, V (withoutBlanks (formatV e.2 i a)) e.2) :
    ∃ parts, List.Forall₂ (fun p e => ∃ k v, p = k ++ ':' :: v ∧ K k e.1 ∧ V v e.2) parts items ∧
      withoutBlanks (formatItems reprK formatV indent allowance items) = [','].intercalate parts := by
  induction items with
  | nil => exact ⟨[], .nil, rfl⟩
  | cons e items ih =>
    obtain ⟨k, v⟩ := e
    have h1 := hK (k, v) (by simp)
    have h2 := hV (k, v) (by simp)
    cases items with
    | nil =>
      refine ⟨[withoutBlanks (reprK k) ++ ':' :: withoutBlanks (formatV v (indent + (reprK k).length + 2) allowance)],
        .cons ⟨_, _, rfl, h1, h2 _ _⟩ .nil, ?_⟩
      rw [formatItems, wb_append, wb_append, intercalate_cons]
      simp [withoutBlanks]
    | cons e' items =>
      obtain ⟨parts, h3, h4⟩ := ih (fun e he => hK e (List.mem_cons_of_mem _ he)) (fun e he => hV e (List.mem_cons_of_mem _ he))
      refine ⟨(withoutBlanks (reprK k) ++ ':' :: withoutBlanks (formatV v (indent + (reprK k).length + 2) 1)) :: parts,
        .cons ⟨_, _, rfl, h1, h2 _ _⟩ h3, ?_⟩
      have hx : ∀ x y : Str, x ++ ',' :: '\n' :: List.replicate indent ' ' ++ y = x ++ str! ",\n" ++ List.replicate indent ' ' ++ y := by simp
      rw [formatItems, hx, wb_append, wb_append, wb_append, wb_append, wb_append, h4, wb_replicate]
      cases h3 with
      | cons h5 h6 =>
        rw [intercalate_cons, intercalate_cons, List.flatMap_cons]
        simp [withoutBlanks]

theorem wb_formatDict {items : List (α × β)} (indent allowance : Nat) (hK : ∀ e ∈ items, K (withoutBlanks (reprK e.1)) e.1)
    (hR : ∀ e ∈ items, V (withoutBlanks (reprV e.2)) e.2) (hV : ∀ e ∈ items, ∀ i a, V (withoutBlanks (formatV e.2 i a)) e.2) :
    DictText K V (withoutBlanks (formatDict reprK reprV formatV items indent allowance)) items := by
  unfold formatDict
  dsimp only
  split
  · obtain ⟨parts, h1, h2⟩ := wb_formatItems (indent + 1) (allowance + 1) hK hV
    refine ⟨parts, h1, ?_⟩
    have : ∀ x : Str, '{' :: x ++ str! "}" = str! "{" ++ x ++ str! "}" := by simp
    rw [this, wb_append, wb_append, h2]
    rfl
  · exact wb_reprDict hK hR

end

/-! ## Blanks -/

theorem spaced_append {a b : Str} (ha : Spaced a) (hb : Spaced b) : Spaced (a ++ b) := by
  intro pre c post h hc
  rcases List.append_eq_append_iff.mp h with ⟨u, rfl, hu⟩ | ⟨u, rfl, hu⟩
  · obtain ⟨v, p, rfl, hp⟩ := hb u c post hu hc
    exact ⟨a ++ v, p, by simp, hp⟩
  · cases u with
    | nil =>
      obtain ⟨v, p, hv, -⟩ := hb [] c post (by simpa using hu.symm) hc
      simp at hv
    | cons x u =>
      simp only [List.cons_append, List.cons.injEq] at hu
      obtain ⟨rfl, rfl⟩ := hu
      exact ha pre c u rfl hc

theorem spaced_plain {s : Str} (h : ∀ c ∈ s, Plain c) : Spaced s := by
  rintro pre c post rfl hc
  have := h c (by simp)
  rcases hc with rfl | rfl <;> exact absurd this (by decide)

/-- A delimiter with blanks behind it. -/
theorem spaced_delimiter {p : Char} (hp : p = ',' ∨ p = ':') {s : Str} (hs : ∀ c ∈ s, c = ' ' ∨ c = '\n') : Spaced (p :: s) := by
  intro pre c post h hc
  cases pre with
  | nil =>
    injection h with h1 h2
    subst h1
    rcases hp with rfl | rfl <;> simp at hc
  | cons x pre =>
    simp only [List.cons_append, List.cons.injEq] at h
    obtain ⟨rfl, h2⟩ := h
    rcases List.eq_nil_or_concat pre with rfl | ⟨v, y, rfl⟩
    · exact ⟨[], p, rfl, by rcases hp with rfl | rfl <;> simp⟩
    · refine ⟨p :: v, y, by simp, ?_⟩
      have := hs y (by rw [h2]; simp)
      rcases this with rfl | rfl <;> simp

/-- A bracket. -/
theorem spaced_one {p : Char} (hp : p ≠ ' ' ∧ p ≠ '\n') : Spaced [p] := by
  intro pre c post h hc
  cases pre with
  | nil =>
    injection h with h1 h2
    subst h1
    rcases hc with rfl | rfl <;> simp at hp
  | cons x pre => simp at h

theorem spaced_cons {p : Char} (hp : p ≠ ' ' ∧ p ≠ '\n') {s : Str} (hs : Spaced s) : Spaced (p :: s) := spaced_append (spaced_one hp) hs

theorem spaced_nil : Spaced [] := by rintro pre c post h; simp at h

theorem spaced_joinComma {ps : List Str} (h : ∀ p ∈ ps, Spaced p) : Spaced (joinComma ps) := by
  induction ps using joinComma.induct with
  | case1 => exact spaced_nil
  | case2 p => exact h p (by simp)
  | case3 p q ps ih =>
    exact spaced_append (spaced_append (h p (by simp)) (spaced_delimiter (.inl rfl) (by simp))) (ih fun x hx => h x (List.mem_cons_of_mem _ hx))

theorem spaced_reprKey (k : Key) : Spaced (reprKey k) := by
  match k with
  | [] => exact spaced_cons (by decide) (spaced_one (by decide))
  | [e] =>
    exact spaced_append (spaced_cons (by decide) (spaced_plain (reprEntry_plain e))) (spaced_cons (by decide) (spaced_one (by decide)))
  | e :: f :: k =>
    refine spaced_append (spaced_cons (by decide) (spaced_joinComma ?_)) (spaced_one (by decide))
    intro p hp
    obtain ⟨x, _, rfl⟩ := List.mem_map.mp hp
    exact spaced_plain (reprEntry_plain x)

section
variable {α β : Type} {reprK : α → Str} {reprV : β → Str} {formatV : β → Nat → Nat → Str}

theorem spaced_reprDict {items : List (α × β)} (hK : ∀ k, Spaced (reprK k)) (hV : ∀ v, Spaced (reprV v)) : Spaced (reprDict reprK reprV items) := by
  refine spaced_append (spaced_cons (by decide) (spaced_joinComma ?_)) (spaced_one (by decide))
  intro p hp
  obtain ⟨x, _, rfl⟩ := List.mem_map.mp hp
  exact spaced_append (spaced_append (hK _) (spaced_delimiter (.inr rfl) (by simp))) (hV _)

theorem spaced_formatItems {items : List (α × β)} (indent allowance : Nat) (hK : ∀ k, Spaced (reprK k)) (hV : ∀ v i a, Spaced (formatV v i a)) :
    Spaced (formatItems reprK formatV indent allowance items) := by
  have hc : Spaced (str! ": ") := spaced_delimiter (.inr rfl) (by simp)
  induction items with
  | nil => exact spaced_nil
  | cons e items ih =>
    obtain ⟨k, v⟩ := e
    cases items with
    | nil => exact spaced_append (spaced_append (hK _) hc) (hV _ _ _)
    | cons e' items =>
      rw [formatItems]
      refine spaced_append (spaced_append (spaced_append (spaced_append (hK _) hc) (hV _ _ _)) (spaced_delimiter (.inl rfl) ?_)) ih
      intro c hc
      rw [List.mem_cons] at hc
      exact hc.elim .inr fun h => .inl (List.mem_replicate.mp h).2

theorem spaced_formatDict {items : List (α × β)} (indent allowance : Nat) (hK : ∀ k, Spaced (reprK k)) (hR : ∀ v, Spaced (reprV v))
    (hV : ∀ v i a, Spaced (formatV v i a)) : Spaced (formatDict reprK reprV formatV items indent allowance) := by
  unfold formatDict
  dsimp only
  split
  · exact spaced_append (spaced_cons (by decide) (spaced_formatItems _ _ hK hV)) (spaced_one (by decide))
  · exact spaced_reprDict hK hR

end

theorem pformat_spaced (S : Sorting) (table : List (WordType × Dict Key Nat)) : Spaced (pformat S table) := by
  have hn : ∀ n : Nat, Spaced (pyStr (n : Int)) := fun n => by rw [pyStr_nat]; exact spaced_plain (natDigits_plain n).2
  exact spaced_formatDict _ _ (fun t => spaced_plain (repr_plain _)) (fun _ => spaced_reprDict spaced_reprKey hn)
    fun _ i a => spaced_formatDict i a spaced_reprKey hn fun n _ _ => hn n

/-- The items as they are printed. -/
def printedItems (S : Sorting) (table : List (WordType × Dict Key Nat)) : List (WordType × List (Key × Nat)) :=
  (S.outer table).map fun e => (e.1, S.inner e.2)

theorem dictText_map {α β γ : Type} {K : Str → α → Prop} {V : Str → β → Prop} {f : γ → β} {s : Str} {items : List (α × γ)}
    (h : DictText K (fun s e => V s (f e)) s items) : DictText K V s (items.map fun e => (e.1, f e.2)) := by
  obtain ⟨parts, h1, h2⟩ := h
  exact ⟨parts, List.forall₂_map_right_iff.mpr h1, h2⟩

theorem pformat_displays (S : Sorting) (table : List (WordType × Dict Key Nat)) : Displays (pformat S table) (printedItems S table) := by
  refine ⟨pformat_spaced S table, ?_⟩
  unfold TableText pformat printedItems
  have hn : ∀ n : Nat, withoutBlanks (pyStr (n : Int)) = pyStr (n : Int) := fun n => by rw [pyStr_nat]; exact wb_plain (natDigits_plain n).2
  apply dictText_map
  apply wb_formatDict
  · intro e _
    rw [namedRecord_iff]
    exact wb_plain (repr_plain _)
  · intro e _
    exact wb_reprDict (fun e _ => wb_reprKey e.1) (fun e _ => hn e.2)
  · intro e _ i a
    exact wb_formatDict i a (fun e _ => wb_reprKey e.1) (fun e _ => hn e.2) (fun e _ _ _ => hn e.2)

/-! ## The current table -/

theorem dictOf_nodup {α β : Type} [DecidableEq α] {l : List (α × β)} (h : (Dict.keys l).Nodup) : dictOf l = l := by
  unfold dictOf
  have : ∀ (l d : Dict α β), (Dict.keys (d ++ l)).Nodup → l.foldl (fun d e => d.set e.1 e.2) d = d ++ l := by
    intro l
    induction l with
    | nil => simp
    | cons e l ih =>
      intro d hd
      have hs : ∀ d : Dict α β, e.1 ∉ Dict.keys d → d.set e.1 e.2 = d ++ [e] := by
        intro d
        induction d with
        | nil => intro _; rfl
        | cons x d ih2 =>
          intro hx
          simp only [Dict.keys, List.map_cons, List.mem_cons, not_or] at hx
          rw [Dict.set, if_neg (Ne.symm hx.1), ih2 hx.2]
          rfl
      rw [List.foldl_cons, hs d, ih (d ++ [e]) (by simpa using hd)]
      · simp
      · simp only [Dict.keys, List.map_append, List.map_cons, List.nodup_append] at hd
        intro hm
        exact hd.2.2 e.1 hm e.1 (by simp) rfl
  simpa using this l [] (by simpa using h)

theorem wordsCache_keys_nodup (t : WordType) : (wordsCache t).keys.Nodup := by cases t <;> decide +kernel

theorem WORDS_CACHES_nodup : (Dict.keys WORDS_CACHES).Nodup := by
  have : Dict.keys WORDS_CACHES = WordType.all := by
    unfold Dict.keys WORDS_CACHES
    rw [List.map_map]
    simp [Function.comp_def]
  rw [this]
  decide

theorem mem_WORDS_CACHES (t : WordType) : (t, wordsCache t) ∈ WORDS_CACHES := by
  unfold WORDS_CACHES
  exact List.mem_map_of_mem (f := fun t => (t, wordsCache t)) (by cases t <;> decide)

/-- `pprint` prints each item of a dictionary once. -/
def Sorting.Sound (S : Sorting) : Prop := (∀ l, (S.outer l).Perm l) ∧ ∀ d, (S.inner d).Perm d

theorem keys_perm {α β : Type} {d e : Dict α β} (h : d.Perm e) : d.keys.Perm e.keys := h.map _

theorem pasted_printed {S : Sorting} (hS : S.Sound) (t : WordType) : (pasted (printedItems S WORDS_CACHES) t).Perm (wordsCache t) := by
  have hk : Dict.keys (printedItems S WORDS_CACHES) = Dict.keys (S.outer WORDS_CACHES) := by
    unfold Dict.keys printedItems
    rw [List.map_map]; rfl
  have hn : (Dict.keys (printedItems S WORDS_CACHES)).Nodup := by
    rw [hk]
    exact (keys_perm (hS.1 _)).nodup_iff.mpr WORDS_CACHES_nodup
  have hm : (t, S.inner (wordsCache t)) ∈ printedItems S WORDS_CACHES :=
    List.mem_map.mpr ⟨(t, wordsCache t), (hS.1 _).mem_iff.mpr (mem_WORDS_CACHES t), rfl⟩
  unfold pasted
  rw [dictOf_nodup hn, Dict.get?_of_mem hn hm, Option.getD_some,
    dictOf_nodup ((keys_perm (hS.2 _)).nodup_iff.mpr (wordsCache_keys_nodup t))]
  exact hS.2 _

/-- C123: what `pretty_format_current_keys_cache` prints is a Python expression. -/
theorem C123_expression (S : Sorting) : ∃ items, Displays (prettyFormatCurrentKeysCache S) items := ⟨_, pformat_displays S WORDS_CACHES⟩

/-- C123: pasted into a migration it is the current table: the same slot for every key of every type, and nothing else. -/
theorem C123_same_table (S : Sorting) (hS : S.Sound) (items : List (WordType × List (Key × Nat)))
    (h : Displays (prettyFormatCurrentKeysCache S) items) (t : WordType) :
    Dict.beq (pasted items t) (wordsCache t) = true ∧ ∀ k, (pasted items t).get? k = (wordsCache t).get? k := by
  have : items = printedItems S WORDS_CACHES := C123_unique _ _ _ h (pformat_displays S WORDS_CACHES)
  subst this
  have hp := pasted_printed hS t
  have hn := (keys_perm hp).nodup_iff.mpr (wordsCache_keys_nodup t)
  have hg : ∀ k, (pasted (printedItems S WORDS_CACHES) t).get? k = (wordsCache t).get? k := by
    intro k
    cases hk : (wordsCache t).get? k with
    | none =>
      rw [Dict.get?_eq_none] at hk ⊢
      exact fun hm => hk ((keys_perm hp).mem_iff.mp hm)
    | some v => exact Dict.get?_of_mem hn (hp.mem_iff.mpr (Dict.mem_of_get? hk))
  exact ⟨(Dict.beq_iff hn (wordsCache_keys_nodup t)).mpr hg, hg⟩

theorem wordsCache_schema : ∀ t : WordType, ∀ e ∈ wordsCache t, e.1.length = t.schema.length := by intro t; cases t <;> decide +kernel

theorem wordsCache_slotCount (t : WordType) : (wordsCache t).length = slotCount t := by cases t <;> decide +kernel

/-- C123: a migration with printed tables as old and as new table leaves the saved words as they are. -/
theorem C123_unchanged (S S' : Sorting) (hS : S.Sound) (hS' : S'.Sound) (items items' : List (WordType × List (Key × Nat)))
    (h : Displays (prettyFormatCurrentKeysCache S) items) (h' : Displays (prettyFormatCurrentKeysCache S') items') (t : WordType) (d : WordData)
    (ht : d.type = (t.value : Int)) (hf : d.forms.length = slotCount t) : migrateWith (pasted items) (pasted items') d = .ok d := by
  have e1 : items = printedItems S WORDS_CACHES := C123_unique _ _ _ h (pformat_displays S WORDS_CACHES)
  have e2 : items' = printedItems S' WORDS_CACHES := C123_unique _ _ _ h' (pformat_displays S' WORDS_CACHES)
  have hp : (pasted items t).Perm (wordsCache t) := e1 ▸ pasted_printed hS t
  have hp' : (pasted items' t).Perm (wordsCache t) := e2 ▸ pasted_printed hS' t
  have hlen : (wordsCache t).length = d.forms.length := by rw [wordsCache_slotCount, hf]
  have hval : ∀ e ∈ wordsCache t, e.2 < d.forms.length := by
    intro e he
    have : e.2 ∈ List.range (wordsCache t).length := (wordsCache_values t).mem_iff.mp (List.mem_map_of_mem he)
    rw [← hlen]
    simpa using this
  have hperm' : ((pasted items' t).map Prod.snd).Perm (List.range (pasted items' t).length) := by
    rw [hp'.length_eq]
    exact (hp'.map _).trans (wordsCache_values t)
  obtain ⟨forms', r1, r2, r3⟩ := C110_any_tables (pasted items t) (pasted items' t) d.forms
    (by intro hn; rw [hn] at hp; have := hp.length_eq; rw [wordsCache_slotCount] at this; revert this; cases t <;> decide)
    ((keys_perm hp).nodup_iff.mpr (wordsCache_keys_nodup t)) (fun e he => hval e (hp.mem_iff.mp he)) hperm'
    (fun e he => wordsCache_key_length t e (hp'.mem_iff.mp he))
  have : forms' = d.forms := by
    apply List.ext_getElem?
    intro i
    by_cases hi : i < d.forms.length
    · have hm : i ∈ (pasted items' t).map Prod.snd := hperm'.mem_iff.mpr (by rw [hp'.length_eq, hlen]; simpa using hi)
      obtain ⟨e, he, rfl⟩ := List.mem_map.mp hm
      obtain ⟨o, ho, a1, -, a3⟩ := r3 e he
      have he' := hp'.mem_iff.mp he
      have := a3 (fun o' ho' => by rw [wordsCache_schema t _ (hp.mem_iff.mp ho'), wordsCache_schema t _ he']) e (hp.mem_iff.mpr he') rfl
      rw [a1, ← this]
    · rw [List.getElem?_eq_none (by rw [r2, hp'.length_eq, hlen]; omega), List.getElem?_eq_none (by omega)]
  unfold migrateWith
  rw [ht, wordTypeOfValue_value]
  simp only [r1, bind, Except.bind, this]
  rw [← ht]

/-- C123: the last table that was pasted, the new table of m_0009, is the current one. -/
theorem C123_last_table (t : WordType) : Dict.beq (M0009.newCaches t) (wordsCache t) = true := by cases t <;> decide +kernel

/-! ## Concrete cases -/

/-- Printing in the order of the table. -/
def exSorting : Sorting := ⟨id, id⟩

example : exSorting.Sound := ⟨fun _ => .refl _, fun _ => .refl _⟩

/-- A short table on one line, a longer one on several. -/
example : pformat exSorting [(.TEXT, wordsCache .TEXT)] = str! "{WORD_TYPE.TEXT: {(): 0}}" ∧
    pformat exSorting [(.INTEGER, wordsCache .INTEGER), (.PREPOSITION, wordsCache .PREPOSITION)] =
      str! "{WORD_TYPE.INTEGER: {(): 0},\n WORD_TYPE.PREPOSITION: {(PREPOSITION_FORM.NORMAL,): 0,\n                         (PREPOSITION_FORM.ALTERNATIVE,): 1,\n                         (PREPOSITION_FORM.SPECIAL,): 2}}" := by
  decide +kernel

/-- A word the migration is applied to. -/
example : (Word.mk .PREPOSITION [str! "в", str! "во", str! "во"] (.new [])).serialize.type = (WordType.PREPOSITION.value : Int) ∧
    (Word.mk .PREPOSITION [str! "в", str! "во", str! "во"] (.new [])).serialize.forms.length = slotCount .PREPOSITION := by decide +kernel

end Utg
