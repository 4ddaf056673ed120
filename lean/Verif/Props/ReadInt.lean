import Verif.Spec.ReadInt
import Verif.Props.AnyJson
import Mathlib.Data.Nat.Digits.Defs
/-! # Property C145: texts that are read as integers -/

namespace Utg
open Py Spec

theorem ofDecimal_foldl (values : List Nat) : ∀ acc, values.foldl (fun a d => a * 10 + d) acc = acc * 10 ^ values.length + ofDecimal values := by
  induction values with
  | nil => intro acc; simp [ofDecimal]
  | cons d ds ih =>
    intro acc
    rw [List.foldl_cons, ih]
    have : ofDecimal (d :: ds) = d * 10 ^ ds.length + ofDecimal ds := by
      unfold ofDecimal
      rw [List.reverse_cons, Nat.ofDigits_append]
      simp only [Nat.ofDigits_singleton, List.length_reverse]
      ring
    rw [this, List.length_cons, pow_succ]
    ring

theorem decimalValue_underscore : decimalValue '_' = none := by decide

theorem decimalValue_range {c : Char} {d : Nat} (h : decimalValue c = some d) :
    ∃ z ∈ decimalZeros, z ≤ c.toNat ∧ c.toNat ≤ z + 9 := by
  unfold decimalValue at h
  cases hf : decimalZeros.find? (fun zero => decide (zero ≤ c.toNat) && decide (c.toNat ≤ zero + 9)) with
  | none => rw [hf] at h; cases h
  | some z =>
    have h1 := List.find?_some hf
    simp only [Bool.and_eq_true, decide_eq_true_eq] at h1
    exact ⟨z, List.mem_of_find?_eq_some hf, h1.1, h1.2⟩

theorem decimal_notBlank {c : Char} {d : Nat} (h : decimalValue c = some d) : isIntBlank c = false := by
  obtain ⟨z, hz, h1, h2⟩ := decimalValue_range h
  have key : ∀ z ∈ decimalZeros, ∀ b ∈ [0x9, 0xa, 0xb, 0xc, 0xd, 0x20, 0x85, 0xa0, 0x1680, 0x2000, 0x2001, 0x2002, 0x2003, 0x2004, 0x2005, 0x2006,
      0x2007, 0x2008, 0x2009, 0x200a, 0x2028, 0x2029, 0x202f, 0x205f, 0x3000], ¬ (z ≤ b ∧ b ≤ z + 9) := by decide
  unfold isIntBlank
  rw [List.contains_eq_mem, decide_eq_false_iff_not]
  intro hm
  exact key z hz _ hm ⟨h1, h2⟩

theorem decimal_notSign {c : Char} {d : Nat} (h : decimalValue c = some d) : c ≠ '-' ∧ c ≠ '+' ∧ c ≠ '_' := by
  have h1 : decimalValue '-' = none := by decide
  have h2 : decimalValue '+' = none := by decide
  refine ⟨?_, ?_, ?_⟩ <;> rintro rfl <;> simp_all [decimalValue_underscore]

theorem digitsToNat_cons (b : Bool) (acc : Nat) {c : Char} {d : Nat} (h : decimalValue c = some d) (cs : Str) :
    digitsToNat b acc (c :: cs) = digitsToNat true (acc * 10 + d) cs := by
  have := (decimal_notSign h).2.2
  cases b <;> simp only [digitsToNat, this, if_false, h]

theorem digitsToNat_group {group : Str} {values : List Nat} (h : List.Forall₂ (fun c d => decimalValue c = some d) group values) :
    ∀ (b : Bool) (acc : Nat) (rest : Str), (group ≠ [] ∨ b = true) →
      digitsToNat b acc (group ++ rest) = digitsToNat true (values.foldl (fun a d => a * 10 + d) acc) rest := by
  induction h with
  | nil => intro b acc rest hb; rcases hb with h | h
           · exact absurd rfl h
           · rw [h]; rfl
  | cons hh _ ih =>
    intro b acc rest _
    rw [List.cons_append, digitsToNat_cons b acc hh, ih true _ rest (.inr rfl)]; rfl

theorem digitsToNat_groups {groups : List Str} {values : List (List Nat)} (h : List.Forall₂ IsGroup groups values) (hne : groups ≠ []) :
    ∀ acc, digitsToNat false acc (['_'].intercalate groups) = some (values.flatten.foldl (fun a d => a * 10 + d) acc) := by
  induction h with
  | nil => exact absurd rfl hne
  | @cons g v gs vs hg hgs ih =>
    intro acc
    cases gs with
    | nil =>
      cases hgs
      have : ['_'].intercalate [g] = g ++ [] := by simp [List.intercalate]
      rw [this, digitsToNat_group hg.2 false acc [] (.inl hg.1)]
      simp [digitsToNat]
    | cons g' gs' =>
      have : ['_'].intercalate (g :: g' :: gs') = g ++ ('_' :: ['_'].intercalate (g' :: gs')) := by
        simp [List.intercalate, List.intersperse]
      rw [this, digitsToNat_group hg.2 false acc _ (.inl hg.1)]
      show (if '_' = '_' then (if true then digitsToNat false _ (['_'].intercalate (g' :: gs')) else none) else _) = _
      rw [if_pos rfl, if_pos rfl, ih (by simp)]
      rw [List.flatten_cons, List.foldl_append]

/-- What `digitsToNat` accepts, after a digit or at the beginning. -/
theorem digitsToNat_some (cs : Str) : ∀ (b : Bool) (acc m : Nat), digitsToNat b acc cs = some m →
    ∃ (g : Str) (v : List Nat) (gs : List Str) (vs : List (List Nat)), cs = ['_'].intercalate (g :: gs) ∧
      List.Forall₂ (fun c d => decimalValue c = some d) g v ∧ List.Forall₂ IsGroup gs vs ∧ (b = false → g ≠ []) ∧
      m = (v ++ vs.flatten).foldl (fun a d => a * 10 + d) acc := by
  induction cs with
  | nil =>
    intro b acc m h
    cases b with
    | false => cases h
    | true => cases h; exact ⟨[], [], [], [], rfl, .nil, .nil, fun e => (by cases e), rfl⟩
  | cons c cs ih =>
    intro b acc m h
    by_cases hc : c = '_'
    · subst hc
      cases b with
      | false => simp only [digitsToNat, if_true] at h; cases h
      | true =>
        simp only [digitsToNat, if_true] at h
        obtain ⟨g, v, gs, vs, h1, h2, h3, h4, h5⟩ := ih false acc m h
        refine ⟨[], [], g :: gs, v :: vs, ?_, .nil, .cons ⟨h4 rfl, h2⟩ h3, fun e => (by cases e), ?_⟩
        · rw [h1]; simp [List.intercalate, List.intersperse]
        · rw [h5]; simp
    · cases hd : decimalValue c with
      | none => cases b <;> simp only [digitsToNat, hc, if_false, hd] at h <;> cases h
      | some d =>
        rw [digitsToNat_cons b acc hd] at h
        obtain ⟨g, v, gs, vs, h1, h2, h3, _, h5⟩ := ih true _ m h
        refine ⟨c :: g, d :: v, gs, vs, ?_, .cons hd h2, h3, fun _ => by simp, ?_⟩
        · rw [h1]
          cases gs <;> simp [List.intercalate, List.intersperse]
        · rw [h5]; rfl

theorem digitsToNat_iff (cs : Str) (m : Nat) : digitsToNat false 0 cs = some m ↔
    ∃ groups values, cs = ['_'].intercalate groups ∧ groups ≠ [] ∧ List.Forall₂ IsGroup groups values ∧ m = ofDecimal values.flatten := by
  constructor
  · intro h
    obtain ⟨g, v, gs, vs, h1, h2, h3, h4, h5⟩ := digitsToNat_some cs false 0 m h
    refine ⟨g :: gs, v :: vs, h1, by simp, .cons ⟨h4 rfl, h2⟩ h3, ?_⟩
    rw [h5, ofDecimal_foldl]; simp
  · rintro ⟨groups, values, rfl, hne, hg, rfl⟩
    rw [digitsToNat_groups hg hne 0, ofDecimal_foldl]; simp

/-- The first and the last character of digits. -/
theorem digits_ends {cs : Str} {m : Nat} (h : digitsToNat false 0 cs = some m) :
    (∃ c cs', cs = c :: cs' ∧ ∃ d, decimalValue c = some d) ∧ ∃ c cs', cs = cs' ++ [c] ∧ ∃ d, decimalValue c = some d := by
  have hfirst : ∃ c cs', cs = c :: cs' ∧ ∃ d, decimalValue c = some d := by
    cases cs with
    | nil => cases h
    | cons c cs =>
      refine ⟨c, cs, rfl, ?_⟩
      by_cases hc : c = '_'
      · subst hc; simp only [digitsToNat, if_true] at h; cases h
      · cases hd : decimalValue c with
        | none => simp only [digitsToNat, hc, if_false, hd] at h; cases h
        | some d => exact ⟨d, rfl⟩
  refine ⟨hfirst, ?_⟩
  have key : ∀ (cs : Str) (b : Bool) (acc m : Nat), digitsToNat b acc cs = some m → cs ≠ [] →
      ∃ c cs', cs = cs' ++ [c] ∧ ∃ d, decimalValue c = some d := by
    intro cs
    induction cs with
    | nil => intro _ _ _ _ h; exact absurd rfl h
    | cons c cs ih =>
      intro b acc m h _
      by_cases hc : c = '_'
      · subst hc
        cases b with
        | false => simp only [digitsToNat, if_true] at h; cases h
        | true =>
          simp only [digitsToNat, if_true] at h
          obtain ⟨c', cs', e, hd⟩ := ih false acc m h (by rintro rfl; cases h)
          exact ⟨c', '_' :: cs', by rw [e]; rfl, hd⟩
      · cases hd : decimalValue c with
        | none => cases b <;> simp only [digitsToNat, hc, if_false, hd] at h <;> cases h
        | some d =>
          rw [digitsToNat_cons b acc hd] at h
          by_cases he : cs = []
          · exact ⟨c, [], by rw [he]; rfl, d, hd⟩
          · obtain ⟨c', cs', e, hd'⟩ := ih true _ m h he
            exact ⟨c', c :: cs', by rw [e]; rfl, hd'⟩
  obtain ⟨c, cs', e, _⟩ := hfirst
  exact key cs false 0 m h (by rw [e]; simp)

theorem signedDigits_some {cs : Str} {n : Int} (h : signedDigits cs = some n) :
    ∃ sign body m, cs = sign ++ body ∧ digitsToNat false 0 body = some m ∧
      (sign = [] ∧ n = m ∨ sign = ['+'] ∧ n = m ∨ sign = ['-'] ∧ n = -(m : Int)) := by
  unfold signedDigits at h
  split at h
  · obtain ⟨m, hm, rfl⟩ := Option.map_eq_some_iff.mp h
    exact ⟨['-'], _, m, rfl, hm, .inr (.inr ⟨rfl, rfl⟩)⟩
  · obtain ⟨m, hm, rfl⟩ := Option.map_eq_some_iff.mp h
    exact ⟨['+'], _, m, rfl, hm, .inr (.inl ⟨rfl, rfl⟩)⟩
  · obtain ⟨m, hm, rfl⟩ := Option.map_eq_some_iff.mp h
    exact ⟨[], _, m, rfl, hm, .inl ⟨rfl, rfl⟩⟩

theorem blank_of_takeWhile {s : Str} {c : Char} (h : c ∈ s.takeWhile isIntBlank) : isIntBlank c = true := by
  induction s with
  | nil => cases h
  | cons x xs ih =>
    rw [List.takeWhile_cons] at h
    split at h
    · rename_i hx
      rcases List.mem_cons.mp h with rfl | h
      · exact hx
      · exact ih h
    · cases h

theorem intStrip_split (s : Str) : ∃ before after, s = before ++ intStrip s ++ after ∧ ∀ c ∈ before ++ after, isIntBlank c = true := by
  refine ⟨s.takeWhile isIntBlank, ((s.dropWhile isIntBlank).reverse.takeWhile isIntBlank).reverse, ?_, ?_⟩
  · unfold intStrip
    rw [List.append_assoc, ← List.reverse_append, List.takeWhile_append_dropWhile, List.reverse_reverse, List.takeWhile_append_dropWhile]
  · intro c hc
    rcases List.mem_append.mp hc with h | h
    · exact blank_of_takeWhile h
    · exact blank_of_takeWhile (List.mem_reverse.mp h)

theorem dropWhile_blanks {before : Str} (h : ∀ c ∈ before, isIntBlank c = true) {c : Char} (hc : isIntBlank c = false) (rest : Str) :
    (before ++ c :: rest).dropWhile isIntBlank = c :: rest := by
  induction before with
  | nil => rw [List.nil_append, List.dropWhile_cons, hc]; rfl
  | cons b bs ih =>
    rw [List.cons_append, List.dropWhile_cons, h b (by simp)]
    exact ih fun x hx => h x (List.mem_cons_of_mem _ hx)

theorem intStrip_core {before core after : Str} (h1 : ∀ c ∈ before, isIntBlank c = true) (h2 : ∀ c ∈ after, isIntBlank c = true)
    (hf : ∃ c cs, core = c :: cs ∧ isIntBlank c = false) (hl : ∃ c cs, core = cs ++ [c] ∧ isIntBlank c = false) :
    intStrip (before ++ core ++ after) = core := by
  obtain ⟨c, cs, e, hc⟩ := hf
  obtain ⟨c', cs', e', hc'⟩ := hl
  unfold intStrip
  have : (before ++ core ++ after).dropWhile isIntBlank = core ++ after := by
    rw [e, List.append_assoc, List.cons_append, dropWhile_blanks h1 hc]
  rw [this, e', List.reverse_append, List.reverse_append, List.reverse_cons, List.reverse_nil, List.nil_append, List.singleton_append,
    dropWhile_blanks (fun x hx => h2 x (List.mem_reverse.mp hx)) hc']
  simp

/-- C145: `int(text)` is `n` exactly if the text writes `n`. -/
theorem C145_reads (s : Str) (n : Int) : pyInt s = .ok n ↔ Writes s n := by
  constructor
  · intro h
    unfold pyInt at h
    cases hs : signedDigits (intStrip s) with
    | none => rw [hs] at h; cases h
    | some k =>
      rw [hs] at h; cases h
      obtain ⟨sign, body, m, e, hm, hn⟩ := signedDigits_some hs
      obtain ⟨groups, values, rfl, hne, hg, rfl⟩ := (digitsToNat_iff body m).mp hm
      obtain ⟨before, after, es, hb⟩ := intStrip_split s
      exact ⟨before, after, sign, groups, values, by rw [es, e]; simp only [List.append_assoc], hb, hne, hg, hn⟩
  · rintro ⟨before, after, sign, groups, values, rfl, hb, hne, hg, hn⟩
    have hm := (digitsToNat_iff _ _).mpr ⟨groups, values, rfl, hne, hg, rfl⟩
    generalize ['_'].intercalate groups = body at hm
    generalize ofDecimal values.flatten = m at hm hn
    obtain ⟨⟨c, cs, e, d, hd⟩, c', cs', e', d', hd'⟩ := digits_ends hm
    have hb1 : ∀ c ∈ before, isIntBlank c = true := fun c hc => hb c (List.mem_append_left _ hc)
    have hb2 : ∀ c ∈ after, isIntBlank c = true := fun c hc => hb c (List.mem_append_right _ hc)
    have hstrip : intStrip (before ++ sign ++ body ++ after) = sign ++ body := by
      rw [List.append_assoc before]
      refine intStrip_core hb1 hb2 ?_ ⟨c', sign ++ cs', by rw [e', List.append_assoc], decimal_notBlank hd'⟩
      rcases hn with ⟨rfl, _⟩ | ⟨rfl, _⟩ | ⟨rfl, _⟩
      · exact ⟨c, cs, e, decimal_notBlank hd⟩
      · exact ⟨'+', body, rfl, by decide⟩
      · exact ⟨'-', body, rfl, by decide⟩
    have hsigned : signedDigits (sign ++ body) = some n := by
      rcases hn with ⟨rfl, rfl⟩ | ⟨rfl, rfl⟩ | ⟨rfl, rfl⟩
      · obtain ⟨h1, h2, _⟩ := decimal_notSign hd
        rw [List.nil_append]
        rw [e] at hm ⊢
        unfold signedDigits
        split
        · simp_all
        · simp_all
        · rw [hm]; rfl
      · show (digitsToNat false 0 body).map _ = _
        rw [hm]; rfl
      · show (digitsToNat false 0 body).map _ = _
        rw [hm]; rfl
    unfold pyInt
    rw [hstrip, hsigned]

/-- C145: otherwise it raises ValueError. -/
theorem C145_unread (s : Str) : pyInt s = .error .ValueError ↔ ∀ n, ¬ Writes s n := by
  constructor
  · intro h n hn
    rw [(C145_reads s n).mpr hn] at h; cases h
  · intro h
    cases hs : pyInt s with
    | ok n => exact absurd ((C145_reads s n).mp hs) (h n)
    | error e =>
      unfold pyInt at hs
      split at hs
      · cases hs
      · exact hs.symm

/-- C145: a text writes at most one integer. -/
theorem C145_unique (s : Str) (m n : Int) (hm : Writes s m) (hn : Writes s n) : m = n := by
  have h := (C145_reads s m).mpr hm
  rw [(C145_reads s n).mpr hn] at h
  injection h with h; exact h.symm

/-- C145: properties can be loaded exactly if every key that is a text writes an integer. -/
theorem C145_loadable (d : Dict JKey Int) :
    (∃ p, Properties.deserialize d = .ok p) ↔ ∀ s v, (JKey.str s, v) ∈ d → ∃ n, Writes s n := by
  constructor
  · rintro ⟨p, hp⟩ s v hm
    by_contra hno
    have hs : pyInt s = .error .ValueError := (C145_unread s).mpr fun n hn => hno ⟨n, hn⟩
    unfold Properties.deserialize at hp
    cases hmm : d.mapM deserializeItem with
    | error e => rw [hmm] at hp; cases hp
    | ok os =>
      obtain ⟨o, ho⟩ := mapM_ok_mem hmm _ hm
      simp only [deserializeItem, JKey.toInt, hs] at ho
      cases ho
  · intro h
    obtain ⟨p, hp, _⟩ := C14_deserialize_known d fun kv hkv => by
      obtain ⟨k, v⟩ := kv
      cases k with
      | int n => exact ⟨n, rfl⟩
      | str s =>
        obtain ⟨n, hn⟩ := h s v hkv
        exact ⟨n, (C145_reads s n).mpr hn⟩
    exact ⟨p, hp⟩

/-- C145: a key in any writing of the code of a property is read as that property. -/
theorem C145_key (s : Str) (r : Rec) (h : Writes s r.group.code) :
    Properties.deserialize [(.str s, (r.value : Int))] = Properties.deserialize [(.int r.group.code, (r.value : Int))] := by
  have hs := (C145_reads _ _).mpr h
  unfold Properties.deserialize
  simp only [List.mapM_cons, deserializeItem, JKey.toInt, hs]

/-- ` -1_0٣` with an Arabic digit is minus hundred and three. -/
example : Writes (str! " -1_0٣\n") (-103) :=
  ⟨[' '], ['\n'], ['-'], [['1'], ['0', '٣']], [[1], [0, 3]], rfl, by decide, by simp,
    .cons ⟨by simp, .cons (by decide) .nil⟩ (.cons ⟨by simp, .cons (by decide) (.cons (by decide) .nil)⟩ .nil), .inr (.inr ⟨rfl, rfl⟩)⟩
example : ∀ n, ¬ Writes (str! "1__0") n := (C145_unread _).mp (by decide)
example : ∀ n, ¬ Writes (str! "- 5") n := (C145_unread _).mp (by decide)

end Utg
