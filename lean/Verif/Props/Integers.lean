import Verif.Spec.Integers
import Verif.Props.Words
import Verif.Proofs.WordForms
import Verif.Proofs.Str
/-! # Properties C35-C37: integers -/

namespace Utg
open Py Spec

/-- The object `_construct_integer(n)` builds. -/
def integerForm (n : Int) : WordForm := WordForm.new ⟨.INTEGER, [pyStr n], (classifyInteger n.natAbs).properties⟩

theorem constructIntegerFresh_eq (n : Int) : constructIntegerFresh n = .ok (integerForm n) := by
  unfold constructIntegerFresh
  have : Word.new .INTEGER [pyStr n] (classifyInteger n.natAbs).properties =
      .ok ⟨.INTEGER, [pyStr n], (classifyInteger n.natAbs).properties⟩ := (C08_constructor _ _ _).1 rfl
  simp only [this]; rfl

/-! ## Last digits -/

theorem natDigits_lt {m : Nat} (h : m < 10) : natDigits m = [Char.ofNat ('0'.toNat + m)] := by rw [natDigits, if_pos h]
theorem natDigits_ge {m : Nat} (h : ¬ m < 10) : natDigits m = natDigits (m / 10) ++ [Char.ofNat ('0'.toNat + m % 10)] := by
  rw [natDigits, if_neg h]

theorem digit_inj {a b : Nat} (ha : a < 10) (hb : b < 10) (h : Char.ofNat ('0'.toNat + a) = Char.ofNat ('0'.toNat + b)) :
    a = b := by
  have h1 := (digit_toNat ha).2
  have h2 := (digit_toNat hb).2
  rw [h] at h1; omega

theorem natDigits_last (m d : Nat) (hd : d < 10) : [Char.ofNat ('0'.toNat + d)] <:+ natDigits m ↔ m % 10 = d := by
  by_cases h : m < 10
  · rw [natDigits_lt h]
    constructor
    · rintro ⟨t, ht⟩
      have h1 := (List.append_inj' (s₂ := []) (t₂ := [Char.ofNat ('0'.toNat + m)]) ht rfl).2
      injection h1 with h1 _
      have := digit_inj hd h h1
      omega
    · intro e; have : m = d := by omega
      subst this; exact List.suffix_refl _
  · rw [natDigits_ge h]
    constructor
    · rintro ⟨t, ht⟩
      have h1 := (List.append_inj' ht rfl).2
      injection h1 with h1 _
      have := digit_inj hd (show m % 10 < 10 by omega) h1
      omega
    · intro e; subst e; exact List.suffix_append _ _

theorem natDigits_last2 (m a b : Nat) (ha : 0 < a) (ha' : a < 10) (hb : b < 10) :
    [Char.ofNat ('0'.toNat + a), Char.ofNat ('0'.toNat + b)] <:+ natDigits m ↔ m % 100 = 10 * a + b := by
  by_cases h : m < 10
  · rw [natDigits_lt h]
    constructor
    · intro hs; have := hs.length_le; simp at this
    · intro e; omega
  · rw [natDigits_ge h]
    have key : [Char.ofNat ('0'.toNat + a), Char.ofNat ('0'.toNat + b)] <:+
        natDigits (m / 10) ++ [Char.ofNat ('0'.toNat + m % 10)] ↔
        [Char.ofNat ('0'.toNat + a)] <:+ natDigits (m / 10) ∧ b = m % 10 := by
      constructor
      · rintro ⟨t, ht⟩
        have ht' : (t ++ [Char.ofNat ('0'.toNat + a)]) ++ [Char.ofNat ('0'.toNat + b)] =
            natDigits (m / 10) ++ [Char.ofNat ('0'.toNat + m % 10)] := by rw [← ht]; simp
        obtain ⟨h1, h2⟩ := List.append_inj' ht' rfl
        injection h2 with h2 _
        exact ⟨⟨t, h1⟩, digit_inj hb (show m % 10 < 10 by omega) h2⟩
      · rintro ⟨⟨t, ht⟩, rfl⟩
        exact ⟨t, by rw [← ht]; simp⟩
    rw [key, natDigits_last _ _ ha']; omega

theorem suffix_pyStr (n : Int) {x : Char} {xs : Str} (hx : x.isDigit = true) :
    x :: xs <:+ pyStr n ↔ x :: xs <:+ natDigits n.natAbs := by
  unfold pyStr
  split
  · rw [List.suffix_cons_iff]
    constructor
    · rintro (h | h)
      · injection h with h _; subst h; simp at hx
      · exact h
    · exact Or.inr
  · exact Iff.rfl

theorem endsIn1 (n : Int) (d : Nat) (hd : d < 10) : [Char.ofNat ('0'.toNat + d)] <:+ pyStr n ↔ n.natAbs % 10 = d := by
  rw [suffix_pyStr n (digit_toNat hd).1, natDigits_last _ _ hd]

theorem endsIn2 (n : Int) (a b : Nat) (ha : 0 < a) (ha' : a < 10) (hb : b < 10) :
    [Char.ofNat ('0'.toNat + a), Char.ofNat ('0'.toNat + b)] <:+ pyStr n ↔ n.natAbs % 100 = 10 * a + b := by
  rw [suffix_pyStr n (digit_toNat ha').1, natDigits_last2 _ _ _ ha ha' hb]

theorem agreementClass_eq (n : Int) : agreementClass n =
    if n.natAbs = 10 ^ 6 ∨ n.natAbs = 10 ^ 9 then .INTEGER_FORM_MIL_BIL
    else if n.natAbs % 10 = 1 ∧ ¬ n.natAbs % 100 = 11 then .INTEGER_FORM_SINGULAR
    else if n.natAbs = 2 ∨ n.natAbs = 3 ∨ n.natAbs = 4 then .INTEGER_FORM_DUAL
    else if (n.natAbs % 10 = 2 ∧ ¬ n.natAbs % 100 = 12) ∨ (n.natAbs % 10 = 3 ∧ ¬ n.natAbs % 100 = 13) ∨
        (n.natAbs % 10 = 4 ∧ ¬ n.natAbs % 100 = 14) then .INTEGER_FORM_COMPOSITE_DUAL
    else .INTEGER_FORM_PLURAL := by
  have e1 : EndsIn n (str! "1") ↔ _ := endsIn1 n 1 (by omega)
  have e2 : EndsIn n (str! "2") ↔ _ := endsIn1 n 2 (by omega)
  have e3 : EndsIn n (str! "3") ↔ _ := endsIn1 n 3 (by omega)
  have e4 : EndsIn n (str! "4") ↔ _ := endsIn1 n 4 (by omega)
  have e11 : EndsIn n (str! "11") ↔ _ := endsIn2 n 1 1 (by omega) (by omega) (by omega)
  have e12 : EndsIn n (str! "12") ↔ _ := endsIn2 n 1 2 (by omega) (by omega) (by omega)
  have e13 : EndsIn n (str! "13") ↔ _ := endsIn2 n 1 3 (by omega) (by omega) (by omega)
  have e14 : EndsIn n (str! "14") ↔ _ := endsIn2 n 1 4 (by omega) (by omega) (by omega)
  unfold agreementClass
  simp only [e1, e2, e3, e4, e11, e12, e13, e14]

theorem classify_properties (n : Int) : (classifyInteger n.natAbs).properties =
    .new [.record (grammaticalNumber n), .record (agreementClass n)] := by
  rw [agreementClass_eq]
  unfold classifyInteger grammaticalNumber
  generalize n.natAbs = m
  have e6 : (10 : Nat) ^ 6 = 1000000 := rfl
  have e9 : (10 : Nat) ^ 9 = 1000000000 := rfl
  rw [e6, e9]
  split
  · rename_i h
    have h1 : ¬ m = 1 := by omega
    simp [h1, IntegerProperties.properties]
  · rename_i h
    split
    · rename_i h1; subst h1; rfl
    · rename_i h1
      split
      · rename_i h2
        have : ¬ (m % 10 = 1 ∧ ¬ m % 100 = 11) := by omega
        simp [this, IntegerProperties.properties]
      · rename_i h2
        split
        · have a1 : ¬ (m % 10 = 1 ∧ ¬ m % 100 = 11) := by omega
          have a2 : ¬ ((m % 10 = 2 ∧ ¬ m % 100 = 12) ∨ (m % 10 = 3 ∧ ¬ m % 100 = 13) ∨ (m % 10 = 4 ∧ ¬ m % 100 = 14)) := by
            omega
          rw [if_neg a1, if_neg a2]; rfl
        · split
          · have a1 : (m % 10 = 1 ∧ ¬ m % 100 = 11) := by omega
            rw [if_pos a1]; rfl
          · have a1 : ¬ (m % 10 = 1 ∧ ¬ m % 100 = 11) := by omega
            rw [if_neg a1]
            split
            · have a2 : ((m % 10 = 2 ∧ ¬ m % 100 = 12) ∨ (m % 10 = 3 ∧ ¬ m % 100 = 13) ∨ (m % 10 = 4 ∧ ¬ m % 100 = 14)) := by
                omega
              rw [if_pos a2]; rfl
            · have a2 : ¬ ((m % 10 = 2 ∧ ¬ m % 100 = 12) ∨ (m % 10 = 3 ∧ ¬ m % 100 = 13) ∨ (m % 10 = 4 ∧ ¬ m % 100 = 14)) := by
                omega
              rw [if_neg a2]; rfl

/-! ## C35 -/

/-- C35: the word form built for `n` carries the agreement class and the grammatical number of `n`, and nothing else. -/
theorem C35_agreement_class (n : Int) :
    ∃ f, constructIntegerFresh n = .ok f ∧ f.word.type = .INTEGER ∧
      f.properties.get .INTEGER_FORM = some (agreementClass n) ∧
      f.properties.get .NUMBER = some (grammaticalNumber n) ∧
      ∀ g, f.properties.isSpecified g = true ↔ g = .INTEGER_FORM ∨ g = .NUMBER := by
  refine ⟨_, constructIntegerFresh_eq n, rfl, ?_⟩
  show (classifyInteger n.natAbs).properties.get _ = _ ∧ (classifyInteger n.natAbs).properties.get _ = _ ∧
    ∀ g, (classifyInteger n.natAbs).properties.isSpecified g = true ↔ _
  generalize hc : classifyInteger n.natAbs = c
  have hp := classify_properties n
  rw [hc] at hp; rw [hp]
  have hn : grammaticalNumber n = .NUMBER_SINGULAR ∨ grammaticalNumber n = .NUMBER_PLURAL := by
    unfold grammaticalNumber; split <;> simp
  have ha : agreementClass n ∈ [Rec.INTEGER_FORM_MIL_BIL, .INTEGER_FORM_SINGULAR, .INTEGER_FORM_DUAL,
      .INTEGER_FORM_COMPOSITE_DUAL, .INTEGER_FORM_PLURAL] := by
    unfold agreementClass; split <;> try split <;> try split <;> try split
    all_goals simp
  simp only [List.mem_cons, List.not_mem_nil, or_false] at ha
  rcases hn with hn | hn <;> rcases ha with ha | ha | ha | ha | ha <;> rw [hn, ha] <;>
    refine ⟨by decide, by decide, fun g => ?_⟩ <;> cases g <;> decide

example : agreementClass (-21) = .INTEGER_FORM_SINGULAR ∧ agreementClass 111 = .INTEGER_FORM_PLURAL ∧
    agreementClass 3 = .INTEGER_FORM_DUAL ∧ agreementClass 1023 = .INTEGER_FORM_COMPOSITE_DUAL ∧
    agreementClass 1000000 = .INTEGER_FORM_MIL_BIL ∧ agreementClass 113 = .INTEGER_FORM_PLURAL ∧
    agreementClass 0 = .INTEGER_FORM_PLURAL := by decide +kernel

/-! ## C37 -/

/-- C37: the only form of `construct_integer(n)` is the decimal notation of `n`, which reads back as `n`. -/
theorem C37_decimal_text (n : Int) :
    ∃ f, constructIntegerFresh n = .ok f ∧ f.word.forms = [pyStr n] ∧ pyInt (pyStr n) = .ok n :=
  ⟨_, constructIntegerFresh_eq n, rfl, pyInt_pyStr n⟩

/-- C37: different integers have different texts, hence unequal word forms. -/
theorem C37_injective (m n : Int) (f g : WordForm) (hf : constructIntegerFresh m = .ok f) (hg : constructIntegerFresh n = .ok g)
    (h : f.eq g = true) : m = n := by
  rw [constructIntegerFresh_eq] at hf hg
  injection hf with hf; injection hg with hg; subst hf hg
  unfold WordForm.eq Word.eq at h
  simp only [Bool.and_eq_true, decide_eq_true_eq] at h
  have := h.1.2
  exact pyStr_injective (by simpa [integerForm, WordForm.new] using this)

theorem integerForm_form (U : PyUni) (n : Int) : (integerForm n).form U = .ok (pyStr n) := by
  have hw : Accepted ⟨.INTEGER, [pyStr n], (classifyInteger n.natAbs).properties⟩ := by
    refine ⟨.INTEGER, [pyStr n], _, ?_, (C08_constructor _ _ _).1 rfl⟩
    rw [classify_properties]; exact wf_new (by intro p hp; simp at hp)
  have hl : (integerForm n).formProperties.get .WORD_CASE = some .WORD_CASE_LOWER := by
    show (classifyInteger n.natAbs).properties.get .WORD_CASE = _
    cases classifyInteger n.natAbs <;> decide
  have h := getForm_lower (U := U) (w := (integerForm n).word) hl
  obtain ⟨f, hf, he⟩ := formRaw_ok (accepted_iff.mp hw).2 (accepted_iff.mp hw).1
  have hf' : f = pyStr n := by simpa using hf
  rw [hf'] at he
  exact h.trans he

/-- C37: `construct_integer(n).form` is the decimal notation of `n`. -/
theorem C37_form (U : PyUni) (n : Int) (f : WordForm) (hf : constructIntegerFresh n = .ok f) : f.form U = .ok (pyStr n) := by
  rw [constructIntegerFresh_eq] at hf
  cases hf
  exact integerForm_form U n

example : pyStr (-1023) = str! "-1023" := by decide +kernel

/-! ## C36 -/

theorem alloc_eq (s : IntState) (n : Int) :
    s.alloc n = .ok ({ s with nextId := s.nextId + 1 }, ⟨s.nextId, integerForm n⟩) := by
  unfold IntState.alloc; rw [constructIntegerFresh_eq]; rfl

theorem allocMany_eq (start k : Nat) (s : IntState) :
    IntState.allocMany start k s = .ok ({ s with nextId := s.nextId + k },
      (List.range k).map fun i => ⟨s.nextId + i, integerForm ((start + i : Nat) : Int)⟩) := by
  induction k generalizing start s with
  | zero => rfl
  | succ k ih =>
    unfold IntState.allocMany
    rw [alloc_eq]
    simp only [bind, Except.bind]
    rw [ih]
    simp only [Except.ok.injEq, Prod.mk.injEq]
    constructor
    · congr 1; omega
    · rw [List.range_succ_eq_map]
      simp only [List.map_cons, List.map_map, Nat.add_zero, List.cons.injEq, true_and]
      apply List.map_congr_left
      intro i _
      simp only [Function.comp_apply, Nat.succ_eq_add_one]
      congr 1
      · omega
      · congr 2; omega

/-- The cache filled when the next identity was `b`. -/
def cacheAt (R b : Nat) : List Obj := (List.range (R + 1)).map fun i => ⟨b + i, integerForm (i : Int)⟩

theorem cacheAt_get (R b : Nat) (n : Int) (h : 0 ≤ n ∧ n ≤ (R : Int)) :
    (cacheAt R b)[n.toNat]? = some ⟨b + n.toNat, integerForm n⟩ := by
  unfold cacheAt
  rw [List.getElem?_map, List.getElem?_range (by omega)]
  simp only [Option.map_some]
  congr 3; omega

theorem constructInteger_outside (R : Nat) (s : IntState) (n : Int) (hn : ¬ (0 ≤ n ∧ n ≤ (R : Int))) :
    constructIntegerWith R s n = .ok ({ s with nextId := s.nextId + 1 }, ⟨s.nextId, integerForm n⟩) := by
  unfold constructIntegerWith
  rw [if_neg hn, alloc_eq]

theorem constructInteger_first (R k : Nat) (n : Int) (hn : 0 ≤ n ∧ n ≤ (R : Int)) :
    constructIntegerWith R ⟨k, none⟩ n = .ok (⟨k + (R + 1), some (cacheAt R k)⟩, ⟨k + n.toNat, integerForm n⟩) := by
  unfold constructIntegerWith
  rw [if_pos hn]
  have hc : (List.map (fun i => (⟨k + i, integerForm ((0 + i : Nat) : Int)⟩ : Obj)) (List.range (R - 0 + 1))) = cacheAt R k := by
    unfold cacheAt; congr 1; funext i; rw [Nat.zero_add]
  simp only [bind, Except.bind, allocMany_eq, hc, cacheAt_get R _ n hn]
  rfl

theorem constructInteger_again (R k b : Nat) (n : Int) (hn : 0 ≤ n ∧ n ≤ (R : Int)) :
    constructIntegerWith R ⟨k, some (cacheAt R b)⟩ n = .ok (⟨k, some (cacheAt R b)⟩, ⟨b + n.toNat, integerForm n⟩) := by
  unfold constructIntegerWith
  rw [if_pos hn]
  simp only [bind, Except.bind, cacheAt_get R _ n hn]

/-- `constructHistory` with the size of the cache as a parameter. -/
def constructHistoryWith (R : Nat) : IntState → List Int → Except PyErr (IntState × List Obj)
  | s, [] => .ok (s, [])
  | s, n :: ns => do
    let (s, o) ← constructIntegerWith R s n
    let (s, os) ← constructHistoryWith R s ns
    .ok (s, o :: os)

theorem constructHistory_eq (s : IntState) (ns : List Int) : constructHistory s ns = constructHistoryWith 10000 s ns := by
  induction ns generalizing s with
  | nil => rfl
  | cons n ns ih =>
    unfold constructHistory constructHistoryWith constructInteger INTEGER_CACHE_RIGHT
    simp only [ih]

/-- What one returned object satisfies, if identities from `k` on were free before the history and the cache is (or is going
to be) the one with base `B`. -/
def Good (R k B : Nat) (x : Int × Obj) : Prop :=
  x.2.value = integerForm x.1 ∧ ((0 ≤ x.1 ∧ x.1 ≤ (R : Int)) → x.2.id = B + x.1.toNat) ∧
    (¬ (0 ≤ x.1 ∧ x.1 ≤ (R : Int)) → k ≤ x.2.id ∧ (x.2.id < B ∨ B + (R + 1) ≤ x.2.id))

theorem Good.mono {R k k' B : Nat} (h : k ≤ k') {x : Int × Obj} (g : Good R k' B x) : Good R k B x :=
  ⟨g.1, g.2.1, fun hn => ⟨Nat.le_trans h (g.2.2 hn).1, (g.2.2 hn).2⟩⟩

theorem history_filled (R : Nat) (ns : List Int) (k b : Nat) (hb : b + (R + 1) ≤ k) :
    ∃ s', ∃ l : List (Int × Obj), l.map Prod.fst = ns ∧ constructHistoryWith R ⟨k, some (cacheAt R b)⟩ ns = .ok (s', l.map Prod.snd) ∧
      (∀ x ∈ l, Good R k b x) ∧ l.Pairwise fun x y => ¬ (0 ≤ x.1 ∧ x.1 ≤ (R : Int)) → ¬ (0 ≤ y.1 ∧ y.1 ≤ (R : Int)) → x.2.id < y.2.id := by
  induction ns generalizing k with
  | nil => exact ⟨_, [], rfl, rfl, by simp, List.Pairwise.nil⟩
  | cons n ns ih =>
    unfold constructHistoryWith
    by_cases hn : (0 ≤ n ∧ n ≤ (R : Int))
    · obtain ⟨s', l, h1, h2, h3, h4⟩ := ih k hb
      refine ⟨s', (n, ⟨b + n.toNat, integerForm n⟩) :: l, by simp [h1], ?_, ?_, ?_⟩
      · rw [constructInteger_again R k b n hn]; simp only [bind, Except.bind, h2]; rfl
      · intro x hx
        rcases List.mem_cons.mp hx with rfl | hx
        · exact ⟨rfl, fun _ => rfl, fun h => absurd hn h⟩
        · exact h3 x hx
      · exact List.pairwise_cons.mpr ⟨fun y _ h => absurd hn h, h4⟩
    · obtain ⟨s', l, h1, h2, h3, h4⟩ := ih (k + 1) (by omega)
      refine ⟨s', (n, ⟨k, integerForm n⟩) :: l, by simp [h1], ?_, ?_, ?_⟩
      · rw [constructInteger_outside R _ n hn]; simp only [bind, Except.bind, h2]; rfl
      · intro x hx
        rcases List.mem_cons.mp hx with rfl | hx
        · exact ⟨rfl, fun h => absurd h hn, fun _ => ⟨Nat.le_refl _, Or.inr hb⟩⟩
        · exact (h3 x hx).mono (by omega)
      · refine List.pairwise_cons.mpr ⟨fun y hy _ hy' => ?_, h4⟩
        have := ((h3 y hy).2.2 hy').1
        show k < y.2.id; omega

theorem history_empty (R : Nat) (ns : List Int) (k : Nat) :
    ∃ s', ∃ l : List (Int × Obj), ∃ B, l.map Prod.fst = ns ∧ constructHistoryWith R ⟨k, none⟩ ns = .ok (s', l.map Prod.snd) ∧ k ≤ B ∧
      (∀ x ∈ l, Good R k B x) ∧ l.Pairwise fun x y => ¬ (0 ≤ x.1 ∧ x.1 ≤ (R : Int)) → ¬ (0 ≤ y.1 ∧ y.1 ≤ (R : Int)) → x.2.id < y.2.id := by
  induction ns generalizing k with
  | nil => exact ⟨_, [], k, rfl, rfl, Nat.le_refl _, by simp, List.Pairwise.nil⟩
  | cons n ns ih =>
    unfold constructHistoryWith
    by_cases hn : (0 ≤ n ∧ n ≤ (R : Int))
    · obtain ⟨s', l, h1, h2, h3, h4⟩ := history_filled R ns (k + (R + 1)) k (Nat.le_refl _)
      refine ⟨s', (n, ⟨k + n.toNat, integerForm n⟩) :: l, k, by simp [h1], ?_, Nat.le_refl _, ?_, ?_⟩
      · rw [constructInteger_first R k n hn]; simp only [bind, Except.bind, h2]; rfl
      · intro x hx
        rcases List.mem_cons.mp hx with rfl | hx
        · exact ⟨rfl, fun _ => rfl, fun h => absurd hn h⟩
        · exact (h3 x hx).mono (by omega)
      · exact List.pairwise_cons.mpr ⟨fun y _ h => absurd hn h, h4⟩
    · obtain ⟨s', l, B, h1, h2, hB, h3, h4⟩ := ih (k + 1)
      refine ⟨s', (n, ⟨k, integerForm n⟩) :: l, B, by simp [h1], ?_, by omega, ?_, ?_⟩
      · rw [constructInteger_outside R _ n hn]; simp only [bind, Except.bind, h2]; rfl
      · intro x hx
        rcases List.mem_cons.mp hx with rfl | hx
        · exact ⟨rfl, fun h => absurd h hn, fun _ => ⟨Nat.le_refl _, Or.inl (by show k < B; omega)⟩⟩
        · exact (h3 x hx).mono (by omega)
      · refine List.pairwise_cons.mpr ⟨fun y hy _ hy' => ?_, h4⟩
        have := ((h3 y hy).2.2 hy').1
        show k < y.2.id; omega

/-- C36: any history of calls succeeds; each call returns a value equal to a freshly built one; two calls return the same
object iff they ask for the same number and it lies in 0..10000. -/
theorem C36_cache_transparent (calls : List Int) :
    ∃ s, ∃ returned : List (Int × Obj),
      returned.map Prod.fst = calls ∧ constructHistory .init calls = .ok (s, returned.map Prod.snd) ∧
      (∀ x ∈ returned, constructIntegerFresh x.1 = .ok x.2.value) ∧
      returned.Pairwise fun x y =>
        (x.2.id = y.2.id ↔ x.1 = y.1 ∧ 0 ≤ x.1 ∧ x.1 ≤ 10000) ∧ (x.2.id = y.2.id → x.2 = y.2) := by
  obtain ⟨s, l, B, h1, h2, _, h3, h4⟩ := history_empty 10000 calls 0
  refine ⟨s, l, h1, (constructHistory_eq _ _).trans h2, fun x hx => by rw [constructIntegerFresh_eq, (h3 x hx).1], ?_⟩
  refine List.Pairwise.imp_of_mem ?_ h4
  intro x y hx hy hlt
  have gx := h3 x hx
  have gy := h3 y hy
  have key : x.2.id = y.2.id ↔ x.1 = y.1 ∧ 0 ≤ x.1 ∧ x.1 ≤ 10000 := by
    by_cases cx : 0 ≤ x.1 ∧ x.1 ≤ ((10000 : Nat) : Int) <;> by_cases cy : 0 ≤ y.1 ∧ y.1 ≤ ((10000 : Nat) : Int)
    · have ex := gx.2.1 cx
      have ey := gy.2.1 cy
      obtain ⟨a, b⟩ := cx; obtain ⟨c, d⟩ := cy
      constructor
      · intro e; exact ⟨by omega, a, b⟩
      · rintro ⟨e, _⟩; rw [ex, ey, e]
    · have ex := gx.2.1 cx
      have ey := gy.2.2 cy
      constructor
      · intro e; obtain ⟨a, b⟩ := cx; omega
      · rintro ⟨e, _⟩; rw [e] at cx; exact absurd cx cy
    · have ex := gx.2.2 cx
      have ey := gy.2.1 cy
      constructor
      · intro e; obtain ⟨a, b⟩ := cy; omega
      · rintro ⟨_, c⟩; exact absurd c cx
    · have := hlt cx cy
      constructor
      · intro e; omega
      · rintro ⟨_, c⟩; exact absurd c cx
  refine ⟨key, fun e => ?_⟩
  have hv : x.2.value = y.2.value := by rw [gx.1, gy.1, (key.mp e).1]
  rcases hx2 : x.2 with ⟨i, v⟩; rcases hy2 : y.2 with ⟨j, w⟩
  rw [hx2, hy2] at e hv
  simp only at e hv; rw [e, hv]

example : (21 : Int) ∈ [5, 21, -5, 20000, 21] ∧ 0 ≤ (21 : Int) ∧ (21 : Int) ≤ 10000 := by decide

end Utg
