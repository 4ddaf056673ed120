import Verif.Spec.Format
import Verif.Props.Templates
/-!
# C117: any text in a saved template
-/

namespace Utg
open Py Spec

theorem digitVal_eq (c : Char) : digitVal c = c.toNat - 48 := rfl

/-- The letters of flags. -/
def isFlag (c : Char) : Bool := decide (c ∈ ['-', '+', ' ', '#', '0'])

theorem formatFrom_cons (U : PyUni) {pos : FormatPos} (hp : pos ≠ .text) (c : Char) (cs : Str) (args : List Str) :
    formatFrom U pos (c :: cs) args = match formatStep pos c with
    | .error e => .error e
    | .ok (some pos', _) => formatFrom U pos' cs args
    | .ok (none, v) =>
      if c = '%' then (formatFrom U .text cs args).map ('%' :: ·)
      else match args with
        | [] => .error .TypeError
        | a :: args => match convertText U v c a with
          | .error e => .error e
          | .ok s => (formatFrom U .text cs args).map (padText v s ++ ·) := by
  cases pos <;> first | exact absurd rfl hp | (rw [formatFrom] <;> first | rfl | exact hp)

theorem formatFrom_nil (U : PyUni) {pos : FormatPos} (hp : pos ≠ .text) (args : List Str) :
    formatFrom U pos [] args = .error .ValueError := by
  cases pos <;> first | exact absurd rfl hp | (rw [formatFrom] <;> simp)

/-- Without `(` the flags begin. -/
theorem percent_flags (U : PyUni) (cs : Str) (hc : cs.head? ≠ some '(') (args : List Str) :
    formatFrom U .percent cs args = formatFrom U (.flags ⟨false, 0, none⟩) cs args := by
  cases cs with
  | nil => rw [formatFrom_nil U (by simp), formatFrom_nil U (by simp)]
  | cons c cs =>
    rw [formatFrom_cons U (by simp), formatFrom_cons U (by simp)]
    have : formatStep .percent c = formatStep (.flags ⟨false, 0, none⟩) c := by
      simp only [formatStep]
      rw [if_neg]; simpa using hc
    rw [this]

theorem percent_paren (U : PyUni) (cs : Str) (args : List Str) : formatFrom U .percent ('(' :: cs) args = .error .TypeError := by
  rw [formatFrom_cons U (by simp)]; rfl

theorem flags_skip (U : PyUni) (fs rest : Str) (hf : ∀ c ∈ fs, isFlag c = true) (v : Conversion) (args : List Str) :
    formatFrom U (.flags v) (fs ++ rest) args = formatFrom U (.flags { v with left := v.left || decide ('-' ∈ fs) }) rest args := by
  induction fs generalizing v with
  | nil => simp
  | cons c fs ih =>
    have hc := hf c (by simp)
    rw [List.cons_append, formatFrom_cons U (by simp)]
    have ih := ih (fun c h => hf c (by simp [h]))
    by_cases h1 : c = '-'
    · subst h1
      have : formatStep (.flags v) '-' = .ok (some (.flags { v with left := true }), v) := rfl
      rw [this]; dsimp only; rw [ih]; simp
    · have h2 : c = '+' ∨ c = ' ' ∨ c = '#' ∨ c = '0' := by
        simp only [isFlag, List.mem_cons, List.not_mem_nil, or_false, decide_eq_true_eq] at hc; tauto
      have : formatStep (.flags v) c = .ok (some (.flags v), v) := by
        simp only [formatStep, formatStep.formatFlags]; rw [if_neg h1, if_pos h2]
      rw [this]; dsimp only; rw [ih]
      have : decide ('-' ∈ c :: fs) = decide ('-' ∈ fs) := by
        have : '-' ≠ c := fun e => h1 e.symm
        simp [this]
      rw [this]

theorem digits_mono (ds : Str) : ∀ n : Nat, n ≤ ds.foldl (fun n c => n * 10 + (c.toNat - 48)) n := by
  induction ds with
  | nil => intro n; exact Nat.le_refl _
  | cons d ds ih => intro n; exact Nat.le_trans (by simp only; omega) (ih _)

/-- The number written by digits after others. -/
theorem width_digits (U : PyUni) (ds rest : Str) (hd : ∀ c ∈ ds, c.isDigit = true) (v : Conversion) (args : List Str) :
    formatFrom U (.width v) (ds ++ rest) args =
      if ds.foldl (fun n c => n * 10 + (c.toNat - 48)) v.width ≤ 9223372036854775807 ∨ ds = [] then
        formatFrom U (.width { v with width := ds.foldl (fun n c => n * 10 + (c.toNat - 48)) v.width }) rest args
      else .error .ValueError := by
  induction ds generalizing v with
  | nil => simp
  | cons c ds ih =>
    have hc := hd c (by simp)
    rw [List.cons_append, formatFrom_cons U (by simp)]
    have ih := ih (fun c h => hd c (by simp [h]))
    have hm := digits_mono ds (v.width * 10 + (c.toNat - 48))
    have hstep : formatStep (.width v) c = if v.width * 10 + (c.toNat - 48) ≤ 9223372036854775807 then
        .ok (some (.width { v with width := v.width * 10 + (c.toNat - 48) }), v) else .error .ValueError := by
      simp only [formatStep]; rw [if_pos hc]; rfl
    rw [hstep]
    by_cases hb : v.width * 10 + (c.toNat - 48) ≤ 9223372036854775807
    · rw [if_pos hb]; dsimp only; rw [ih]; dsimp only [List.foldl_cons]
      by_cases h0 : ds = []
      · subst h0; simp [hb]
      · simp [h0]
    · rw [if_neg hb]; dsimp only [List.foldl_cons]
      exact (if_neg (by simp; omega)).symm

theorem precision_digits (U : PyUni) (ds rest : Str) (hd : ∀ c ∈ ds, c.isDigit = true) (v : Conversion) (n : Nat) (hv : v.precision = some n)
    (args : List Str) :
    formatFrom U (.precision v) (ds ++ rest) args =
      if ds.foldl (fun n c => n * 10 + (c.toNat - 48)) n ≤ 2147483647 ∨ ds = [] then
        formatFrom U (.precision { v with precision := some (ds.foldl (fun n c => n * 10 + (c.toNat - 48)) n) }) rest args
      else .error .ValueError := by
  induction ds generalizing v n with
  | nil =>
    have : { v with precision := some n } = v := by cases v; simp_all
    simp [this]
  | cons c ds ih =>
    have hc := hd c (by simp)
    rw [List.cons_append, formatFrom_cons U (by simp)]
    have hm := digits_mono ds (n * 10 + (c.toNat - 48))
    have hstep : formatStep (.precision v) c = if n * 10 + (c.toNat - 48) ≤ 2147483647 then
        .ok (some (.precision { v with precision := some (n * 10 + (c.toNat - 48)) }), v) else .error .ValueError := by
      simp only [formatStep, formatStep.formatPrecision]; rw [if_pos hc, hv]; rfl
    rw [hstep]
    by_cases hb : n * 10 + (c.toNat - 48) ≤ 2147483647
    · rw [if_pos hb]; dsimp only; rw [ih (fun c h => hd c (by simp [h])) _ _ rfl]; dsimp only [List.foldl_cons]
      by_cases h0 : ds = []
      · subst h0; simp [hb]
      · simp [h0]
    · rw [if_neg hb]; dsimp only [List.foldl_cons]
      exact (if_neg (by simp; omega)).symm

/-- The width, from the end of the flags: where this leads. -/
def afterWidth (v : Conversion) (ds : Str) : FormatPos := if ds = [] then .flags v else .width { v with width := decimal ds }

theorem width_skip (U : PyUni) (ds rest : Str) (hd : ∀ c ∈ ds, c.isDigit = true) (h0 : ds.head? ≠ some '0') (v : Conversion) (args : List Str) :
    formatFrom U (.flags v) (ds ++ rest) args =
      if decimal ds < 2 ^ 63 then formatFrom U (afterWidth v ds) rest args else .error .ValueError := by
  cases ds with
  | nil => simp [afterWidth, decimal]
  | cons c ds =>
    have hc := hd c (by simp)
    have hc0 : c ≠ '0' := by simpa using h0
    have hstep : formatStep (.flags v) c = .ok (some (.width { v with width := c.toNat - 48 }), v) := by
      simp only [formatStep, formatStep.formatFlags]
      rw [if_neg (by rintro rfl; simp [Char.isDigit] at hc), if_neg (by
        rintro (rfl | rfl | rfl | rfl)
        · simp [Char.isDigit] at hc
        · simp [Char.isDigit] at hc
        · simp [Char.isDigit] at hc
        · exact hc0 rfl), if_neg (by rintro rfl; simp [Char.isDigit] at hc), if_pos hc]
      rfl
    rw [List.cons_append, formatFrom_cons U (by simp), hstep]
    dsimp only
    rw [width_digits U ds rest (fun c h => hd c (by simp [h]))]
    have hdec : decimal (c :: ds) = ds.foldl (fun n c => n * 10 + (c.toNat - 48)) (c.toNat - 48) := by simp [decimal]
    have hle : c.toNat - 48 ≤ 9 := by
      simp only [Char.isDigit, Bool.and_eq_true, decide_eq_true_eq] at hc
      have := hc.2
      have : c.toNat ≤ 57 := by simpa [Char.le_def, UInt32.le_iff_toNat_le] using this
      omega
    have hcond : (ds.foldl (fun n c => n * 10 + (c.toNat - 48)) (c.toNat - 48) ≤ 9223372036854775807 ∨ ds = []) ↔ decimal (c :: ds) < 2 ^ 63 := by
      rw [hdec]
      constructor
      · rintro (h | rfl)
        · omega
        · simp only [List.foldl_nil]; omega
      · intro h; left; omega
    simp only [hcond, afterWidth, hdec]
    simp

/-- The end of a conversion: its letter. -/
def atLetter (U : PyUni) (v : Conversion) (c : Char) (rest : Str) (args : List Str) : Except PyErr Str :=
  if c = '%' then (formatFrom U .text rest args).map ('%' :: ·)
  else match args with
    | [] => .error .TypeError
    | a :: args => match convertText U v c a with
      | .error e => .error e
      | .ok s => (formatFrom U .text rest args).map (padText v s ++ ·)

/-- Positions that behave alike at what follows the width. -/
def BeforeDot (v : Conversion) (pos : FormatPos) : Prop := pos = .flags v ∨ pos = .width v

/-- Positions that behave alike at what follows the precision. -/
def BeforeSize (v : Conversion) (pos : FormatPos) : Prop := BeforeDot v pos ∨ pos = .dot v ∨ pos = .precision v

theorem afterWidth_before (v : Conversion) (ds : Str) (hv : v.width = 0) : BeforeDot { v with width := decimal ds } (afterWidth v ds) := by
  unfold afterWidth
  split
  · rename_i h; subst h; left
    have : { v with width := decimal [] } = v := by cases v; simp_all [decimal]
    rw [this]
  · exact .inr rfl

theorem beforeDot_step {v : Conversion} {pos : FormatPos} (h : BeforeDot v pos) {c : Char} (hf : isFlag c = false) (hd : c.isDigit = false)
    (hs : c ≠ '*') : formatStep pos c = dotStep v c := by
  have h1 : c ≠ '-' ∧ ¬ (c = '+' ∨ c = ' ' ∨ c = '#' ∨ c = '0') := by
    simp only [isFlag, List.mem_cons, List.not_mem_nil, or_false, decide_eq_false_iff_not] at hf; tauto
  rcases h with rfl | rfl
  · simp only [formatStep, formatStep.formatFlags]
    rw [if_neg h1.1, if_neg h1.2, if_neg hs, if_neg (by simp [hd])]
  · simp only [formatStep]
    rw [if_neg (by simp [hd])]

theorem beforeSize_step {v : Conversion} {pos : FormatPos} (h : BeforeSize v pos) {c : Char} (hf : isFlag c = false) (hd : c.isDigit = false)
    (hs : c ≠ '*') (hdot : c ≠ '.') : formatStep pos c = sizeStep v c := by
  rcases h with h | rfl | rfl
  · rw [beforeDot_step h hf hd hs]; unfold dotStep; rw [if_neg hdot]
  · simp only [formatStep, formatStep.formatPrecision]; rw [if_neg hs, if_neg (by simp [hd])]
  · simp only [formatStep, formatStep.formatPrecision]; rw [if_neg (by simp [hd])]

theorem beforeSize_ne {v : Conversion} {pos : FormatPos} (h : BeforeSize v pos) : pos ≠ .text := by
  rcases h with (rfl | rfl) | rfl | rfl <;> simp

/-- From the precision to the letter. -/
theorem size_letter (U : PyUni) {v : Conversion} {pos : FormatPos} (h : BeforeSize v pos) (size : Option Char) (hsz : ∀ c, size = some c → c ∈ ['h', 'l', 'L'])
    (c : Char) (hc : size = none → isFlag c = false ∧ c.isDigit = false ∧ c ≠ '*' ∧ c ≠ '.' ∧ c ∉ ['h', 'l', 'L']) (rest : Str) (args : List Str) :
    formatFrom U pos (size.toList ++ c :: rest) args = atLetter U v c rest args := by
  cases size with
  | none =>
    obtain ⟨h1, h2, h3, h4, h5⟩ := hc rfl
    simp only [Option.toList, List.nil_append]
    rw [formatFrom_cons U (beforeSize_ne h), beforeSize_step h h1 h2 h3 h4]
    unfold sizeStep
    rw [if_neg (by simpa using h5)]
    rfl
  | some z =>
    have hz := hsz z rfl
    simp only [Option.toList, List.cons_append, List.nil_append]
    have hstep : formatStep pos z = .ok (some (.size v), v) := by
      have hz' : z = 'h' ∨ z = 'l' ∨ z = 'L' := by simpa using hz
      rw [beforeSize_step h (by rcases hz' with rfl | rfl | rfl <;> decide) (by rcases hz' with rfl | rfl | rfl <;> decide)
        (by rcases hz' with rfl | rfl | rfl <;> decide) (by rcases hz' with rfl | rfl | rfl <;> decide)]
      unfold sizeStep; rw [if_pos hz']
    rw [formatFrom_cons U (beforeSize_ne h), hstep]
    dsimp only
    rw [formatFrom_cons U (by simp)]
    rfl

/-- The precision, from the dot. -/
theorem precision_skip (U : PyUni) (ds rest : Str) (hd : ∀ c ∈ ds, c.isDigit = true) (v : Conversion) (hv : v.precision = some 0) (args : List Str) :
    ∃ pos, BeforeSize { v with precision := some (decimal ds) } pos ∧
      (pos = .dot { v with precision := some (decimal ds) } ∨ pos = .precision { v with precision := some (decimal ds) }) ∧
      formatFrom U (.dot v) (ds ++ rest) args = if decimal ds < 2 ^ 31 then formatFrom U pos rest args else .error .ValueError := by
  cases ds with
  | nil =>
    have : { v with precision := some (decimal []) } = v := by cases v; simp_all [decimal]
    rw [this]
    exact ⟨.dot v, .inr (.inl rfl), .inl rfl, by simp [decimal]⟩
  | cons c ds =>
    refine ⟨_, .inr (.inr rfl), .inr rfl, ?_⟩
    have hc := hd c (by simp)
    have hstep : formatStep (.dot v) c = formatStep (.precision v) c := by
      simp only [formatStep]; rw [if_neg]; rintro rfl; simp [Char.isDigit] at hc
    have h1 : formatFrom U (.dot v) (c :: ds ++ rest) args = formatFrom U (.precision v) (c :: ds ++ rest) args := by
      rw [List.cons_append, formatFrom_cons U (by simp), formatFrom_cons U (by simp), hstep]
    rw [h1, precision_digits U (c :: ds) rest hd v 0 hv]
    have hcond : ((c :: ds).foldl (fun n c => n * 10 + (c.toNat - 48)) 0 ≤ 2147483647 ∨ c :: ds = []) ↔ decimal (c :: ds) < 2 ^ 31 := by
      unfold decimal
      constructor
      · rintro (h | h)
        · omega
        · cases h
      · intro h; left; omega
    simp only [hcond]
    rfl

/-- What the flags, width and precision of a field ask for. -/
def Spec.Field.conversion (f : Field) : Conversion := ⟨decide ('-' ∈ f.flags), decimal f.width, f.precision.map decimal⟩

theorem letter_facts {c : Char} (h : c ∈ ['s', 'r', 'a', 'c', '%']) :
    isFlag c = false ∧ c.isDigit = false ∧ c ≠ '*' ∧ c ≠ '.' ∧ c ∉ ['h', 'l', 'L'] ∧ c ≠ '(' := by
  simp only [List.mem_cons, List.not_mem_nil, or_false] at h
  rcases h with rfl | rfl | rfl | rfl | rfl <;> decide

theorem isFlag_iff {c : Char} : isFlag c = true ↔ c ∈ ['-', '+', ' ', '#', '0'] := by simp [isFlag]

/-- Reading a valid field. -/
theorem formatFrom_field (U : PyUni) {f : Field} (hf : f.Valid) (rest : Str) (args : List Str) :
    formatFrom U .text (f.source ++ rest) args = atLetter U f.conversion f.letter rest args := by
  obtain ⟨h1, ⟨h2, h3, h4⟩, h5, h6, h7⟩ := hf
  have hl := letter_facts h7
  unfold Field.source
  simp only [List.cons_append, List.append_assoc]
  rw [formatFrom, if_pos rfl]
  have hparen : ∀ x ∈ (f.flags ++ (f.width ++ ((match f.precision with | none => [] | some p => '.' :: p) ++ (f.size.toList ++ [f.letter])))), x ≠ '(' := by
    intro x hx e
    subst e
    simp only [List.mem_append, List.mem_singleton, Option.mem_toList] at hx
    rcases hx with hx | hx | hx | hx | hx
    · have := h1 _ hx; simp at this
    · have := h2 _ hx; simp [Char.isDigit] at this
    · cases hp : f.precision with
      | none => rw [hp] at hx; cases hx
      | some p =>
        rw [hp] at hx
        simp only [List.mem_cons] at hx
        rcases hx with hx | hx
        · cases hx
        · have := (h5 p hp).1 _ hx; simp [Char.isDigit] at this
    · have := h6 _ hx; simp at this
    · exact hl.2.2.2.2.2 hx.symm
  rw [percent_flags U _ (by
    intro e
    refine hparen '(' ?_ rfl
    have hm := List.mem_of_head? e
    cases hx : f.flags with
    | cons c cs => rw [hx] at e; simp at e; simp [e]
    | nil =>
      cases hy : f.width with
      | cons c cs => rw [hx, hy] at e; simp at e; simp [e]
      | nil =>
        cases hz : f.precision with
        | some p => rw [hx, hy, hz] at e; simp at e
        | none =>
          cases hs : f.size with
          | some z => rw [hx, hy, hz, hs] at e; simp at e; simp [e]
          | none => rw [hx, hy, hz, hs] at e; simp at e; simp [e])]
  rw [flags_skip U f.flags _ (fun c hc => isFlag_iff.mpr (h1 c hc)), width_skip U f.width _ h2 h3, if_pos h4]
  have hb := afterWidth_before ⟨false || decide ('-' ∈ f.flags), 0, none⟩ f.width rfl
  generalize afterWidth ⟨false || decide ('-' ∈ f.flags), 0, none⟩ f.width = pos at hb
  simp only [Bool.false_or] at hb
  cases hp : f.precision with
  | none =>
    simp only [List.nil_append]
    have := size_letter U (v := ⟨decide ('-' ∈ f.flags), decimal f.width, none⟩) (pos := pos) (.inl hb) f.size h6 f.letter
      (fun _ => ⟨hl.1, hl.2.1, hl.2.2.1, hl.2.2.2.1, hl.2.2.2.2.1⟩) rest args
    rw [this]; simp [Spec.Field.conversion, hp]
  | some p =>
    obtain ⟨h51, h52⟩ := h5 p hp
    simp only [List.cons_append]
    rw [formatFrom_cons U (beforeSize_ne (.inl hb)), beforeDot_step hb (by decide) (by decide) (by decide)]
    unfold dotStep
    rw [if_pos rfl]
    dsimp only
    obtain ⟨pos', hp1, -, hp3⟩ := precision_skip U p (f.size.toList ++ (f.letter :: ([] ++ rest))) h51 ⟨decide ('-' ∈ f.flags), decimal f.width, some 0⟩ rfl args
    rw [hp3, if_pos h52]
    have := size_letter U hp1 f.size h6 f.letter (fun _ => ⟨hl.1, hl.2.1, hl.2.2.1, hl.2.2.2.1, hl.2.2.2.2.1⟩) rest args
    simp only [List.cons_append, List.nil_append]
    rw [this]; simp [Spec.Field.conversion, hp]

theorem atLetter_ok {U : PyUni} {v : Conversion} {c : Char} {rest : Str} {args : List Str} {out : Str}
    (h : atLetter U v c rest args = .ok out) : c ∈ ['s', 'r', 'a', 'c', '%'] := by
  unfold atLetter at h
  by_cases hc : c = '%'
  · simp [hc]
  · rw [if_neg hc] at h
    cases args with
    | nil => cases h
    | cons a args =>
      simp only at h
      unfold convertText at h
      simp only [List.mem_cons, List.not_mem_nil, or_false]
      by_contra hn
      simp only [not_or] at hn
      obtain ⟨n1, n2, n3, n4, -⟩ := hn
      rw [if_neg n1, if_neg n2, if_neg n3, if_neg n4] at h
      split at h <;> rename_i h' <;> split at h' <;> cases h' <;> cases h

theorem size_exists {U : PyUni} {v : Conversion} {pos : FormatPos} {c : Char} {r : Str} {args : List Str} {out : Str} (hp : pos ≠ .text)
    (hstep : formatStep pos c = sizeStep v c) (h : formatFrom U pos (c :: r) args = .ok out) :
    ∃ (size : Option Char) (letter : Char) (rest : Str), c :: r = size.toList ++ letter :: rest ∧ (∀ z, size = some z → z ∈ ['h', 'l', 'L']) ∧
      letter ∈ ['s', 'r', 'a', 'c', '%'] := by
  rw [formatFrom_cons U hp, hstep] at h
  unfold sizeStep at h
  by_cases hz : c = 'h' ∨ c = 'l' ∨ c = 'L'
  · rw [if_pos hz] at h
    dsimp only at h
    cases r with
    | nil => rw [formatFrom_nil U (by simp)] at h; cases h
    | cons l r =>
      rw [formatFrom_cons U (by simp)] at h
      have : l ∈ ['s', 'r', 'a', 'c', '%'] := atLetter_ok (U := U) (v := v) (rest := r) (args := args) h
      exact ⟨some c, l, r, rfl, by intro z e; injection e with e; subst e; simpa using hz, this⟩
  · rw [if_neg hz] at h
    have : c ∈ ['s', 'r', 'a', 'c', '%'] := atLetter_ok (U := U) (v := v) (rest := r) (args := args) h
    exact ⟨none, c, r, rfl, by simp, this⟩

theorem takeWhile_all {p : Char → Bool} (l : Str) : ∀ c ∈ l.takeWhile p, p c = true := by
  intro c hc; exact List.all_eq_true.mp List.all_takeWhile c hc

theorem dropWhile_cons {p : Char → Bool} {l r : Str} {c : Char} (h : l.dropWhile p = c :: r) : p c = false := by
  have := List.head?_dropWhile_not p l
  rw [h] at this
  simpa using this

/-- After a `%` that is formatted without error there is a valid field. -/
theorem field_exists {U : PyUni} {cs : Str} {args : List Str} {out : Str} (h : formatFrom U .percent cs args = .ok out) :
    ∃ (f : Field) (rest : Str), f.Valid ∧ '%' :: cs = f.source ++ rest := by
  have hparen : cs.head? ≠ some '(' := by
    intro e
    cases cs with
    | nil => cases e
    | cons c cs => simp at e; subst e; rw [percent_paren] at h; cases h
  rw [percent_flags U cs hparen] at h
  have hcs : cs = cs.takeWhile isFlag ++ cs.dropWhile isFlag := List.takeWhile_append_dropWhile.symm
  have hflags := takeWhile_all (p := isFlag) cs
  have hhead1 : ∀ c r, cs.dropWhile isFlag = c :: r → isFlag c = false := fun c r e => dropWhile_cons e
  generalize cs.takeWhile isFlag = flags at hcs hflags
  generalize cs.dropWhile isFlag = r1 at hcs hhead1
  subst hcs
  rw [flags_skip U flags r1 hflags] at h
  have hr1 : r1 = r1.takeWhile Char.isDigit ++ r1.dropWhile Char.isDigit := List.takeWhile_append_dropWhile.symm
  have hdigits := takeWhile_all (p := Char.isDigit) r1
  have hhead2 : ∀ c r, r1.dropWhile Char.isDigit = c :: r → c.isDigit = false := fun c r e => dropWhile_cons e
  generalize r1.takeWhile Char.isDigit = ds at hr1 hdigits
  generalize r1.dropWhile Char.isDigit = r2 at hr1 hhead2
  subst hr1
  have hd0 : ds.head? ≠ some '0' := by
    intro e
    cases ds with
    | nil => cases e
    | cons c ds => simp at e; subst e; have := hhead1 '0' (ds ++ r2) rfl; simp [isFlag] at this
  rw [width_skip U ds r2 hdigits hd0] at h
  by_cases hw : decimal ds < 2 ^ 63
  swap; · rw [if_neg hw] at h; cases h
  rw [if_pos hw] at h
  have hb := afterWidth_before ⟨false || decide ('-' ∈ flags), 0, none⟩ ds rfl
  cases r2 with
  | nil => rw [formatFrom_nil U (beforeSize_ne (.inl hb))] at h; cases h
  | cons c r3 =>
    have hcd := hhead2 c r3 rfl
    have hstep : formatStep (afterWidth ⟨false || decide ('-' ∈ flags), 0, none⟩ ds) c = dotStep ⟨false || decide ('-' ∈ flags), decimal ds, none⟩ c ∨
        ∃ e, formatStep (afterWidth ⟨false || decide ('-' ∈ flags), 0, none⟩ ds) c = .error e := by
      by_cases h0 : ds = []
      · subst h0
        have hcf := hhead1 c r3 rfl
        by_cases hs : c = '*'
        · right; subst hs; exact ⟨.TypeError, rfl⟩
        · left; exact beforeDot_step hb hcf hcd hs
      · left
        simp only [afterWidth, h0, if_false, formatStep, hcd]
        simp
    rcases hstep with hstep | ⟨e, hstep⟩
    swap; · rw [formatFrom_cons U (beforeSize_ne (.inl hb)), hstep] at h; cases h
    by_cases hdot : c = '.'
    · subst hdot
      rw [formatFrom_cons U (beforeSize_ne (.inl hb)), hstep] at h
      unfold dotStep at h
      rw [if_pos rfl] at h
      dsimp only at h
      have hr3 : r3 = r3.takeWhile Char.isDigit ++ r3.dropWhile Char.isDigit := List.takeWhile_append_dropWhile.symm
      have hpd := takeWhile_all (p := Char.isDigit) r3
      have hhead3 : ∀ c r, r3.dropWhile Char.isDigit = c :: r → c.isDigit = false := fun c r e => dropWhile_cons e
      generalize r3.takeWhile Char.isDigit = ps at hr3 hpd
      generalize r3.dropWhile Char.isDigit = r4 at hr3 hhead3
      subst hr3
      obtain ⟨pos, hp1, hp2, hp3⟩ := precision_skip U ps r4 hpd ⟨false || decide ('-' ∈ flags), decimal ds, some 0⟩ rfl args
      rw [hp3] at h
      by_cases hpp : decimal ps < 2 ^ 31
      swap; · rw [if_neg hpp] at h; cases h
      rw [if_pos hpp] at h
      cases r4 with
      | nil => rw [formatFrom_nil U (beforeSize_ne hp1)] at h; cases h
      | cons c4 r5 =>
        have hc4 := hhead3 c4 r5 rfl
        have hstep4 : formatStep pos c4 = sizeStep ⟨false || decide ('-' ∈ flags), decimal ds, some (decimal ps)⟩ c4 ∨ ∃ e, formatStep pos c4 = .error e := by
          rcases hp2 with rfl | rfl
          · by_cases hs : c4 = '*'
            · right; subst hs; exact ⟨.TypeError, rfl⟩
            · left; simp only [formatStep, formatStep.formatPrecision]; rw [if_neg hs, if_neg (by simp [hc4])]
          · left; simp only [formatStep, formatStep.formatPrecision]; rw [if_neg (by simp [hc4])]
        rcases hstep4 with hstep4 | ⟨e, hstep4⟩
        swap; · rw [formatFrom_cons U (beforeSize_ne hp1), hstep4] at h; cases h
        obtain ⟨size, letter, rest, h1, h2, h3⟩ := size_exists (beforeSize_ne hp1) hstep4 h
        refine ⟨⟨flags, ds, some ps, size, letter⟩, rest, ⟨fun c hc => isFlag_iff.mp (hflags c hc), ⟨hdigits, hd0, hw⟩, ?_, h2, h3⟩, ?_⟩
        · intro p e; injection e with e; subst e; exact ⟨hpd, hpp⟩
        · simp only [Field.source, List.cons_append, List.append_assoc, List.nil_append, h1]
    · have hstep' : formatStep (afterWidth ⟨false || decide ('-' ∈ flags), 0, none⟩ ds) c = sizeStep ⟨false || decide ('-' ∈ flags), decimal ds, none⟩ c := by
        rw [hstep]; unfold dotStep; rw [if_neg hdot]
      obtain ⟨size, letter, rest, h1, h2, h3⟩ := size_exists (beforeSize_ne (.inl hb)) hstep' h
      refine ⟨⟨flags, ds, none, size, letter⟩, rest, ⟨fun c hc => isFlag_iff.mp (hflags c hc), ⟨hdigits, hd0, hw⟩, by simp, h2, h3⟩, ?_⟩
      simp only [Field.source, List.append_assoc, List.nil_append, List.cons_append, h1]

theorem convertText_shows {U : PyUni} {f : Field} {a s : Str} (hl : f.letter ≠ '%') :
    (∃ s', convertText U f.conversion f.letter a = .ok s' ∧ s = padText f.conversion s') ↔ f.Shows U a s := by
  have hpad : ∀ x : Str, padText f.conversion x = if '-' ∈ f.flags then x ++ List.replicate (decimal f.width - x.length) ' '
      else List.replicate (decimal f.width - x.length) ' ' ++ x := by
    intro x; simp [padText, Spec.Field.conversion]
  constructor
  · rintro ⟨s', h, rfl⟩
    rw [hpad]
    unfold convertText at h
    dsimp only at h
    by_cases h1 : f.letter = 's'
    · rw [if_pos h1] at h; injection h with h; subst h
      exact .mk a _ (.inl ⟨h1, rfl⟩) (by cases hp : f.precision <;> simp [Spec.Field.conversion, hp, h1])
    · rw [if_neg h1] at h
      by_cases h2 : f.letter = 'r'
      · rw [if_pos h2] at h; injection h with h; subst h
        exact .mk _ _ (.inr (.inl ⟨h2, rfl⟩)) (by cases hp : f.precision <;> simp [Spec.Field.conversion, hp, h2])
      · rw [if_neg h2] at h
        by_cases h3 : f.letter = 'a'
        · rw [if_pos h3] at h; injection h with h; subst h
          exact .mk _ _ (.inr (.inr (.inl ⟨h3, rfl⟩))) (by cases hp : f.precision <;> simp [Spec.Field.conversion, hp, h3])
        · rw [if_neg h3] at h
          by_cases h4 : f.letter = 'c'
          · rw [if_pos h4] at h
            split at h
            · rename_i hlen; injection h with h; subst h
              exact .mk _ _ (.inr (.inr (.inr ⟨h4, rfl, hlen⟩))) (by cases hp : f.precision <;> simp [Spec.Field.conversion, hp, h4])
            · cases h
          · rw [if_neg h4] at h; split at h <;> cases h
  · rintro ⟨value, cut, hv, rfl⟩
    refine ⟨_, ?_, (hpad _).symm⟩
    unfold convertText
    rcases hv with ⟨h, rfl⟩ | ⟨h, rfl⟩ | ⟨h, rfl⟩ | ⟨h, rfl, hlen⟩ <;> cases hp : f.precision <;> simp_all [Spec.Field.conversion]

/-- Filling a text, exactly. -/
theorem pyFormat_iff (U : PyUni) (s : Str) (args : List Str) (out : Str) :
    pyFormat U s args = .ok out ↔ ∃ ps : List TextPart, (∀ p ∈ ps, p.Valid) ∧ s = ps.flatMap TextPart.source ∧ Filled U ps args out := by
  unfold pyFormat
  constructor
  · intro h
    induction hn : s.length using Nat.strong_induction_on generalizing s args out with
    | _ n ih =>
      cases s with
      | nil =>
        cases args with
        | nil => rw [formatFrom] at h; injection h with h; subst h; exact ⟨[], by simp, rfl, .nil⟩
        | cons a args => rw [formatFrom] at h; cases h
      | cons c cs =>
        by_cases hc : c = '%'
        · subst hc
          have hh := h
          rw [formatFrom, if_pos rfl] at hh
          obtain ⟨f, rest, hf, hsrc⟩ := field_exists hh
          rw [hsrc, formatFrom_field U hf] at h
          have hlen : rest.length < n := by
            have := congrArg List.length hsrc
            simp only [List.length_append, Field.source, List.length_cons] at this
            simp only [List.length_cons] at hn
            omega
          unfold atLetter at h
          by_cases hl : f.letter = '%'
          · rw [if_pos hl] at h
            cases hr : formatFrom U .text rest args with
            | error e => rw [hr] at h; cases h
            | ok out' =>
              rw [hr] at h
              simp only [Except.map, Except.ok.injEq] at h
              subst h
              obtain ⟨ps, h1, h2, h3⟩ := ih _ hlen rest args out' hr rfl
              refine ⟨.field f :: ps, ?_, ?_, .percent f hl h3⟩
              · intro p hp; rcases List.mem_cons.mp hp with rfl | hp
                · exact hf
                · exact h1 p hp
              · rw [List.flatMap_cons, ← h2]; exact hsrc
          · rw [if_neg hl] at h
            cases args with
            | nil => cases h
            | cons a args =>
              simp only at h
              cases hcv : convertText U f.conversion f.letter a with
              | error e => rw [hcv] at h; cases h
              | ok s' =>
                rw [hcv] at h
                simp only at h
                cases hr : formatFrom U .text rest args with
                | error e => rw [hr] at h; cases h
                | ok out' =>
                  rw [hr] at h
                  simp only [Except.map, Except.ok.injEq] at h
                  subst h
                  obtain ⟨ps, h1, h2, h3⟩ := ih _ hlen rest args out' hr rfl
                  refine ⟨.field f :: ps, ?_, ?_, .field f hl a _ ((convertText_shows hl).mp ⟨s', hcv, rfl⟩) h3⟩
                  · intro p hp; rcases List.mem_cons.mp hp with rfl | hp
                    · exact hf
                    · exact h1 p hp
                  · rw [List.flatMap_cons, ← h2]; exact hsrc
        · rw [formatFrom, if_neg hc] at h
          cases hr : formatFrom U .text cs args with
          | error e => rw [hr] at h; cases h
          | ok out' =>
            rw [hr] at h
            simp only [Except.map, Except.ok.injEq] at h
            subst h
            obtain ⟨ps, h1, h2, h3⟩ := ih cs.length (by simp at hn; omega) cs args out' hr rfl
            refine ⟨.char c :: ps, ?_, ?_, .char c h3⟩
            · intro p hp; rcases List.mem_cons.mp hp with rfl | hp
              · exact hc
              · exact h1 p hp
            · rw [List.flatMap_cons, ← h2]; rfl
  · rintro ⟨ps, h1, rfl, h3⟩
    induction h3 with
    | nil => rfl
    | char c _ ih =>
      rw [List.flatMap_cons]
      have hc : c ≠ '%' := h1 (.char c) (by simp)
      show formatFrom U .text (c :: List.flatMap TextPart.source _) _ = _
      rw [formatFrom, if_neg hc, ih (fun p hp => h1 p (by simp [hp]))]; rfl
    | percent f hl _ ih =>
      rw [List.flatMap_cons]
      have hf : f.Valid := h1 (.field f) (by simp)
      show formatFrom U .text (f.source ++ _) _ = _
      rw [formatFrom_field U hf]; unfold atLetter; rw [if_pos hl, ih (fun p hp => h1 p (by simp [hp]))]; rfl
    | field f hl text shown hs _ ih =>
      rw [List.flatMap_cons]
      have hf : f.Valid := h1 (.field f) (by simp)
      obtain ⟨s', hcv, rfl⟩ := (convertText_shows hl).mpr hs
      show formatFrom U .text (f.source ++ _) _ = _
      rw [formatFrom_field U hf]; unfold atLetter; rw [if_neg hl]
      simp only [hcv]
      rw [ih (fun p hp => h1 p (by simp [hp]))]; rfl

theorem formatFrom_error {U : PyUni} {s : Str} {e : PyErr} : ∀ {pos : FormatPos} {args : List Str}, formatFrom U pos s args = .error e →
    e = .TypeError ∨ e = .ValueError := by
  have hmap : ∀ {r : Except PyErr Str} {g : Str → Str}, r.map g = .error e → r = .error e := by
    intro r g h; cases r <;> simp_all [Except.map]
  have hsz : ∀ v c e, sizeStep v c = .error e → False := by
    intro v c e h; unfold sizeStep at h; split at h <;> cases h
  have hdt : ∀ v c e, dotStep v c = .error e → False := by
    intro v c e h; unfold dotStep at h; split at h
    · cases h
    · exact hsz _ _ _ h
  have hst : ∀ pos c e, formatStep pos c = .error e → e = .TypeError ∨ e = .ValueError := by
    intro pos c e h
    cases pos <;> simp only [formatStep, formatStep.formatFlags, formatStep.formatPrecision] at h <;> grind
  have hcv : ∀ v c a e, convertText U v c a = .error e → e = .TypeError ∨ e = .ValueError := by
    intro v c a e h; unfold convertText at h; grind
  induction s with
  | nil =>
    intro pos args h
    by_cases hp : pos = .text
    · subst hp; cases args <;> rw [formatFrom] at h <;> cases h; exact .inl rfl
    · rw [formatFrom_nil U hp] at h; cases h; exact .inr rfl
  | cons c cs ih =>
    intro pos args h
    by_cases hp : pos = .text
    · subst hp
      rw [formatFrom] at h
      split at h
      · exact ih h
      · exact ih (hmap h)
    · rw [formatFrom_cons U hp] at h
      split at h
      · rename_i e' he; cases h; exact hst _ _ _ he
      · exact ih h
      · split at h
        · exact ih (hmap h)
        · split at h
          · cases h; exact .inl rfl
          · split at h
            · rename_i e' he; cases h; exact hcv _ _ _ _ he
            · exact ih (hmap h)

/-- C117: a template loaded from data with any text: if its variables have texts, `substitute` returns exactly what the grammar of
`%`-formatting says for these texts. -/
theorem C117_filled (U : PyUni) (data : TemplateData) (t : Template) (ht : Template.deserialize data = .ok t) (source : Str)
    (hsource : data.template = some source) (externals : Externals) (d : Dictionary) (texts : List Str)
    (htexts : t.substitutions.mapM (fun s => s.getText U externals d) = .ok texts) (out : Str) :
    t.substitute U externals d = .ok out ↔
      ∃ ps : List TextPart, (∀ p ∈ ps, p.Valid) ∧ source = ps.flatMap TextPart.source ∧ Filled U ps texts out := by
  have htt : t.template = some source := by
    unfold Template.deserialize at ht
    cases hm : data.substitutions.mapM Substitution.deserialize with
    | error e => simp [hm, bind, Except.bind] at ht
    | ok subs => simp [hm, bind, Except.bind] at ht; rw [← ht]; exact hsource
  rw [← pyFormat_iff]
  unfold Template.substitute
  rw [htexts]
  simp only [bind, Except.bind, htt]

/-- C117: and otherwise it raises `TypeError` or `ValueError`, never anything else. -/
theorem C117_errors (U : PyUni) (t : Template) (externals : Externals) (d : Dictionary) (texts : List Str)
    (htexts : t.substitutions.mapM (fun s => s.getText U externals d) = .ok texts) (e : PyErr)
    (h : t.substitute U externals d = .error e) : e = .TypeError ∨ e = .ValueError := by
  unfold Template.substitute at h
  rw [htexts] at h
  simp only [bind, Except.bind] at h
  cases htt : t.template with
  | none => rw [htt] at h; cases h; exact .inl rfl
  | some source => rw [htt] at h; exact formatFrom_error h

/-- C117: the number of variables must fit the text: with other numbers of texts it cannot be filled. -/
theorem C117_count (U : PyUni) (ps : List TextPart) (texts : List Str) (out : Str) (h : Filled U ps texts out) :
    texts.length = (ps.filter fun p => match p with | .char _ => false | .field f => decide (f.letter ≠ '%')).length := by
  induction h with
  | nil => rfl
  | char c _ ih => simpa using ih
  | percent f hl _ ih => simpa [hl] using ih
  | field f hl text shown _ _ ih => simp [hl, ih]

/-- `%-6s|%.2s|%5%%r`: padded on the right, cut, a percent sign, quoted. -/
example : pyFormat exPy (str! "%-6s|%.2s|%5%%r") [str! "дом", str! "дома", str! "it's"] = .ok (str! "дом   |до|%\"it's\"") := by decide +kernel

/-- A number is asked for; a mapping is asked for; an unfinished field. -/
example : pyFormat exPy (str! "%d") [str! "1"] = .error .TypeError ∧ pyFormat exPy (str! "%(x)s") [str! "1"] = .error .TypeError ∧
    pyFormat exPy (str! "100%") [] = .error .ValueError ∧ pyFormat exPy (str! "%y") [str! "1"] = .error .ValueError := by decide +kernel

end Utg
