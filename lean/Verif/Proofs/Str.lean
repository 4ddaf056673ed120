import Verif.Py.Str
/-! # Lemmas about Python strings -/

namespace Py

/-! ## Decimal notation -/

theorem digit_toNat {d : Nat} (h : d < 10) : (Char.ofNat ('0'.toNat + d)).isDigit = true ∧
    (Char.ofNat ('0'.toNat + d)).toNat - '0'.toNat = d := by
  have : d = 0 ∨ d = 1 ∨ d = 2 ∨ d = 3 ∨ d = 4 ∨ d = 5 ∨ d = 6 ∨ d = 7 ∨ d = 8 ∨ d = 9 := by omega
  rcases this with h | h | h | h | h | h | h | h | h | h <;> subst h <;> decide

theorem digit_decimalValue {d : Nat} (h : d < 10) : decimalValue (Char.ofNat ('0'.toNat + d)) = some d ∧
    Char.ofNat ('0'.toNat + d) ≠ '_' ∧ isIntBlank (Char.ofNat ('0'.toNat + d)) = false := by
  have : d = 0 ∨ d = 1 ∨ d = 2 ∨ d = 3 ∨ d = 4 ∨ d = 5 ∨ d = 6 ∨ d = 7 ∨ d = 8 ∨ d = 9 := by omega
  rcases this with h | h | h | h | h | h | h | h | h | h <;> subst h <;> decide

theorem digitsToNat_digit (b : Bool) (acc d : Nat) (h : d < 10) (cs : Str) :
    digitsToNat b acc (Char.ofNat ('0'.toNat + d) :: cs) = digitsToNat true (acc * 10 + d) cs := by
  obtain ⟨h1, h2, _⟩ := digit_decimalValue h
  cases b <;> simp only [digitsToNat, h2, if_false, h1]

theorem digitsToNat_natDigits (n : Nat) (b : Bool) (ys : Str) : digitsToNat b 0 (natDigits n ++ ys) = digitsToNat true n ys := by
  induction n using Nat.strongRecOn generalizing b ys with
  | _ n ih =>
    rw [natDigits]
    by_cases h : n < 10
    · rw [if_pos h, List.singleton_append, digitsToNat_digit _ _ _ h, Nat.zero_mul, Nat.zero_add]
    · rw [if_neg h, List.append_assoc, ih (n / 10) (by omega), List.singleton_append, digitsToNat_digit _ _ _ (by omega)]
      congr 1; omega

theorem natDigits_cons (n : Nat) : ∃ c cs, natDigits n = c :: cs ∧ c.isDigit = true := by
  induction n using Nat.strongRecOn with
  | _ n ih =>
    rw [natDigits]
    by_cases h : n < 10
    · rw [if_pos h]; exact ⟨_, _, rfl, (digit_toNat h).1⟩
    · obtain ⟨c, cs, he, hc⟩ := ih (n / 10) (by omega)
      rw [if_neg h, he]; exact ⟨c, _, rfl, hc⟩

theorem natDigits_allDigits (n : Nat) : ∀ c ∈ natDigits n, c.isDigit = true := by
  induction n using Nat.strongRecOn with
  | _ n ih =>
    rw [natDigits]
    by_cases h : n < 10
    · rw [if_pos h]; simp; exact (digit_toNat h).1
    · rw [if_neg h]; intro c hc
      rcases List.mem_append.mp hc with h1 | h1
      · exact ih (n / 10) (by omega) c h1
      · rw [List.mem_singleton] at h1; subst h1; exact (digit_toNat (show n % 10 < 10 by omega)).1

theorem isDigit_notBlank {c : Char} (h : c.isDigit = true) : isIntBlank c = false := by
  have h' : 48 ≤ c.toNat ∧ c.toNat ≤ 57 := by
    simp only [Char.isDigit, Bool.and_eq_true, decide_eq_true_eq] at h
    exact ⟨h.1, h.2⟩
  unfold isIntBlank
  have : c.toNat = 48 ∨ c.toNat = 49 ∨ c.toNat = 50 ∨ c.toNat = 51 ∨ c.toNat = 52 ∨ c.toNat = 53 ∨ c.toNat = 54 ∨ c.toNat = 55 ∨
    c.toNat = 56 ∨ c.toNat = 57 := by omega
  rcases this with h | h | h | h | h | h | h | h | h | h <;> rw [h] <;> decide

theorem intStrip_of {s : Str} (h1 : ∀ c, s.head? = some c → isIntBlank c = false) (h2 : ∀ c, s.getLast? = some c → isIntBlank c = false) :
    intStrip s = s := by
  unfold intStrip
  have e1 : s.dropWhile isIntBlank = s := by
    cases s with
    | nil => rfl
    | cons c cs => rw [List.dropWhile_cons, h1 c rfl]; rfl
  have e2 : s.reverse.dropWhile isIntBlank = s.reverse := by
    cases hs : s.reverse with
    | nil => rfl
    | cons c cs =>
      have : s.getLast? = some c := by rw [← List.head?_reverse, hs]; rfl
      rw [List.dropWhile_cons, h2 c this]; rfl
  rw [e1, e2, List.reverse_reverse]

theorem pyInt_pyStr (n : Int) : pyInt (pyStr n) = .ok n := by
  have hd : ∀ m : Nat, digitsToNat false 0 (natDigits m) = some m := by
    intro m
    have := digitsToNat_natDigits m false []
    rw [List.append_nil] at this
    rw [this]; rfl
  have hl : ∀ m : Nat, ∀ c, (natDigits m).getLast? = some c → isIntBlank c = false := fun m c hc =>
    isDigit_notBlank (natDigits_allDigits m c (List.mem_of_getLast? hc))
  unfold pyStr
  by_cases h : n < 0
  · rw [if_pos h]
    unfold pyInt
    obtain ⟨c, cs, he, hc⟩ := natDigits_cons n.natAbs
    have hs : intStrip ('-' :: natDigits n.natAbs) = '-' :: natDigits n.natAbs := by
      refine intStrip_of (fun c hc => by cases hc; decide) (fun c hc => hl n.natAbs c ?_)
      rw [he] at hc ⊢
      simpa using hc
    have hsd : signedDigits ('-' :: natDigits n.natAbs) = some (-(n.natAbs : Int)) := by
      simp only [signedDigits, hd]; rfl
    rw [hs, hsd]
    show Except.ok _ = _
    congr 1; omega
  · rw [if_neg h]
    unfold pyInt
    obtain ⟨c, cs, he, hc⟩ := natDigits_cons n.natAbs
    have hs : intStrip (natDigits n.natAbs) = natDigits n.natAbs := by
      refine intStrip_of (fun c' hc' => ?_) (hl n.natAbs)
      rw [he] at hc'; cases hc'; exact isDigit_notBlank hc
    have hm : c ≠ '-' := by intro h; subst h; simp at hc
    have hp : c ≠ '+' := by intro h; subst h; simp at hc
    have hsd : signedDigits (natDigits n.natAbs) = some (n.natAbs : Int) := by
      have := hd n.natAbs
      rw [he] at this ⊢
      unfold signedDigits
      split
      · simp_all
      · simp_all
      · simp [this]
    rw [hs, hsd]
    show Except.ok _ = _
    congr 1; omega

theorem pyInt_natDigits (n : Nat) : pyInt (natDigits n) = .ok (n : Int) := by
  have := pyInt_pyStr (n : Int)
  unfold pyStr at this
  rwa [if_neg (by omega), Int.natAbs_natCast] at this

theorem pyStr_injective {m n : Int} (h : pyStr m = pyStr n) : m = n := by
  have := pyInt_pyStr m
  rw [h, pyInt_pyStr] at this
  injection this with this; exact this.symm

theorem pyStr_ne_nil (n : Int) : pyStr n ≠ [] := by
  unfold pyStr; split
  · simp
  · obtain ⟨c, cs, he, _⟩ := natDigits_cons n.natAbs; rw [he]; simp

end Py
