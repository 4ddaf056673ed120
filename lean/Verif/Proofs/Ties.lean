import Verif.Proofs.Autofill
/-! # Rounding never decides a tie between two slots of the library's own tables -/

namespace Utg
open Py Spec

/-- The pairs of match patterns of length at most 6 with equal exact scores of which the second has the larger float
similarity. -/
def roundingPairs : List (List Bool × List Bool) :=
  [([true, false, true, false, true], [false, true, true, true, false]),
   ([true, false, true, false, true, false], [false, true, true, true, false, false]),
   ([true, true, false, false, false, true], [false, true, true, true, false, false]),
   ([true, true, false, false, false, true], [true, false, true, false, true, false]),
   ([true, false, true, true, false, true], [false, true, true, true, true, false]),
   ([true, true, false, false, true, true], [false, true, true, true, true, false])]

theorem roundingPairs_complete (n : Nat) (hn : n ≤ 6) : ∀ xs ∈ boolLists n, ∀ ys ∈ boolLists n,
    bitsScore 0 xs = bitsScore 0 ys → bitsSim 0 0 xs < bitsSim 0 0 ys → (xs, ys) ∈ roundingPairs := by
  have : n = 0 ∨ n = 1 ∨ n = 2 ∨ n = 3 ∨ n = 4 ∨ n = 5 ∨ n = 6 := by omega
  rcases this with rfl | rfl | rfl | rfl | rfl | rfl | rfl <;> decide +kernel

/-- Two optional records are equal, by their numbers. -/
def sameRec : Option Rec → Option Rec → Bool
  | none, none => true
  | some x, some y => Nat.beq x.ctorIdx y.ctorIdx
  | _, _ => false

theorem sameRec_eq (x y : Option Rec) : sameRec x y = decide (x = y) := by
  cases x with
  | none => cases y <;> rfl
  | some x => cases y with
    | none => rfl
    | some y =>
      simp only [sameRec, Option.some.injEq]
      rcases hb : Nat.beq x.ctorIdx y.ctorIdx with _ | _
      · have : x ≠ y := by rintro rfl; rw [Nat.beq_refl] at hb; cases hb
        simp [this]
      · have h := Nat.eq_of_beq_eq_true hb
        have : x = y := by rw [← Rec.ofNat_ctorIdx x, h, Rec.ofNat_ctorIdx y]
        simp [this]

/-- The pattern of agreement of two keys as one number. -/
def bitsCode : List Bool → Nat
  | [] => 1
  | b :: bs => cond b (Nat.succ (Nat.mul 2 (bitsCode bs))) (Nat.mul 2 (bitsCode bs))

def matchCode : Key → Key → Nat
  | k :: ks, a :: as => cond (sameRec k a) (Nat.succ (Nat.mul 2 (matchCode ks as))) (Nat.mul 2 (matchCode ks as))
  | _, _ => 1

theorem matchCode_eq (k a : Key) : matchCode k a = bitsCode (matchBits k a) := by
  induction k generalizing a with
  | nil => cases a <;> rfl
  | cons x xs ih => cases a with
    | nil => rfl
    | cons y ys => simp only [matchCode, matchBits, bitsCode, sameRec_eq, ih]

/-- No `q` stands after a `p`. -/
def noneAfter (p q : Nat) : Bool → List Nat → Bool
  | _, [] => true
  | seen, c :: cs => !(seen && Nat.beq c q) && noneAfter p q (seen || Nat.beq c p) cs

theorem noneAfter_seen {p q : Nat} {cs : List Nat} (h : noneAfter p q true cs = true) : q ∉ cs := by
  induction cs with
  | nil => simp
  | cons c cs ih =>
    simp only [noneAfter, Bool.true_and, Bool.true_or, Bool.and_eq_true, Bool.not_eq_true'] at h
    have : q ≠ c := by rintro rfl; rw [Nat.beq_refl] at h; exact absurd h.1 (by simp)
    simp [this, ih h.2]

theorem noneAfter_spec {p q : Nat} {cs : List Nat} {seen : Bool} (h : noneAfter p q seen cs = true) {i j : Nat} (hi : cs[i]? = some p)
    (hj : cs[j]? = some q) : j ≤ i := by
  by_contra hlt
  induction cs generalizing i j seen with
  | nil => simp at hi
  | cons c cs ih =>
    simp only [noneAfter, Bool.and_eq_true] at h
    cases j with
    | zero => omega
    | succ j => cases i with
      | zero =>
        simp only [List.getElem?_cons_zero, Option.some.injEq] at hi
        subst hi
        rw [Nat.beq_refl, Bool.or_true] at h
        exact noneAfter_seen h.2 (List.mem_of_getElem? (by simpa using hj))
      | succ i => exact ih h.2 (by simpa using hi) (by simpa using hj) (by omega)

/-- The pairs of `roundingPairs` as numbers. -/
def roundingCodes : List (Nat × Nat) := [(53, 46), (85, 78), (99, 78), (99, 85), (109, 94), (115, 94)]

theorem roundingCodes_eq : roundingPairs.map (fun p => (bitsCode p.1, bitsCode p.2)) = roundingCodes := by decide +kernel

/-- No slot sees a lower slot with the first pattern and a higher one with the second. -/
def tiesFollowSlotOrder (ks : List Key) : Bool :=
  ks.all fun k => roundingCodes.all fun p => noneAfter p.1 p.2 false (ks.map (matchCode k))

set_option maxHeartbeats 4000000 in
theorem tiesFollowSlotOrder_all (t : WordType) : tiesFollowSlotOrder (invertedCache t) = true := by
  cases t <;> decide +kernel

theorem similarity_tie {t : WordType} {k a b : Key} {i j : Nat} (hk : k ∈ invertedCache t)
    (ha : (invertedCache t)[i]? = some a) (hb : (invertedCache t)[j]? = some b) (hij : i < j)
    (hs : score k a = score k b) : similarity k b ≤ similarity k a := by
  have hlen : ∀ x ∈ invertedCache t, x.length = t.schema.length := fun x hx => (invertedCache_fits hx).length_eq
  have hn : t.schema.length ≤ 6 := by cases t <;> decide
  have hla := hlen a (List.mem_of_getElem? ha)
  have hlb := hlen b (List.mem_of_getElem? hb)
  have hlk := hlen k hk
  by_contra hlt
  rw [Nat.not_le] at hlt
  unfold score at hs
  unfold similarity at hlt
  rw [scoreFrom_bits, scoreFrom_bits] at hs
  rw [similarityFrom_bits, similarityFrom_bits] at hlt
  have h1 : (matchBits k a).length = t.schema.length := by rw [matchBits_length]; omega
  have h2 : (matchBits k b).length = t.schema.length := by rw [matchBits_length]; omega
  have hmem := roundingPairs_complete _ hn _ (mem_boolLists h1) _ (mem_boolLists h2) hs hlt
  have hall := tiesFollowSlotOrder_all t
  unfold tiesFollowSlotOrder at hall
  simp only [List.all_eq_true] at hall
  have hcode : (bitsCode (matchBits k a), bitsCode (matchBits k b)) ∈ roundingCodes := by
    rw [← roundingCodes_eq]; exact List.mem_map_of_mem (f := fun p : List Bool × List Bool => (bitsCode p.1, bitsCode p.2)) hmem
  have := noneAfter_spec (hall k hk _ hcode) (i := i) (j := j) (by simp [List.getElem?_map, ha, matchCode_eq])
    (by simp [List.getElem?_map, hb, matchCode_eq])
  omega

end Utg
