/-!
# IEEE binary64 arithmetic on small non-negative values

`logic.get_nearest_key` (utg/logic.py:88-102) accumulates `1 + 0.01 * index` in Python floats, and ties are decided by
comparing the rounded sums. A float is represented by the natural number `n` standing for `n / 2^60` (plain `Nat`; the operations are named `F64.…`). That represents exactly
every binary64 value that is a multiple of `2^-60`: all normal numbers from `2^-8` on, hence every number that occurs here
(the smallest non-zero one is `0.01 > 2^-7`). Results are rounded to 53 significant bits, ties to even, as IEEE 754
prescribes; overflow does not occur in this range.
-/

namespace Py

/-- Round the exact value `n / 2^60` to 53 significant bits, ties to even. -/
def F64.round (n : Nat) : Nat :=
  if n < 2 ^ 53 then n
  else
    let u := 2 ^ (Nat.log2 n - 52)   -- one unit in the last place
    let q := n / u
    let r := n % u
    if 2 * r < u then q * u
    else if u < 2 * r then (q + 1) * u
    else if q % 2 = 0 then q * u else (q + 1) * u

/-- Float addition. -/
def F64.add (a b : Nat) : Nat := F64.round (a + b)

/-- Product of a float and a small integer converted to a float (exact conversion). -/
def F64.mulNat (a : Nat) (k : Nat) : Nat := F64.round (a * k)

/-- The float `1.0`. -/
def F64.one : Nat := 2 ^ 60

/-- The float literal `0.01`: the nearest binary64 number is `5764607523034235 / 2^59`. -/
def F64.c001 : Nat := 5764607523034235 * 2

end Py
