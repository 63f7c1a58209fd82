import Verif.Model.Execute
import Verif.Model.Lossy
import Mathlib.Algebra.Order.Field.Rat
import Mathlib.Data.Rat.Floor

/-!
# Comparison by similarity

`RelationMatcher::is_similar` (src/matcher/subfield/mod.rs:352-366) calls `normalized_levenshtein` of
the crate `strsim` 0.11 (Cargo.toml:38), which is not part of the repository; `levenshtein` and
`normScore` follow its source.  Numbers of type `f64` are modelled as rational numbers, and each
operation rounds its exact result to 53 binary digits, to the nearest, ties to even (IEEE 754).  The
smallest and largest exponent of `f64` are not modelled: no number here leaves their range.
-/

namespace Pica

/-! ## `strsim::generic_levenshtein` -/

/-- the inner loop over the elements of `b` and the entries of `cache`, for the element `x` of `a`;
`db` is `distance_b`, `res` is `result`.  Gives `result` and the new `cache`. -/
def levInner {α : Type} [DecidableEq α] (x : α) : Nat → Nat → List α → List Nat → Nat × List Nat
  | db, res, y :: b, c :: cache =>
    let da := db + if x = y then 0 else 1
    let res := min (res + 1) (min da (c + 1))
    let out := levInner x c res b cache
    (out.1, res :: out.2)
  | _, res, _, _ => (res, [])

/-- the outer loop over the elements of `a`, the first of which has the number `i` -/
def levOuter {α : Type} [DecidableEq α] (b : List α) : Nat → List α → Nat → List Nat → Nat
  | _, [], res, _ => res
  | i, x :: a, _, cache =>
    let out := levInner x i (i + 1) b cache
    levOuter b (i + 1) a out.1 out.2

/-- `generic_levenshtein(a, b)` -/
def levenshtein {α : Type} [DecidableEq α] (a b : List α) : Nat :=
  levOuter b 0 a b.length (List.range' 1 b.length)

/-! ## `f64` -/

/-- the nearest integer, ties to even -/
def roundEven (q : ℚ) : ℤ :=
  if q - ⌊q⌋ < 1 / 2 then ⌊q⌋
  else if 1 / 2 < q - ⌊q⌋ then ⌊q⌋ + 1
  else if ⌊q⌋ % 2 = 0 then ⌊q⌋ else ⌊q⌋ + 1

/-- the exponent `e` of a positive number: `2 ^ e ≤ q < 2 ^ (e + 1)` -/
def expo (q : ℚ) : ℤ :=
  let e : ℤ := (q.num.natAbs.log2 : ℤ) - (q.den.log2 : ℤ)
  if (2 : ℚ) ^ e ≤ q then e else e - 1

/-- a non-negative number rounded to 53 binary digits -/
def fl (q : ℚ) : ℚ := if q = 0 then 0 else roundEven (q / 2 ^ (expo q - 52)) * 2 ^ (expo q - 52)

/-! ## the score -/

/-- `normalized_levenshtein` on the characters of two texts -/
def normScore {α : Type} [DecidableEq α] (a b : List α) : ℚ :=
  if a = [] ∧ b = [] then 1
  else fl (1 - fl (fl (levenshtein a b) / fl (max a.length b.length : Nat)))

/-- the score of two values, subfield/mod.rs:353-363; `lower` is `str::to_lowercase` -/
def simScore (lower : Bytes → Bytes) (caseIgnore : Bool) (lhs rhs : Bytes) : ℚ :=
  if caseIgnore then normScore (utf8Chars (lower (lossyText lhs))) (utf8Chars (lower (lossyText rhs)))
  else normScore (utf8Chars (lossyText lhs)) (utf8Chars (lossyText rhs))

/-- `n as f64 / 100f64`, cli.rs:173, filter.rs:217, select.rs:138, frequency.rs:130 -/
def percentage (n : Nat) : ℚ := fl (fl n / fl 100)

/-- the functions of other crates with the numbers and the score defined above -/
def World.float (W : World) (lower : Bytes → Bytes) : World :=
  { W with
    Num := ℚ
    above := fun a b => decide (b < a)
    percent := percentage
    eighty := fl (8 / 10)
    score := simScore lower }

end Pica
