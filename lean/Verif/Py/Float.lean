import Mathlib.Data.Rat.Floor
import Mathlib.Algebra.Order.Field.Rat
import Verif.Py.Str

/-!
# IEEE-754 binary64 arithmetic on rationals

Python floats are modelled by the rational numbers they denote. `fl` rounds a
rational to the nearest binary64 number, ties to even, with gradual underflow;
a float operation `a ⊕ b` is `fl (a + b)`. Overflow, infinities, NaN and the
sign of zero are not modelled.
-/

namespace Slate.Py

/-- Round `n / d` to the nearest natural number, ties to even. -/
def rhe (n d : Nat) : Nat :=
  let q := n / d
  let r := n % d
  if 2 * r < d then q else if d < 2 * r then q + 1 else if q % 2 = 0 then q else q + 1

/-- `⌊log₂ (n / d)⌋` for positive `n`, `d`. -/
def flog2 (n d : Nat) : Int :=
  let k : Int := (n.log2 : Int) - (d.log2 : Int)
  -- 2^(k-1) < n/d < 2^(k+1)
  if 0 ≤ k then
    if d * 2 ^ k.toNat ≤ n then k else k - 1
  else
    if d ≤ n * 2 ^ (-k).toNat then k else k - 1

/-- Exponent of the unit in the last place for a number with `⌊log₂⌋ = e`. -/
def ulpExp (e : Int) : Int := max (e - 52) (-1074)

/-- Rounding of the positive rational `n / d`. -/
def flPos (n d : Nat) : Rat :=
  let u := ulpExp (flog2 n d)
  if 0 ≤ u then ((rhe n (d * 2 ^ u.toNat) * 2 ^ u.toNat : Nat) : Rat)
  else mkRat (rhe (n * 2 ^ (-u).toNat) d) (2 ^ (-u).toNat)

/-- Rounding to binary64 (nearest, ties to even). -/
def fl (q : Rat) : Rat :=
  if q.num = 0 then 0
  else if 0 < q.num then flPos q.num.toNat q.den
  else -(flPos (-q.num).toNat q.den)

/-- `int(x)` of a float: truncation towards zero. -/
def truncate (q : Rat) : Int := q.num.tdiv q.den

end Slate.Py
