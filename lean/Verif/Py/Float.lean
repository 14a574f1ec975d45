import Mathlib.Data.Rat.Floor
import Mathlib.Tactic.NormNum
import Mathlib.Tactic.Linarith
import Mathlib.Tactic.Positivity
import Mathlib.Tactic.Ring
import Mathlib.Tactic.FieldSimp

/-!
# Python numbers

Python `int` is modelled by `ℤ`, Python `float` by the rational number it denotes.  Every
floating point operation of the code is modelled by the exact rational operation followed by
`fl`, the IEEE-754 binary64 rounding (round to nearest, ties to even).

Simplification: the exponent range is unbounded (no overflow to infinity, no subnormal numbers,
no NaN, no signed zero).  All numbers met in the modelled code are below `2^40` in absolute value
and either zero or far above the subnormal range.
-/

namespace Verif

/-- The exact power of two `2^e` as a rational number, in a form the kernel evaluates quickly. -/
def pow2 : ℤ → ℚ
  | .ofNat n => ((2 ^ n : ℕ) : ℚ)
  | .negSucc n => 1 / ((2 ^ (n + 1) : ℕ) : ℚ)

/-- Binary exponent: for `x ≠ 0` the unique `e` with `2^e ≤ |x| < 2^(e+1)`. -/
def ilog2 (x : ℚ) : ℤ :=
  let e : ℤ := (Nat.log2 x.num.natAbs : ℤ) - (Nat.log2 x.den : ℤ)
  if pow2 e ≤ |x| then e else e - 1

/-- Round to the nearest integer, ties to the even one (Python's `round(x)` on a float, and the
rounding used inside IEEE-754 arithmetic). -/
def roundHalfEven (x : ℚ) : ℤ :=
  let f := ⌊x⌋
  let r := x - f
  if r < 1 / 2 then f
  else if 1 / 2 < r then f + 1
  else if f % 2 = 0 then f else f + 1

/-- IEEE-754 binary64 rounding (53 bit significand, nearest, ties to even). -/
def fl (x : ℚ) : ℚ :=
  if x = 0 then 0
  else
    let u := pow2 (ilog2 x - 52)
    roundHalfEven (x / u) * u

/-- Python's `round(x, n)` on a float: CPython rounds the exact binary value to `n` decimals
(ties to even on the exact value) and then takes the nearest float. -/
def pyRound (x : ℚ) (n : ℕ) : ℚ :=
  fl ((roundHalfEven (x * 10 ^ n) : ℚ) / 10 ^ n)

/-- Python's `x % 1` on a float: `fmod` is exact, a negative non-zero remainder is shifted up by
one (one rounding). The result can be `1.0` for tiny negative `x`. -/
def pyMod1 (x : ℚ) : ℚ :=
  if 0 ≤ x then x - ⌊x⌋
  else
    let r := x - ⌈x⌉            -- fmod(x, 1), in (-1, 0]
    if r = 0 then 0 else fl (r + 1)

/-- Python's `int(x)` on a float: truncation toward zero. -/
def pyInt (x : ℚ) : ℤ := if 0 ≤ x then ⌊x⌋ else ⌈x⌉

/-- A rational number that is a binary64 value. -/
def IsF64 (x : ℚ) : Prop := fl x = x

end Verif
