/-
Macros of CommonMini.hpp used all over the code, on exact numbers.

Simplification: the C macros are used with `int` and `double`; here they are given for `Int`
and `Rat`. Overflow of `int` and rounding of `double` are not modelled.
-/
namespace Verif.Common

/-- `SIGN(X) ((X < 0) ? -1 : 1)`, CommonMini.hpp:55, on `int`. Note `SIGN(0) = 1`. -/
def signI (x : Int) : Int := if x < 0 then -1 else 1

/-- `SIGN(X)`, CommonMini.hpp:55, on `double`. -/
def signR (x : Rat) : Rat := if x < 0 then -1 else 1

/-- `MAX(x, y) ((y) > (x) ? (y) : (x))`, CommonMini.hpp:56. -/
def maxR (x y : Rat) : Rat := if y > x then y else x

/-- `MIN(x, y) ((y) < (x) ? (y) : (x))`, CommonMini.hpp:57. -/
def minR (x y : Rat) : Rat := if y < x then y else x

/-- `SMALL_NUMBER (1E-6)`, CommonMini.hpp:52. -/
def small : Rat := 1 / 1000000

/-- `CLAMP(x, lo, hi) MIN(hi, MAX(lo, x))`, CommonMini.hpp:62. -/
def clampR (x lo hi : Rat) : Rat := minR hi (maxR lo x)

/-- `abs` on `double`. -/
def absR (x : Rat) : Rat := if x < 0 then -x else x

/-- `ABS_LIMIT(x, y) (abs(x) > abs(y) ? (SIGN(x) * abs(y)) : x)`, CommonMini.hpp:60. -/
def absLimitR (x y : Rat) : Rat := if absR x > absR y then signR x * absR y else x

/-- `NEAR_NUMBERS(x, y) (abs((x) - (y)) < SMALL_NUMBER)`, CommonMini.hpp:65. -/
def nearNumbers (x y : Rat) : Bool := decide (absR (x - y) < small)

end Verif.Common
