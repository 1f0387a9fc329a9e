import Mathlib.Algebra.Order.Floor.Ring
import Mathlib.Data.Rat.Floor
import Mathlib.Analysis.SpecialFunctions.Complex.Arg
/-
Model of the angle functions.
Code: EnvironmentSimulator/Modules/CommonMini/CommonMini.cpp:336-429.

Simplifications
* The functions are defined over any ordered field with a floor function and for any value of the
  constant `M_PI`, so that theorems apply to the rationals with the double constant `M_PI` and to the
  real numbers with the exact one. `fmod` is exact, as in IEEE 754; sums are exact, except that
  `interval2PIRnd` rounds the one sum of `GetAngleInInterval2PI`.
* `-0.0` is the same as `0.0`; infinities and NaN are left out.
* `atan2(y, x)` is the argument of `x + iy`.
-/
namespace Verif.Geom

section
variable {K : Type} [Field K] [LinearOrder K] [FloorRing K]

/-- `trunc`, rounding towards zero. -/
def truncZ (x : K) : ℤ := if x < 0 then ⌈x⌉ else ⌊x⌋

/-- The C library function `fmod`. -/
def fmod (x m : K) : K := x - m * truncZ (x / m)

/-- `GetAngleInInterval2PI`, CommonMini.cpp:399-413, with a rounding of the sum in line 405. -/
def interval2PIRnd (rnd : K → K) (pi angle : K) : K :=
  if fmod angle (2 * pi) < 0 then rnd (fmod angle (2 * pi) + 2 * pi) else fmod angle (2 * pi)

/-- `GetAngleInInterval2PI`, CommonMini.cpp:399-413. -/
def interval2PI (pi angle : K) : K := interval2PIRnd id pi angle

/-- The correction common to `GetAngleDifference` (CommonMini.cpp:376-383) and
`GetAngleInIntervalMinusPIPlusPI` (CommonMini.cpp:419-426). -/
def wrapPi (pi diff : K) : K :=
  if diff < -pi then diff + 2 * pi else if diff > pi then diff - 2 * pi else diff

/-- `GetAngleInIntervalMinusPIPlusPI`, CommonMini.cpp:415-429. -/
def intervalPI (pi angle : K) : K := wrapPi pi (fmod angle (2 * pi))

/-- `GetAngleDifference`, CommonMini.cpp:372-386. -/
def angleDiff (pi angle1 angle2 : K) : K := wrapPi pi (fmod (angle1 - angle2) (2 * pi))

/-- The correction of the sign in `GetAbsAngleDifference`, CommonMini.cpp:359-362. -/
def liftNeg (pi diff : K) : K := if diff < 0 then diff + 2 * pi else diff

/-- `GetAbsAngleDifference`, CommonMini.cpp:355-370. -/
def absAngleDiff (pi angle1 angle2 : K) : K :=
  interval2PI pi (if liftNeg pi (fmod (angle1 - angle2) (2 * pi)) > pi
    then 2 * pi - liftNeg pi (fmod (angle1 - angle2) (2 * pi))
    else liftNeg pi (fmod (angle1 - angle2) (2 * pi)))

/-- `GetAngleSum`, CommonMini.cpp:394-397. -/
def angleSum (pi angle1 angle2 : K) : K := interval2PI pi (angle1 + angle2)

/-- `IsAngleForward`, CommonMini.cpp:388-392. -/
def isForward (pi teta : K) : Bool :=
  !(decide (interval2PI pi teta > pi / 2) && decide (interval2PI pi teta < 3 * (pi / 2)))

end

/-- `SMALL_NUMBER`, CommonMini.hpp:52. -/
noncomputable def small : ℝ := 1 / 1000000

/-- `SIGN(X) ((X < 0) ? -1 : 1)`, CommonMini.hpp:55. -/
noncomputable def sign (x : ℝ) : ℝ := if x < 0 then -1 else 1

/-- `atan2`. -/
noncomputable def atan2 (y x : ℝ) : ℝ := Complex.arg ⟨x, y⟩

/-- `if (angle < 0.0) angle += 2 * M_PI`, CommonMini.cpp:348-351. -/
noncomputable def liftAngle (a : ℝ) : ℝ := if a < 0 then a + 2 * Real.pi else a

/-- `GetAngleOfVector`, CommonMini.cpp:336-353. -/
noncomputable def angleOfVector (x y : ℝ) : ℝ :=
  if |x| < small then
    if |y| < small then 0 else liftAngle (atan2 y (sign x * small))
  else liftAngle (atan2 y x)

/-- The double constant `2 * M_PI` of math.h. -/
def twoMPI : ℚ := 7074237752028440 / 2 ^ 50

/-- Rounding to the nearest double for values from 4 to 8, where doubles are multiples of 2^-50
(to the even multiple in the middle). -/
def roundDouble (x : ℚ) : ℚ :=
  if x * 2 ^ 50 - ⌊x * 2 ^ 50⌋ < 1 / 2 then ⌊x * 2 ^ 50⌋ / 2 ^ 50
  else if x * 2 ^ 50 - ⌊x * 2 ^ 50⌋ > 1 / 2 then (⌊x * 2 ^ 50⌋ + 1) / 2 ^ 50
  else if ⌊x * 2 ^ 50⌋ % 2 = 0 then ⌊x * 2 ^ 50⌋ / 2 ^ 50 else (⌊x * 2 ^ 50⌋ + 1) / 2 ^ 50

end Verif.Geom
