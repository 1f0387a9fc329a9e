import Verif.Geom.AngleModel
import Mathlib.LinearAlgebra.Matrix.Notation
import Mathlib.LinearAlgebra.Matrix.NonsingularInverse
/-
Model of the rotations in space.
Code: EnvironmentSimulator/Modules/CommonMini/CommonMini.cpp:1668-1958.

Simplifications
* Real arithmetic. A 3x3 array is a matrix; the triple loops of the products are `*`.
* The augmented 3x6 array of `InvertMatrix3` is a pair of 3x3 matrices. In the inner loops row `k` only
  reads itself and row `i`, so the rows `k ≠ i` are updated at once.
-/
namespace Verif.Geom
open Real

/-- The rotation matrix of heading, pitch and roll, e.g. CommonMini.cpp:1681-1683 and 1749-1761. -/
noncomputable def rot (h p r : ℝ) : Matrix (Fin 3) (Fin 3) ℝ :=
  !![cos h * cos p, cos h * sin p * sin r - sin h * cos r, sin h * sin r + cos h * sin p * cos r;
    sin h * cos p, cos h * cos r + sin h * sin p * sin r, sin h * sin p * cos r - cos h * sin r;
    -sin p, cos p * sin r, cos p * cos r]

/-- "Avoid gimbal lock", e.g. CommonMini.cpp:1709-1716: a value near 0 is replaced. -/
noncomputable def clampEntry (x : ℝ) : ℝ := if |x| < small then sign x * small else x

/-- Heading, pitch and roll of a matrix, CommonMini.cpp:1709-1721 and 1873-1881. -/
noncomputable def eulerOf (m : Matrix (Fin 3) (Fin 3) ℝ) : ℝ × ℝ × ℝ :=
  (interval2PI π (atan2 (m 1 0) (clampEntry (m 0 0))),
    interval2PI π (atan2 (-m 2 0) (sqrt (m 2 1 * m 2 1 + clampEntry (m 2 2) * clampEntry (m 2 2)))),
    interval2PI π (atan2 (m 2 1) (clampEntry (m 2 2))))

/-- `R0R12EulerAngles`, CommonMini.cpp:1668-1722. -/
noncomputable def compose (h0 p0 r0 h1 p1 r1 : ℝ) : ℝ × ℝ × ℝ := eulerOf (rot h0 p0 r0 * rot h1 p1 r1)

/-- Both halves of the augmented matrix after "Make the diagonal element 1" of row `i`,
CommonMini.cpp:1796-1799. -/
noncomputable def scaleRow (i : Fin 3) (pivot : ℝ) (m : Matrix (Fin 3) (Fin 3) ℝ) :
    Matrix (Fin 3) (Fin 3) ℝ := fun k j => if k = i then m i j / pivot else m k j

/-- "Make other elements in the column zero", CommonMini.cpp:1801-1812; `f k` is `factor`. -/
noncomputable def clearColumn (i : Fin 3) (f : Fin 3 → ℝ) (m : Matrix (Fin 3) (Fin 3) ℝ) :
    Matrix (Fin 3) (Fin 3) ℝ := fun k j => if k ≠ i then m k j - f k * m i j else m k j

/-- One round of the elimination, CommonMini.cpp:1786-1813; `none` for return value -1. -/
noncomputable def gaussStep (i : Fin 3) (a : Matrix (Fin 3) (Fin 3) ℝ × Matrix (Fin 3) (Fin 3) ℝ) :
    Option (Matrix (Fin 3) (Fin 3) ℝ × Matrix (Fin 3) (Fin 3) ℝ) :=
  if a.1 i i = 0 then none
  else some
    (clearColumn i (fun k => scaleRow i (a.1 i i) a.1 k i) (scaleRow i (a.1 i i) a.1),
      clearColumn i (fun k => scaleRow i (a.1 i i) a.1 k i) (scaleRow i (a.1 i i) a.2))

/-- `InvertMatrix3`, CommonMini.cpp:1771-1824. -/
noncomputable def invert (m : Matrix (Fin 3) (Fin 3) ℝ) : Option (Matrix (Fin 3) (Fin 3) ℝ) :=
  ((gaussStep 0 (m, 1)).bind (gaussStep 1)).bind (gaussStep 2) |>.map Prod.snd

/-- `CalcRelAnglesFromRoadAndAbsAngles`, CommonMini.cpp:1826-1882. The return value of the inversion
is ignored, the inverse is then the zero matrix it was initialised with. -/
noncomputable def relAngles (hr pr rr ha pa ra : ℝ) : ℝ × ℝ × ℝ :=
  eulerOf (((invert (rot hr pr rr)).getD 0) * rot ha pa ra)

/-- `m` with "Avoid gimbal lock" applied, CommonMini.cpp:1931-1935 (also 1764-1768). -/
noncomputable def clamped (m : Matrix (Fin 3) (Fin 3) ℝ) : Matrix (Fin 3) (Fin 3) ℝ :=
  fun i j => if (i = 0 ∧ j = 0) ∨ (i = 2 ∧ j = 2) then clampEntry (m i j) else m i j

/-- `MultMatrixVector3d`, CommonMini.cpp:1884-1889. -/
def multVec (m : Matrix (Fin 3) (Fin 3) ℝ) (v : ℝ × ℝ × ℝ) : ℝ × ℝ × ℝ :=
  (m 0 0 * v.1 + m 0 1 * v.2.1 + m 0 2 * v.2.2, m 1 0 * v.1 + m 1 1 * v.2.1 + m 1 2 * v.2.2,
    m 2 0 * v.1 + m 2 1 * v.2.1 + m 2 2 * v.2.2)

/-- `RotateVec3d`, CommonMini.cpp:1906-1942. -/
noncomputable def rotateVec (h p r : ℝ) (v : ℝ × ℝ × ℝ) : ℝ × ℝ × ℝ := multVec (clamped (rot h p r)) v

/-- `InverseRotateVec3d`, CommonMini.cpp:1944-1959. -/
noncomputable def inverseRotateVec (h p r : ℝ) (v : ℝ × ℝ × ℝ) : ℝ × ℝ × ℝ :=
  (v.1 * (cos h * cos p) + v.2.1 * (sin h * cos p) + v.2.2 * (-sin p),
    v.1 * (cos h * sin p * sin r - sin h * cos r) + v.2.1 * (sin h * sin p * sin r + cos h * cos r)
      + v.2.2 * (cos p * sin r),
    v.1 * (cos h * sin p * cos r + sin h * sin r) + v.2.1 * (sin h * sin p * cos r - cos h * sin r)
      + v.2.2 * (cos p * cos r))

end Verif.Geom
