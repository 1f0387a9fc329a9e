import Mathlib.Analysis.SpecialFunctions.Trigonometric.Basic

/-
Model of `OSCPrivateAction::TransitionDynamics`, the interpolation used by speed, lane change and
lane offset actions.
Code: EnvironmentSimulator/Modules/ScenarioEngine/OSCTypeDefs/OSCPrivateAction.cpp:59-294 and
OSCPrivateAction.hpp:58-141.

Simplifications
* `double` is the type of real numbers: no rounding, no NaN and no infinities; `M_PI`, `sin`,
  `cos` and `sqrt` are the real ones.
* `LOG_ERROR` calls have no effect.
-/
namespace Verif.Transition

/-- `DynamicsDimension`, OSCPrivateAction.hpp:58-64. -/
inductive Dim
  | rate | time | distance | undefined
deriving DecidableEq, Repr

/-- `DynamicsShape`, OSCPrivateAction.hpp:66-73. -/
inductive Shape
  | linear | cubic | sinusoidal | step | undefined
deriving DecidableEq, Repr

/-- `SMALL_NUMBER (1E-6)`, CommonMini.hpp:52. -/
noncomputable def small : ℝ := 1 / 1000000

/-- `LARGE_NUMBER (1E+10)`, CommonMini.hpp:53. -/
noncomputable def large : ℝ := 10000000000

/-- `SIGN(X) ((X < 0) ? -1 : 1)`, CommonMini.hpp:55. -/
noncomputable def sign (x : ℝ) : ℝ := if x < 0 then -1 else 1

/-- `MAX(x, y) ((y) > (x) ? (y) : (x))`, CommonMini.hpp:56. -/
noncomputable def maxM (x y : ℝ) : ℝ := if y > x then y else x

/-- `MIN(x, y) ((y) < (x) ? (y) : (x))`, CommonMini.hpp:57. -/
noncomputable def minM (x y : ℝ) : ℝ := if y < x then y else x

/-- `ABS_LIMIT(x, y) (abs(x) > abs(y) ? (SIGN(x) * abs(y)) : x)`, CommonMini.hpp:60. -/
noncomputable def absLimit (x y : ℝ) : ℝ := if |x| > |y| then sign x * |y| else x

/-- `CLAMP(x, lo, hi) MIN(hi, MAX(lo, x))`, CommonMini.hpp:62. -/
noncomputable def clamp (x lo hi : ℝ) : ℝ := minM hi (maxM lo x)

/-- `AVOID_ZERO(x) (SIGN(x) * MAX(SMALL_NUMBER, fabs(x)))`, CommonMini.hpp:63. -/
noncomputable def avoidZero (x : ℝ) : ℝ := sign x * maxM small |x|

/-- The data members of `TransitionDynamics`, OSCPrivateAction.hpp:78-79, 135-140. -/
structure TD where
  shape : Shape
  dim : Dim
  startVal : ℝ
  targetVal : ℝ
  paramTargetVal : ℝ
  scaleFactor : ℝ
  paramVal : ℝ
  rate : ℝ

/-- The constructor, OSCPrivateAction.hpp:81-91. -/
noncomputable def initTD : TD := ⟨.step, .time, 0, 0, 0, 1, 0, 0⟩

/-- The test `shape_ == STEP || (dimension_ != RATE && GetParamTargetVal() < SMALL_NUMBER)` used by
`Evaluate` (OSCPrivateAction.cpp:186), `EvaluatePrim` (151) and `EvaluatePrimPeak` (67). -/
def TD.isStep (d : TD) : Prop := d.shape = .step ∨ (d.dim ≠ .rate ∧ d.paramTargetVal < small)

open Classical in
/-- `EvaluatePrimPeak`, OSCPrivateAction.cpp:59-90. -/
noncomputable def TD.primPeak (d : TD) : ℝ :=
  if d.dim = .rate then d.rate
  else if d.isStep then large * sign (d.targetVal - d.startVal)
  else match d.shape with
    | .linear => (d.targetVal - d.startVal) / avoidZero d.paramTargetVal
    | .sinusoidal => Real.pi * (d.targetVal - d.startVal) / (2 * avoidZero d.paramTargetVal)
    | .cubic => 1.5 * (d.targetVal - d.startVal) / avoidZero d.paramTargetVal
    | _ => 0

/-- `GetTargetParamValByPrimPeak`, OSCPrivateAction.cpp:92-116. -/
noncomputable def TD.paramByPrimPeak (d : TD) (peak : ℝ) : ℝ :=
  match d.shape with
  | .step => 0
  | .linear => (d.targetVal - d.startVal) / peak
  | .sinusoidal => Real.pi * (d.targetVal - d.startVal) / (2 * peak)
  | .cubic => 1.5 * (d.targetVal - d.startVal) / peak
  | .undefined => 0

/-- `GetTargetParamValByPrimPrimPeak`, OSCPrivateAction.cpp:118-146. -/
noncomputable def TD.paramByPrimPrimPeak (d : TD) (peak : ℝ) : ℝ :=
  match d.shape with
  | .step => 0
  | .linear => Real.sqrt (6 * |d.targetVal - d.startVal| / peak)
  | .sinusoidal => Real.pi * Real.sqrt (|d.targetVal - d.startVal| / (2 * peak))
  | .cubic => Real.sqrt (6 * |d.targetVal - d.startVal| / peak)
  | .undefined => 0

open Classical in
/-- `EvaluatePrim`, OSCPrivateAction.cpp:148-172. -/
noncomputable def TD.prim (d : TD) : ℝ :=
  if d.isStep then large * sign (d.targetVal - d.startVal)
  else match d.shape with
    | .linear => (d.targetVal - d.startVal) / avoidZero d.paramTargetVal
    | .sinusoidal =>
        Real.pi * (d.targetVal - d.startVal) * Real.sin (Real.pi * d.paramVal / d.paramTargetVal)
          / (2 * avoidZero d.paramTargetVal)
    | .cubic =>
        6 * (d.targetVal - d.startVal) * (d.paramTargetVal - d.paramVal) * d.paramVal
          / (avoidZero d.paramTargetVal) ^ 3
    | _ => 0

/-- `EvaluateScaledPrim`, OSCPrivateAction.cpp:174-177. -/
noncomputable def TD.scaledPrim (d : TD) : ℝ := d.prim / avoidZero d.scaleFactor

open Classical in
/-- `Evaluate(shape)`, OSCPrivateAction.cpp:180-211; `.undefined` is the default argument. -/
noncomputable def TD.evaluateAs (d : TD) (shape : Shape) : ℝ :=
  if d.isStep then d.targetVal
  else match (if shape = .undefined then d.shape else shape) with
    | .linear =>
        d.startVal + d.paramVal * (d.targetVal - d.startVal) / avoidZero d.paramTargetVal
    | .sinusoidal =>
        d.startVal - (d.targetVal - d.startVal)
          * (Real.cos (Real.pi * d.paramVal / avoidZero d.paramTargetVal) - 1) / 2
    | .cubic =>
        d.startVal + (d.targetVal - d.startVal) * (d.paramVal / avoidZero d.paramTargetVal) ^ 2
          * (3 - 2 * d.paramVal / avoidZero d.paramTargetVal)
    | _ => d.targetVal

/-- `Evaluate()`, OSCPrivateAction.cpp:180-211 with the default argument of the header (line 94). -/
noncomputable def TD.evaluate (d : TD) : ℝ := d.evaluateAs .undefined

/-- `Reset`, OSCPrivateAction.cpp:212-218. -/
noncomputable def TD.reset (d : TD) : TD :=
  { d with scaleFactor := 1, paramVal := 0, startVal := 0, targetVal := 0 }

/-- The clamping in `Step`, OSCPrivateAction.cpp:224-231. -/
noncomputable def limitParam (v target : ℝ) : ℝ :=
  if v > target then target else if v < 0 then 0 else v

/-- `Step`, OSCPrivateAction.cpp:220-234. -/
noncomputable def TD.step (d : TD) (delta : ℝ) : TD :=
  { d with paramVal := limitParam (d.paramVal + delta / d.scaleFactor) d.paramTargetVal }

/-- The assignment of the sign in `UpdateRate`, OSCPrivateAction.cpp:287. -/
noncomputable def TD.signRate (d : TD) : TD :=
  { d with rate := sign (d.targetVal - d.startVal) * |d.rate| }

open Classical in
/-- `UpdateRate`, OSCPrivateAction.cpp:284-294. -/
noncomputable def TD.updateRate (d : TD) : TD :=
  if d.dim = .rate ∧ ¬ |d.signRate.rate| < small then
    ⟨d.shape, d.dim, d.startVal, d.targetVal,
      avoidZero (d.signRate.paramByPrimPeak d.signRate.rate), d.scaleFactor, d.paramVal,
      d.signRate.rate⟩
  else d.signRate

/-- The assignment to `start_val_`, OSCPrivateAction.cpp:239. -/
def TD.putStart (d : TD) (v : ℝ) : TD := { d with startVal := v }

/-- The assignment to `target_val_`, OSCPrivateAction.cpp:245. -/
def TD.putTarget (d : TD) (v : ℝ) : TD := { d with targetVal := v }

/-- The assignment to `rate_`, OSCPrivateAction.cpp:279. -/
def TD.putRate (d : TD) (v : ℝ) : TD := { d with rate := v }

/-- `SetStartVal`, OSCPrivateAction.cpp:236-240. -/
noncomputable def TD.setStartVal (d : TD) (v : ℝ) : TD := (d.putStart v).updateRate

/-- `SetTargetVal`, OSCPrivateAction.cpp:242-246. -/
noncomputable def TD.setTargetVal (d : TD) (v : ℝ) : TD := (d.putTarget v).updateRate

/-- `SetRate`, OSCPrivateAction.cpp:276-282. -/
noncomputable def TD.setRate (d : TD) (v : ℝ) : TD := (d.putRate v).updateRate

/-- `SetParamTargetVal`, OSCPrivateAction.cpp:248-259. -/
noncomputable def TD.setParamTargetVal (d : TD) (v : ℝ) : TD :=
  if d.dim ≠ .rate then { d with paramTargetVal := v } else d.setRate v

/-- `SetMaxRate`, OSCPrivateAction.cpp:261-274. -/
noncomputable def TD.setMaxRate (d : TD) (m : ℝ) : TD :=
  if |d.primPeak| > |m| then { d with scaleFactor := |d.primPeak| / |avoidZero m| }
  else { d with scaleFactor := 1 }

/-- `ParseTransitionDynamics`, ScenarioReader.cpp:2318-2336: what the reader makes of shape,
dimension and value. -/
noncomputable def parseTD (shape : Shape) (dim : Dim) (value : ℝ) : TD :=
  (TD.setParamTargetVal ⟨shape, dim, initTD.startVal, initTD.targetVal, initTD.paramTargetVal,
    initTD.scaleFactor, initTD.paramVal, initTD.rate⟩ (if shape = .step then 0 else value))

end Verif.Transition
