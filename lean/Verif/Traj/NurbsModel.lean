import Verif.Traj.PolyModel
/-
Model of NURBS trajectories: EnvironmentSimulator/Modules/RoadManager/RoadManager.cpp 13662-13692
(`CoxDeBoor`), 13880-13962 (`EvaluateInternal`).

Simplifications: doubles are exact rationals; only one coordinate of the position is kept (x; y is the
same), z and the angles are left out.  The knots and the control points are functions of the index; a curve
has `n` control points and `n + order` knots and no other index is read.
-/
namespace Verif.Traj

/-- `NurbsShape::CoxDeBoor`, RoadManager.cpp 13662-13692; `k` is one less than the argument `k` of the
code. -/
def cox (t : Nat → Rat) (x : Rat) : Nat → Nat → Rat
  | 0, i => if t i ≤ x ∧ x < t (i + 1) then 1 else 0
  | k + 1, i =>
    (if t (i + k + 1) - t i > 0 then (x - t i) / (t (i + k + 1) - t i) * cox t x k i else 0) +
    (if t (i + k + 2) - t (i + 1) > 0 then
      (t (i + k + 2) - x) / (t (i + k + 2) - t (i + 1)) * cox t x k (i + 1) else 0)

/-- A loop that adds up. -/
def sumTo (f : Nat → Rat) : Nat → Rat
  | 0 => 0
  | n + 1 => sumTo f n + f n

/-- A control point: coordinate and weight. -/
structure Ctrl where
  x : Rat
  w : Rat

/-- `NurbsShape`: degree (`order_` - 1), control points and knots. -/
structure Nurbs where
  deg : Nat
  n : Nat
  ctrl : Nat → Ctrl
  knot : Nat → Rat

/-- The parameter in use, RoadManager.cpp 13887. -/
def Nurbs.param (c : Nurbs) (t : Rat) : Rat := clamp t (c.knot 0) (c.knot (c.n + c.deg) - small)

/-- `d_[i]`. -/
def Nurbs.d (c : Nurbs) (t : Rat) (i : Nat) : Rat := cox c.knot (c.param t) c.deg i

/-- `rationalWeight`, RoadManager.cpp 13889-13895. -/
def Nurbs.weight (c : Nurbs) (t : Rat) : Rat := sumTo (fun i => c.d t i * (c.ctrl i).w) c.n

/-- Whether `cur_ctrlp_index` gets set, RoadManager.cpp 13897-13901, with `ctrlPoint_[i].t_` being
`knot_[i + order_ - 1]`. -/
def Nurbs.hasIndex (c : Nurbs) (t : Rat) : Bool :=
  (List.range c.n).any fun i => decide (c.param t > c.knot (i + c.deg) - small)

/-- `NurbsShape::EvaluateInternal`, RoadManager.cpp 13880-13935.  `none`: the index of the current control
point is not set and is used to read from the control points. -/
def Nurbs.eval (c : Nurbs) (t : Rat) : Option Rat :=
  if !c.hasIndex t && (List.range c.n).any (fun i => decide (c.d t i > small)) then none
  else some (sumTo (fun i => if c.d t i > small then c.d t i * (c.ctrl i).x * (c.ctrl i).w / c.weight t else 0) c.n)

/-- The knots made up when none are given, ScenarioReader.cpp 1483-1501. -/
def autoKnot (deg n i : Nat) : Rat :=
  if i < deg + 1 then 0 else if n ≤ i then 1 else ((i - deg : Nat) : Rat) / ((n - deg : Nat) : Rat)

/-- The curve with these knots. -/
def autoNurbs (deg n : Nat) (ctrl : Nat → Ctrl) : Nurbs := ⟨deg, n, ctrl, autoKnot deg n⟩

end Verif.Traj
