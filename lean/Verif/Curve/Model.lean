import Mathlib.Analysis.SpecialFunctions.Integrals.Basic
import Mathlib.Analysis.SpecialFunctions.Trigonometric.Arctan
import Mathlib.Analysis.SpecialFunctions.Complex.Arg

/-
Model of the plan view geometries of roads.
Code: EnvironmentSimulator/Modules/RoadManager/RoadManager.cpp:713-732 (polynomials), 823-845,
847-880 (lines, arcs), 882-985 (spirals), 1035-1110 (cubic polynomials), 1129-1214 (parametric
cubic polynomials), 9648-9692 (`Track2XYZ`, on level roads), 10310-10332 (`DistanceToDS`),
11113-11126, 12021-12036 (curvature), RoadManager.hpp:27, 234-284, 402-454 and odrSpiral.cpp:139-244.

Simplifications
* `double` is the type of real numbers; `sin`, `cos`, `sqrt`, `atan` and `atan2` are the real ones.
* `fresnel` (odrSpiral.cpp:173-217), which evaluates rational approximations of the Fresnel integrals,
  is replaced by the integrals.
* Roads without elevation and superelevation; the lane height is left out.
* In `DistanceToDS` the relocation of positions that are farther from the road than its radius is
  left out.
-/
namespace Verif.Curve

/-- `SMALL_NUMBER`, CommonMini.hpp:52. -/
noncomputable def small : ℝ := 1 / 1000000

/-- A point and a heading: the results `x`, `y` and `h` of `EvaluateDS`. -/
structure Pose where
  x : ℝ
  y : ℝ
  h : ℝ

/-- `Line::EvaluateDS`, RoadManager.cpp:823-828; `o` is the start of the geometry. -/
noncomputable def line (o : Pose) (ds : ℝ) : Pose :=
  ⟨o.x + ds * Real.cos o.h, o.y + ds * Real.sin o.h, o.h⟩

/-- `Line::EvaluateCurvatureDS`, RoadManager.hpp:247-251. -/
def lineCurvature (_ds : ℝ) : ℝ := 0

/-- `LARGE_NUMBER`, CommonMini.hpp:53. -/
noncomputable def large : ℝ := 10000000000

/-- `Arc::GetRadius`, RoadManager.cpp:830-840. -/
noncomputable def radius (k : ℝ) : ℝ := if |k| < small then large else |1 / k|

/-- `x_local`, RoadManager.cpp:865 and 871. -/
noncomputable def arcX (k angle : ℝ) : ℝ :=
  if k < 0 then Real.cos (angle + Real.pi / 2) else Real.cos (angle + 3 * (Real.pi / 2))

/-- `y_local`, RoadManager.cpp:866 and 872. -/
noncomputable def arcY (k angle : ℝ) : ℝ :=
  if k < 0 then Real.sin (angle + Real.pi / 2) - 1 else Real.sin (angle + 3 * (Real.pi / 2)) + 1

/-- `Arc::EvaluateDS`, RoadManager.cpp:847-880. -/
noncomputable def arc (o : Pose) (k ds : ℝ) : Pose :=
  if |k| < small then ⟨o.x + ds * Real.cos o.h, o.y + ds * Real.sin o.h, o.h⟩
  else
    ⟨o.x + radius k * (arcX k (ds * k) * Real.cos o.h - arcY k (ds * k) * Real.sin o.h),
      o.y + radius k * (arcX k (ds * k) * Real.sin o.h + arcY k (ds * k) * Real.cos o.h),
      o.h + ds * k⟩

/-- `Arc::EvaluateCurvatureDS`, RoadManager.hpp:269-273. -/
def arcCurvature (k _ds : ℝ) : ℝ := k

/-- The result `cca` of `fresnel`, odrSpiral.cpp:173-217. -/
noncomputable def fresnelC (t : ℝ) : ℝ := ∫ u in (0 : ℝ)..t, Real.cos (Real.pi / 2 * u ^ 2)

/-- The result `ssa` of `fresnel`, odrSpiral.cpp:173-217. -/
noncomputable def fresnelS (t : ℝ) : ℝ := ∫ u in (0 : ℝ)..t, Real.sin (Real.pi / 2 * u ^ 2)

/-- `a` of `odrSpiral`, odrSpiral.cpp:232-233. -/
noncomputable def spiralScale (cDot : ℝ) : ℝ := 1 / Real.sqrt |cDot| * Real.sqrt Real.pi

/-- `odrSpiral`, odrSpiral.cpp:228-244. -/
noncomputable def odrSpiral (s cDot : ℝ) : Pose :=
  ⟨fresnelC (s / spiralScale cDot) * spiralScale cDot,
    (if cDot < 0 then fresnelS (s / spiralScale cDot) * spiralScale cDot * (-1)
      else fresnelS (s / spiralScale cDot) * spiralScale cDot),
    s * s * cDot * (1 / 2)⟩

/-- `clothoid_type_`, RoadManager.hpp:289-294. -/
inductive Kind
  | clothoid | arc | line
deriving DecidableEq, Repr

/-- The data members of `Spiral`, RoadManager.hpp:286-372: the start of the geometry, its length,
curvatures, `c_dot_`, `s0_`, `x0_`, `y0_`, `h0_` and the type. -/
structure Spiral where
  o : Pose
  len : ℝ
  c0 : ℝ
  c1 : ℝ
  cDot : ℝ
  s0 : ℝ
  p0 : Pose
  kind : Kind

/-- The type found by the constructor, RoadManager.cpp:890-903. -/
noncomputable def spiralKind (c0 c1 : ℝ) : Kind :=
  if |c1 - c0| < small then (if |c0| < small then .line else .arc) else .clothoid

/-- `s0_`, RoadManager.cpp:906-910; it is 0 otherwise (RoadManager.hpp:367). -/
noncomputable def spiralS0 (c0 cDot : ℝ) : ℝ := if |c0| > small then c0 / cDot else 0

/-- `x0_`, `y0_` and `h0_`, RoadManager.cpp:912-919. -/
noncomputable def spiralP0 (c0 cDot : ℝ) : Pose :=
  if |c0| > small then odrSpiral (spiralS0 c0 cDot) cDot else ⟨0, 0, 0⟩

/-- The constructor of `Spiral`, RoadManager.cpp:882-921. -/
noncomputable def mkSpiral (o : Pose) (len c0 c1 : ℝ) : Spiral :=
  ⟨o, len, c0, c1, (c1 - c0) / len, spiralS0 c0 ((c1 - c0) / len), spiralP0 c0 ((c1 - c0) / len),
    spiralKind c0 c1⟩

/-- `x2`, RoadManager.cpp:961. -/
noncomputable def Spiral.x2 (g : Spiral) (p : Pose) : ℝ :=
  (p.x - g.p0.x) * Real.cos (-g.p0.h) - (p.y - g.p0.y) * Real.sin (-g.p0.h)

/-- `y2`, RoadManager.cpp:962. -/
noncomputable def Spiral.y2 (g : Spiral) (p : Pose) : ℝ :=
  (p.x - g.p0.x) * Real.sin (-g.p0.h) + (p.y - g.p0.y) * Real.cos (-g.p0.h)

/-- The transformation of the standard spiral, RoadManager.cpp:951-966. -/
noncomputable def Spiral.place (g : Spiral) (p : Pose) : Pose :=
  ⟨g.o.x + g.x2 p * Real.cos g.o.h - g.y2 p * Real.sin g.o.h,
    g.o.y + g.x2 p * Real.sin g.o.h + g.y2 p * Real.cos g.o.h,
    p.h - g.p0.h + g.o.h⟩

/-- The three cases of `Spiral::EvaluateDS`, RoadManager.cpp:937-969. -/
noncomputable def Spiral.raw (g : Spiral) (ds : ℝ) : Pose :=
  match g.kind with
  | .line => Curve.line g.o ds
  | .arc => Curve.arc g.o g.c0 ds
  | .clothoid => g.place (odrSpiral (g.s0 + ds) g.cDot)

/-- `Spiral::EvaluateDS`, RoadManager.cpp:937-969, with the limitation of line 941. -/
noncomputable def Spiral.eval (g : Spiral) (ds : ℝ) : Pose := g.raw (max (min ds g.len) 0)

/-- `Spiral::EvaluateCurvatureDS`, RoadManager.cpp:971-985. -/
noncomputable def Spiral.curvature (g : Spiral) (ds : ℝ) : ℝ :=
  match g.kind with
  | .line => 0
  | .arc => g.c0
  | .clothoid => g.c0 + ds / g.len * (g.c1 - g.c0)

/-- `Polynomial`, RoadManager.hpp:51-130. -/
structure Poly where
  a : ℝ
  b : ℝ
  c : ℝ
  d : ℝ
  scale : ℝ

/-- `Polynomial::Evaluate`, RoadManager.cpp:713-718. -/
def Poly.eval (f : Poly) (p : ℝ) : ℝ :=
  f.a + p * f.scale * f.b + p * f.scale * (p * f.scale) * f.c
    + p * f.scale * (p * f.scale) * (p * f.scale) * f.d

/-- `Polynomial::EvaluatePrim`, RoadManager.cpp:720-725. -/
def Poly.prim (f : Poly) (p : ℝ) : ℝ :=
  f.b + 2 * (p * f.scale) * f.c + 3 * (p * f.scale) * (p * f.scale) * f.d

/-- `Polynomial::EvaluatePrimPrim`, RoadManager.cpp:727-732. -/
def Poly.primPrim (f : Poly) (p : ℝ) : ℝ := 2 * f.c + 6 * (p * f.scale) * f.d

/-- A local point in the coordinate system of the start, RoadManager.cpp:1102-1103 and 1137-1138. -/
noncomputable def place (o : Pose) (u v h : ℝ) : Pose :=
  ⟨o.x + u * Real.cos o.h - v * Real.sin o.h, o.y + u * Real.sin o.h + v * Real.cos o.h, h⟩

/-- The loop of `Poly3::EvaluateDSLocal`, RoadManager.cpp:1075-1091: `n` is an upper bound of the
number of rounds left, `i` the number of the round; the result is `u`. -/
noncomputable def poly3Loop (f : Poly) (len step ds : ℝ) : Nat → Nat → ℝ → ℝ → ℝ → ℝ
  | 0, _, u, _, _ => u
  | n + 1, i, u, v, dist =>
    if i * step < len then
      if dist + Real.sqrt ((i * step - u) * (i * step - u)
          + (f.eval (i * step) - v) * (f.eval (i * step) - v)) > ds then
        (dist + Real.sqrt ((i * step - u) * (i * step - u)
            + (f.eval (i * step) - v) * (f.eval (i * step) - v)) - ds)
          / max (Real.sqrt ((i * step - u) * (i * step - u)
            + (f.eval (i * step) - v) * (f.eval (i * step) - v))) small * u
          + (1 - (dist + Real.sqrt ((i * step - u) * (i * step - u)
            + (f.eval (i * step) - v) * (f.eval (i * step) - v)) - ds)
          / max (Real.sqrt ((i * step - u) * (i * step - u)
            + (f.eval (i * step) - v) * (f.eval (i * step) - v))) small) * (i * step)
      else poly3Loop f len step ds n (i + 1) (i * step) (f.eval (i * step))
        (dist + Real.sqrt ((i * step - u) * (i * step - u)
          + (f.eval (i * step) - v) * (f.eval (i * step) - v)))
    else u

/-- `u` found by the loop; the number of rounds is that of the loop. -/
noncomputable def poly3U (f : Poly) (len ds : ℝ) : ℝ :=
  poly3Loop f len (min 10 ds) ds (Nat.ceil (len / min 10 ds) + 1) 0 0 0 0

/-- `umax_`, RoadManager.cpp:1039-1046: there `ds` is not greater than `length_ - SMALL_NUMBER`. -/
noncomputable def poly3Max (f : Poly) (len : ℝ) : ℝ :=
  if len - small > small then poly3U f len (len - small) else 0

/-- `Poly3::EvaluateDSLocal`, RoadManager.cpp:1061-1093. -/
noncomputable def poly3Local (f : Poly) (len ds : ℝ) : ℝ × ℝ :=
  if ds > len - small then (poly3Max f len, f.eval (poly3Max f len))
  else if ds > small then (poly3U f len ds, f.eval (poly3U f len ds))
  else (0, 0)

/-- `Poly3::EvaluateDS`, RoadManager.cpp:1095-1105. -/
noncomputable def poly3 (o : Pose) (f : Poly) (len ds : ℝ) : Pose :=
  place o (poly3Local f len ds).1 (poly3Local f len ds).2
    (o.h + Real.arctan (f.prim (poly3Local f len ds).1))

/-- `Poly3::EvaluateCurvatureDS`, RoadManager.cpp:1107-1110. -/
def poly3Curvature (f : Poly) (ds : ℝ) : ℝ := f.primPrim ds

/-- A parametric cubic polynomial: start, length, coefficients of `poly3U_` and `poly3V_`, and whether
the range of the parameter is normalized. -/
structure Param where
  o : Pose
  len : ℝ
  u : Poly
  v : Poly
  normalized : Bool

/-- The polynomials as set by the constructor, RoadManager.hpp:431-432. -/
noncomputable def mkParam (o : Pose) (len aU bU cU dU aV bV cV dV : ℝ) (normalized : Bool) : Param :=
  ⟨o, len, ⟨aU, bU, cU, dU, if normalized then 1 / len else 1⟩,
    ⟨aV, bV, cV, dV, if normalized then 1 / len else 1⟩, normalized⟩

/-- `PARAMPOLY3_STEPS`, RoadManager.hpp:27. -/
def steps : Nat := 100

/-- `p_step_len`, RoadManager.cpp:1165-1171. -/
noncomputable def Param.pStep (g : Param) : ℝ := if g.normalized then 1 / steps else g.len / steps

/-- `integrator`, RoadManager.cpp:1180-1181. -/
noncomputable def Param.speed (g : Param) (pm : ℝ) : ℝ :=
  Real.sqrt ((3 * g.u.d * pm * pm + 2 * g.u.c * pm + g.u.b) ^ 2
    + (3 * g.v.d * pm * pm + 2 * g.v.c * pm + g.v.b) ^ 2)

/-- `len` after round `i` of the first loop, RoadManager.cpp:1173-1185; `p` is `i * p_step_len`. -/
noncomputable def Param.lenAt (g : Param) : Nat → ℝ
  | 0 => 0
  | i + 1 => g.lenAt i + g.pStep * g.speed ((i + 1 : Nat) * g.pStep - 1 / 2 * g.pStep)

/-- `s2p_map_[i][0]`, RoadManager.cpp:1187-1194. -/
noncomputable def Param.mapS (g : Param) (i : Nat) : ℝ := g.lenAt i * (g.len / g.lenAt steps)

/-- `s2p_map_[i][1]`, RoadManager.cpp:1194. -/
noncomputable def Param.mapP (g : Param) (i : Nat) : ℝ := i * g.len / steps

/-- The loop of `S2P` from round `i`, RoadManager.cpp:1200-1208; `n` is the number of rounds left. -/
noncomputable def Param.s2pLoop (g : Param) (s : ℝ) : Nat → Nat → ℝ
  | 0, _ => g.mapP steps
  | n + 1, i =>
    if g.mapS (i + 1) > s then
      g.mapP i + (s - g.mapS i) / (g.mapS (i + 1) - g.mapS i) * (g.mapP (i + 1) - g.mapP i)
    else g.s2pLoop s n (i + 1)

/-- `ParamPoly3::S2P`, RoadManager.cpp:1197-1208. -/
noncomputable def Param.s2p (g : Param) (s : ℝ) : ℝ := g.s2pLoop s steps 0

/-- The pose at a value of the parameter, RoadManager.cpp:1134-1139. -/
noncomputable def Param.at (g : Param) (p : ℝ) : Pose :=
  place g.o (g.u.eval p) (g.v.eval p) (g.o.h + Complex.arg ⟨g.u.prim p, g.v.prim p⟩)

/-- `ParamPoly3::EvaluateDS`, RoadManager.cpp:1129-1140. -/
noncomputable def Param.eval (g : Param) (ds : ℝ) : Pose := g.at (g.s2p ds)

/-- `ParamPoly3::EvaluateCurvatureDS`, RoadManager.cpp:1142-1159. -/
noncomputable def Param.curvature (g : Param) (ds : ℝ) : ℝ :=
  if (g.u.prim ds ^ 2 + g.v.prim ds ^ 2) ^ (3 / 2 : ℝ) < small then 0
  else (g.u.prim ds * g.v.primPrim ds - g.v.prim ds * g.u.primPrim ds)
    / (g.u.prim ds ^ 2 + g.v.prim ds ^ 2) ^ (3 / 2 : ℝ)

/-- `Track2XYZ` on a level road, RoadManager.cpp:9671-9682: the place at lateral distance `t` from the
reference line; pitch and roll are 0, so that the rotation is that by the heading. -/
noncomputable def beside (p : Pose) (t : ℝ) : Pose :=
  ⟨p.x + (Real.cos p.h * 0 - Real.sin p.h * t), p.y + (Real.sin p.h * 0 + Real.cos p.h * t), p.h⟩

/-- `DistanceToDS`, RoadManager.cpp:10310-10332. -/
noncomputable def distanceToDS (k t ds : ℝ) : ℝ :=
  if |k| > small then ds * (1 / (1 - k * t)) else ds

/-- The curvature reported for a lane, RoadManager.cpp:12023-12034. -/
noncomputable def laneCurvature (k t : ℝ) : ℝ := if |k| > small then 1 / (1 / k - t) else k

end Verif.Curve
