import Verif.Swarm.Model
import Verif.Geom.AngleTheorems
import Mathlib.Analysis.SpecialFunctions.Trigonometric.Deriv
import Mathlib.Analysis.SpecialFunctions.Complex.Circle
import Mathlib.Topology.Order.IntermediateValue
import Mathlib.Tactic.FieldSimp
import Mathlib.Tactic.LinearCombination
/-
The places on the ellipse where new vehicles of the swarm may appear: geometry of the ellipse and search of a zero (C158).
Code: EnvironmentSimulator/Modules/ScenarioEngine/OSCTypeDefs/OSCSwarmTrafficGeometry.cpp:40-125, 243-291 (used at 303-328).

Simplifications
* Real (or rational) numbers, exact functions. In `brent`, a division by zero in the formula with three values is not followed further.
-/
namespace Verif.Swarm
open Real

/-- `paramEllipse` (OSCSwarmTrafficGeometry.cpp:62-70). -/
noncomputable def paramEllipse (alpha h k a b hdg : ℝ) : ℝ × ℝ :=
  (a * cos alpha * cos hdg - b * sin alpha * sin hdg + h, a * cos alpha * sin hdg + b * sin alpha * cos hdg + k)

/-- `angleTangentEllipse` (OSCSwarmTrafficGeometry.cpp:81-88). -/
noncomputable def angleTangentEllipse (a b alpha hdg : ℝ) : ℝ :=
  Geom.atan2 (a * sin alpha * sin hdg - b * cos alpha * cos hdg) (a * sin alpha * cos hdg + b * cos alpha * sin hdg)

open Classical in
/-- `tangentIntersection` (OSCSwarmTrafficGeometry.cpp:105-125). -/
noncomputable def tangentIntersection (x0 y0 s0 t0 x1 y1 s1 t1 : ℝ) : ℝ × ℝ :=
  let s := if |t1 - t0| > π / 180 then ((y1 - y0) * cos t1 - (x1 - x0) * sin t1) / (cos t1 * sin t0 - cos t0 * sin t1) else s1 - s0
  (x0 + s * cos t0, y0 + s * sin t0)

section brent
variable {K : Type} [Field K] [LinearOrder K]

/-- The variables of the loop of `brent_zeros`. -/
structure BState (K : Type) where
  a : K
  b : K
  c : K
  d : K
  fa : K
  fb : K
  fc : K
  flag : Bool

/-- The next point (OSCSwarmTrafficGeometry.cpp:258-270) and whether the interval is halved. None: a division by zero that gives no usable number. With equal values `fa` and
`fb` the second formula gives an infinite number, for which the tests choose the middle. -/
def bNext (delta : K) (q : BState K) : Option (K × Bool) :=
  if q.fa = q.fb then (if q.fa ≠ q.fc ∧ q.fb ≠ q.fc then none else some ((q.a + q.b) / 2, true))
  else
    let s := if q.fa ≠ q.fc ∧ q.fb ≠ q.fc then
        (q.a * q.fb * q.fc) / ((q.fa - q.fb) * (q.fa - q.fc)) + (q.b * q.fa * q.fc) / ((q.fb - q.fa) * (q.fb - q.fc)) +
          (q.c * q.fa * q.fb) / ((q.fc - q.fa) * (q.fc - q.fb))
      else q.b - q.fb * (q.b - q.a) / (q.fb - q.fa)
    if ((3 * q.a + q.b) / 4 ≤ s ∧ s ≤ q.b) ∨ (q.flag = true ∧ |s - q.b| ≥ |q.b - q.c| / 2) ∨ (q.flag = false ∧ |s - q.b| ≥ |q.c - q.d| / 2) ∨
        (q.flag = true ∧ |q.b - q.c| < |delta|) ∨ (q.flag = false ∧ |q.c - q.d| < |delta|) then some ((q.a + q.b) / 2, true)
    else some (s, false)

/-- The loop of `brent_zeros` (OSCSwarmTrafficGeometry.cpp:256-289). None: no result after the given number of rounds. -/
def bLoop (f : K → K) (delta : K) : Nat → BState K → Option K
  | 0, _ => none
  | n + 1, q =>
    match bNext delta q with
    | none => none
    | some (s, flag) =>
      let ab := if q.fa * f s < 0 then (q.a, s) else (s, q.b)
      let ab := if |f ab.1| < |f ab.2| then (ab.2, ab.1) else ab
      if f s = 0 ∨ |ab.2 - ab.1| ≤ 1 / 1000000 then some s
      else bLoop f delta n ⟨ab.1, ab.2, q.b, q.c, f ab.1, f ab.2, f q.b, flag⟩

/-- `brent_zeros` (OSCSwarmTrafficGeometry.cpp:243-291). `some none` is the result false. The values `fa` and `fb` are exchanged, the ends of the interval are not. -/
def brent (f : K → K) (delta : K) (fuel : Nat) (a b : K) : Option (Option K) :=
  if f a * f b ≥ 0 then some none
  else
    let v := if |f a| < |f b| then (f b, f a) else (f a, f b)
    (bLoop f delta fuel ⟨a, b, a, 0, v.1, v.2, f a, true⟩).map some

end brent

/-! ### The ellipse -/

/-- C158: the sign of the measure tells the inside of the ellipse: the ellipse is the unit disc stretched by the half axes, turned and moved. -/
theorem ellipse_le_iff (h k A a b x y : ℝ) (ha : a ≠ 0) (hb : b ≠ 0) :
    ellipse h k A a b x y ≤ 0 ↔
    ∃ u v, u ^ 2 + v ^ 2 ≤ 1 ∧ x = h + (a * u * cos A - b * v * sin A) ∧ y = k + (a * u * sin A + b * v * cos A) := by
  have hcs := sin_sq_add_cos_sq A
  constructor
  · intro he
    refine ⟨((x - h) * cos A + (y - k) * sin A) / a, -((x - h) * sin A - (y - k) * cos A) / b, ?_, ?_, ?_⟩
    · unfold ellipse at he; rw [neg_div, neg_sq]; linarith
    · rw [mul_div_cancel₀ _ ha, mul_div_cancel₀ _ hb]; linear_combination (h - x) * hcs
    · rw [mul_div_cancel₀ _ ha, mul_div_cancel₀ _ hb]; linear_combination (k - y) * hcs
  · rintro ⟨u, v, huv, rfl, rfl⟩
    unfold ellipse
    have e1 : ((h + (a * u * cos A - b * v * sin A) - h) * cos A + (k + (a * u * sin A + b * v * cos A) - k) * sin A) / a = u := by
      rw [div_eq_iff ha]; linear_combination (a * u) * hcs
    have e2 : ((h + (a * u * cos A - b * v * sin A) - h) * sin A - (k + (a * u * sin A + b * v * cos A) - k) * cos A) / b = -v := by
      rw [div_eq_iff hb]; linear_combination (-b * v) * hcs
    rw [e1, e2]; linarith [neg_sq v]

/-- C158: the points with measure zero are exactly those of the curve drawn by `paramEllipse`. -/
theorem ellipse_zero_iff (h k A a b x y : ℝ) (ha : a ≠ 0) (hb : b ≠ 0) :
    ellipse h k A a b x y = 0 ↔ ∃ alpha, paramEllipse alpha h k a b A = (x, y) := by
  have hcs := sin_sq_add_cos_sq A
  constructor
  · intro he
    have hn : ‖(⟨((x - h) * cos A + (y - k) * sin A) / a, -((x - h) * sin A - (y - k) * cos A) / b⟩ : ℂ)‖ = 1 := by
      rw [Complex.norm_eq_sqrt_sq_add_sq]
      rw [Real.sqrt_eq_one]
      unfold ellipse at he; simp only; rw [neg_div, neg_sq]; linarith
    set z : ℂ := ⟨((x - h) * cos A + (y - k) * sin A) / a, -((x - h) * sin A - (y - k) * cos A) / b⟩ with hz
    have h1 := Complex.norm_mul_cos_arg z
    have h2 := Complex.norm_mul_sin_arg z
    rw [hn, one_mul] at h1 h2
    refine ⟨Complex.arg z, ?_⟩
    unfold paramEllipse
    rw [h1, h2]
    simp only [hz, Prod.mk.injEq]
    rw [mul_div_cancel₀ _ ha, mul_div_cancel₀ _ hb]
    exact ⟨by linear_combination (x - h) * hcs, by linear_combination (y - k) * hcs⟩
  · rintro ⟨al, h1⟩
    unfold paramEllipse at h1
    simp only [Prod.mk.injEq] at h1
    obtain ⟨rfl, rfl⟩ := h1
    have hal := sin_sq_add_cos_sq al
    unfold ellipse
    have e1 : ((a * cos al * cos A - b * sin al * sin A + h - h) * cos A + (a * cos al * sin A + b * sin al * cos A + k - k) * sin A) / a = cos al := by
      rw [div_eq_iff ha]; linear_combination (a * cos al) * hcs
    have e2 : ((a * cos al * cos A - b * sin al * sin A + h - h) * sin A - (a * cos al * sin A + b * sin al * cos A + k - k) * cos A) / b = -sin al := by
      rw [div_eq_iff hb]; linear_combination (-b * sin al) * hcs
    rw [e1, e2]; linear_combination hal

/-- C158: the angle of the tangent is the direction of the curve (backwards). -/
theorem tangent_direction (h k A a b al : ℝ) : ∃ r, 0 ≤ r ∧
    HasDerivAt (fun t => (paramEllipse t h k a b A).1) (-(r * cos (angleTangentEllipse a b al A))) al ∧
    HasDerivAt (fun t => (paramEllipse t h k a b A).2) (-(r * sin (angleTangentEllipse a b al A))) al := by
  obtain ⟨h1, h2⟩ := Geom.atan2_direction (a * sin al * cos A + b * cos al * sin A) (a * sin al * sin A - b * cos al * cos A)
  refine ⟨_, Real.sqrt_nonneg ((a * sin al * cos A + b * cos al * sin A) ^ 2 + (a * sin al * sin A - b * cos al * cos A) ^ 2), ?_, ?_⟩
  · unfold angleTangentEllipse paramEllipse
    rw [h1]
    have := ((((hasDerivAt_cos al).const_mul a).mul_const (cos A)).sub (((hasDerivAt_sin al).const_mul b).mul_const (sin A))).add_const h
    exact this.congr_deriv (by ring)
  · unfold angleTangentEllipse paramEllipse
    rw [h2]
    have := ((((hasDerivAt_cos al).const_mul a).mul_const (sin A)).add (((hasDerivAt_sin al).const_mul b).mul_const (cos A))).add_const k
    exact this.congr_deriv (by ring)

/-- C158: the third corner of a piece lies on both tangents if their directions differ by more than a degree and they are not parallel. -/
theorem corner_on_tangents (x0 y0 s0 t0 x1 y1 s1 t1 : ℝ) (h : |t1 - t0| > π / 180) (hp : sin (t1 - t0) ≠ 0) :
    ∃ u v, tangentIntersection x0 y0 s0 t0 x1 y1 s1 t1 = (x0 + u * cos t0, y0 + u * sin t0) ∧
      tangentIntersection x0 y0 s0 t0 x1 y1 s1 t1 = (x1 + v * cos t1, y1 + v * sin t1) := by
  have hd : cos t1 * sin t0 - cos t0 * sin t1 ≠ 0 := by
    intro h0; apply hp; rw [sin_sub]; linarith
  refine ⟨((y1 - y0) * cos t1 - (x1 - x0) * sin t1) / (cos t1 * sin t0 - cos t0 * sin t1),
    ((y1 - y0) * cos t0 - (x1 - x0) * sin t0) / (cos t1 * sin t0 - cos t0 * sin t1), ?_, ?_⟩
  · unfold tangentIntersection; rw [if_pos h]
  · unfold tangentIntersection
    simp only [if_pos h, Prod.mk.injEq]
    have hu : ((y1 - y0) * cos t1 - (x1 - x0) * sin t1) / (cos t1 * sin t0 - cos t0 * sin t1) * (cos t1 * sin t0 - cos t0 * sin t1) =
        (y1 - y0) * cos t1 - (x1 - x0) * sin t1 := div_mul_cancel₀ _ hd
    have hv : ((y1 - y0) * cos t0 - (x1 - x0) * sin t0) / (cos t1 * sin t0 - cos t0 * sin t1) * (cos t1 * sin t0 - cos t0 * sin t1) =
        (y1 - y0) * cos t0 - (x1 - x0) * sin t0 := div_mul_cancel₀ _ hd
    constructor
    · apply mul_right_cancel₀ hd
      linear_combination cos t0 * hu - cos t1 * hv
    · apply mul_right_cancel₀ hd
      linear_combination sin t0 * hu - sin t1 * hv

/-! ### The search of a zero -/

theorem ivt_zero (f : ℝ → ℝ) (hf : Continuous f) (a b : ℝ) (h : f a * f b ≤ 0) : ∃ z, f z = 0 ∧ |z - a| ≤ |b - a| ∧ |z - b| ≤ |b - a| := by
  have h0 : (0 : ℝ) ∈ Set.uIcc (f a) (f b) := by
    rw [Set.mem_uIcc]
    rcases le_total (f a) 0 with h1 | h1 <;> rcases le_total (f b) 0 with h2 | h2
    · have : f a * f b = 0 := le_antisymm h (mul_nonneg_of_nonpos_of_nonpos h1 h2)
      rcases mul_eq_zero.mp this with h3 | h3
      · right; exact ⟨h2, h3.ge⟩
      · left; exact ⟨h1, h3.ge⟩
    · left; exact ⟨h1, h2⟩
    · right; exact ⟨h2, h1⟩
    · have : f a * f b = 0 := le_antisymm h (mul_nonneg h1 h2)
      rcases mul_eq_zero.mp this with h3 | h3
      · left; exact ⟨h3.le, h2⟩
      · right; exact ⟨h3.le, h1⟩
  obtain ⟨z, hz, hz'⟩ := intermediate_value_uIcc (hf.continuousOn) h0
  refine ⟨z, hz', ?_, ?_⟩
  · exact Set.abs_sub_left_of_mem_uIcc hz
  · rw [abs_sub_comm]; exact Set.abs_sub_right_of_mem_uIcc hz

theorem loop_zero (f : ℝ → ℝ) (hf : Continuous f) (delta : ℝ) (fuel : Nat) (q : BState ℝ) (hq : q.fa = f q.a) (h : f q.a * f q.b < 0)
    (r : ℝ) (hr : bLoop f delta fuel q = some r) : ∃ z, f z = 0 ∧ |z - r| ≤ 1 / 1000000 := by
  induction fuel generalizing q with
  | zero => simp [bLoop] at hr
  | succ n ih =>
    simp only [bLoop] at hr
    cases hb : bNext delta q with
    | none => simp [hb] at hr
    | some sf =>
      obtain ⟨s, flag⟩ := sf
      simp only [hb] at hr
      rw [hq] at hr
      set ab := (if f q.a * f s < 0 then (q.a, s) else (s, q.b)) with hab
      set cd := (if |f ab.1| < |f ab.2| then (ab.2, ab.1) else ab) with hcd
      by_cases h0 : f s = 0
      · rw [if_pos (Or.inl h0)] at hr
        simp only [Option.some.injEq] at hr
        subst hr
        exact ⟨s, h0, by norm_num⟩
      · have hs : (f ab.1 * f ab.2 < 0) ∧ (s = ab.1 ∨ s = ab.2) := by
          rw [hab]
          split
          · rename_i h1; exact ⟨h1, Or.inr rfl⟩
          · rename_i h1
            refine ⟨?_, Or.inl rfl⟩
            have h2 : 0 < f q.a * f s := lt_of_le_of_ne (not_lt.mp h1) (fun h3 => by
              rcases mul_eq_zero.mp h3.symm with h4 | h4
              · rw [h4, zero_mul] at h; exact lt_irrefl _ h
              · exact h0 h4)
            show f s * f q.b < 0
            rcases pos_and_pos_or_neg_and_neg_of_mul_pos h2 with ⟨h3, h4⟩ | ⟨h3, h4⟩
            · exact mul_neg_of_pos_of_neg h4 ((pos_iff_neg_of_mul_neg h).mp h3)
            · exact mul_neg_of_neg_of_pos h4 ((neg_iff_pos_of_mul_neg h).mp h3)
        have hs' : (f cd.1 * f cd.2 < 0) ∧ (s = cd.1 ∨ s = cd.2) := by
          rw [hcd]
          split
          · exact ⟨by rw [mul_comm]; exact hs.1, hs.2.symm⟩
          · exact hs
        by_cases h1 : |cd.2 - cd.1| ≤ 1 / 1000000
        · rw [if_pos (Or.inr h1)] at hr
          simp only [Option.some.injEq] at hr
          subst hr
          obtain ⟨z, hz, hz1, hz2⟩ := ivt_zero f hf cd.1 cd.2 hs'.1.le
          refine ⟨z, hz, ?_⟩
          rcases hs'.2 with h2 | h2
          · rw [h2]; exact hz1.trans h1
          · rw [h2]; exact hz2.trans h1
        · rw [if_neg (by rintro (h2 | h2); exacts [h0 h2, h1 h2])] at hr
          exact ih _ rfl hs'.1 hr

/-- C158, partial: if the value at the start of the piece is not smaller in amount than that at its end, the place found is within a millionth of a metre of a zero. -/
theorem zero_found_partial (f : ℝ → ℝ) (hf : Continuous f) (delta : ℝ) (fuel : Nat) (a b r : ℝ) (hab : |f b| ≤ |f a|)
    (h : brent f delta fuel a b = some (some r)) : ∃ z, f z = 0 ∧ |z - r| ≤ 1 / 1000000 := by
  unfold brent at h
  split at h
  · simp at h
  · rename_i hn
    rw [if_neg (not_lt.mpr hab)] at h
    simp only [Option.map_eq_some_iff, Option.some.injEq, exists_eq_right] at h
    exact loop_zero f hf delta fuel _ rfl (not_le.mp hn) r h

/-- The piece of a straight road from 99 m to 107 m ahead, for a circle of radius 100 m: the measure at the distance `s` from the start of the piece. -/
def pieceA (s : Rat) : Rat := ((99 + s) / 100) ^ 2 - 1

/-- The measure of this piece is that of the ellipse. -/
example (s : Rat) : ellipse 0 0 0 100 100 (99 + (s : ℝ)) 0 = (pieceA s : ℝ) := by
  simp [ellipse, pieceA]

/-- C158 does not hold: the road crosses the circle 1 m after the start of the piece, the place found is more than 2.9 m behind the crossing. The values at the ends of the
piece have been exchanged but not the ends, so that the half with the zero is dropped. -/
theorem zero_fails : ∃ (f : Rat → Rat) (r : Rat), (∀ s, 0 ≤ s → (f s = 0 ↔ s = 1)) ∧
    brent f (1 / 1000000) 60 0 8 = some (some r) ∧ r > 39 / 10 := by
  have h : ∃ r, brent pieceA (1 / 1000000) 60 0 8 = some (some r) ∧ r > 39 / 10 := by
    cases hb : brent pieceA (1 / 1000000) 60 0 8 with
    | none => exact absurd hb (by decide +kernel)
    | some o =>
      cases o with
      | none => exact absurd hb (by decide +kernel)
      | some r =>
        refine ⟨r, rfl, ?_⟩
        have : ((brent pieceA (1 / 1000000) 60 0 8).map fun o => o.map fun r => decide (r > 39 / 10)) = some (some true) := by decide +kernel
        rw [hb] at this
        simpa using this
  obtain ⟨r, h1, h2⟩ := h
  refine ⟨pieceA, r, fun s hs => ?_, h1, h2⟩
  unfold pieceA
  constructor
  · intro h3
    have h4 : (s - 1) * (s + 199) = 0 := by linear_combination 10000 * h3
    rcases mul_eq_zero.mp h4 with h5 | h5
    · linarith
    · linarith
  · rintro rfl; norm_num

/-- Concrete case of `zero_found_partial`: the same piece driven the other way has the larger value at its start, and a zero is found within few rounds. -/
example : ((brent (fun s => pieceA (8 - s)) (1 / 1000000) 60 0 8).map fun o => o.map fun r => decide (|r - 7| < 1 / 1000000)) = some (some true) := by
  decide +kernel

example : |pieceA 0| ≤ |pieceA 8| := by decide +kernel

end Verif.Swarm
