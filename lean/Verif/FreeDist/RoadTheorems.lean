import Verif.FreeDist.RoadModel
import Mathlib.Tactic.Linarith
import Mathlib.Tactic.FinCases
import Mathlib.Data.Fintype.Basic
import Mathlib.Data.Fin.VecNotation
/-
Free space distances along and across the road.

Specification: each object has four corners with road coordinates; the distance along (across) the road is the signed
gap between the intervals they span, and 0 if the intervals overlap.
-/
namespace Verif.FreeDist.Road

open Verif.Common

/-- `r` is the gap from the corner coordinates `a` of an object to `b` of another one which is ahead of it (or left). -/
def GapAhead (a b : Fin 4 → Rat) (r : Rat) : Prop :=
  (∃ i j, r = b j - a i) ∧ ∀ i j, r ≤ b j - a i

/-- `r` is the (negative) gap to another one which is behind it (or right). -/
def GapBehind (a b : Fin 4 → Rat) (r : Rat) : Prop :=
  (∃ i j, r = b j - a i) ∧ ∀ i j, b j - a i ≤ r

/-- The spans of the corner coordinates have a point in common which is not just an end of both. -/
def Overlap (a b : Fin 4 → Rat) : Prop := (∃ i j, a i < b j) ∧ ∃ i j, b j < a i

theorem absR_eq (x : Rat) : absR x = |x| := by
  unfold absR
  split
  · rw [abs_of_neg (by assumption)]
  · rw [abs_of_nonneg (by linarith)]

/-- The fold finds an entry with the least absolute value. -/
theorem nearer_fold (l : List Rat) (m : Option Rat) (hl : l ≠ [] ∨ m ≠ none) :
    ∃ r, l.foldl nearer m = some r ∧ (r ∈ l ∨ m = some r) ∧ (∀ x ∈ l, |r| ≤ |x|) ∧ ∀ x, m = some x → |r| ≤ |x| := by
  induction l generalizing m with
  | nil =>
    rcases hl with h | h
    · exact absurd rfl h
    · obtain ⟨r, rfl⟩ := Option.ne_none_iff_exists'.mp h
      exact ⟨r, rfl, Or.inr rfl, by simp, fun x hx => by cases hx; exact le_refl _⟩
  | cons d l ih =>
    have hn : nearer m d ≠ none := by
      unfold nearer
      cases m with
      | none => simp
      | some m => simp only; split <;> simp
    obtain ⟨r, h1, h2, h3, h4⟩ := ih (nearer m d) (Or.inr hn)
    refine ⟨r, h1, ?_, ?_, ?_⟩
    · rcases h2 with h2 | h2
      · exact Or.inl (List.mem_cons_of_mem _ h2)
      · unfold nearer at h2
        cases m with
        | none => simp only [Option.some.injEq] at h2; subst h2; simp
        | some m =>
          simp only at h2
          split at h2 <;> simp only [Option.some.injEq] at h2 <;> subst h2 <;> simp
    · intro x hx
      rcases List.mem_cons.mp hx with rfl | hx
      · unfold nearer at h4
        cases m with
        | none => exact h4 x rfl
        | some m =>
          simp only at h4
          split at h4
          · rename_i c
            exact h4 x rfl
          · rename_i c
            rw [absR_eq, absR_eq, not_lt] at c
            exact (h4 m rfl).trans c
      · exact h3 x hx
    · intro x hx
      subst hx
      unfold nearer at h4
      simp only at h4
      split at h4
      · rename_i c
        rw [absR_eq, absR_eq] at c
        exact (h4 d rfl).trans c.le
      · exact h4 x rfl

/-- The fold finds an entry with the largest absolute value. -/
theorem farther_fold (l : List Rat) (m : Option Rat) (hl : l ≠ [] ∨ m ≠ none) :
    ∃ r, l.foldl farther m = some r ∧ (r ∈ l ∨ m = some r) ∧ (∀ x ∈ l, |x| ≤ |r|) ∧ ∀ x, m = some x → |x| ≤ |r| := by
  induction l generalizing m with
  | nil =>
    rcases hl with h | h
    · exact absurd rfl h
    · obtain ⟨r, rfl⟩ := Option.ne_none_iff_exists'.mp h
      exact ⟨r, rfl, Or.inr rfl, by simp, fun x hx => by cases hx; exact le_refl _⟩
  | cons d l ih =>
    have hn : farther m d ≠ none := by
      unfold farther
      cases m with
      | none => simp
      | some m => simp only; split <;> simp
    obtain ⟨r, h1, h2, h3, h4⟩ := ih (farther m d) (Or.inr hn)
    refine ⟨r, h1, ?_, ?_, ?_⟩
    · rcases h2 with h2 | h2
      · exact Or.inl (List.mem_cons_of_mem _ h2)
      · unfold farther at h2
        cases m with
        | none => simp only [Option.some.injEq] at h2; subst h2; simp
        | some m =>
          simp only at h2
          split at h2 <;> simp only [Option.some.injEq] at h2 <;> subst h2 <;> simp
    · intro x hx
      rcases List.mem_cons.mp hx with rfl | hx
      · unfold farther at h4
        cases m with
        | none => exact h4 x rfl
        | some m =>
          simp only at h4
          split at h4
          · rename_i c
            exact h4 x rfl
          · rename_i c
            rw [absR_eq, absR_eq, gt_iff_lt, not_lt] at c
            exact c.trans (h4 m rfl)
      · exact h3 x hx
    · intro x hx
      subst hx
      unfold farther at h4
      simp only at h4
      split at h4
      · rename_i c
        rw [absR_eq, absR_eq] at c
        exact c.le.trans (h4 d rfl)
      · exact h4 x rfl

theorem least_spec (d : Fin 4 → Fin 4 → Rat) :
    (∃ i j, (least d).getD 0 = d i j) ∧ ∀ i j, |(least d).getD 0| ≤ |d i j| := by
  have hf : least d = [d 0 0, d 0 1, d 0 2, d 0 3, d 1 0, d 1 1, d 1 2, d 1 3, d 2 0, d 2 1, d 2 2, d 2 3,
      d 3 0, d 3 1, d 3 2, d 3 3].foldl nearer none := rfl
  obtain ⟨r, h1, h2, h3, -⟩ := nearer_fold [d 0 0, d 0 1, d 0 2, d 0 3, d 1 0, d 1 1, d 1 2, d 1 3, d 2 0, d 2 1,
      d 2 2, d 2 3, d 3 0, d 3 1, d 3 2, d 3 3] none (Or.inl (by simp))
  rw [hf, h1]
  simp only [Option.getD_some]
  constructor
  · rcases h2 with h2 | h2
    · simp only [List.mem_cons, List.not_mem_nil, or_false] at h2
      rcases h2 with h | h | h | h | h | h | h | h | h | h | h | h | h | h | h | h <;> exact ⟨_, _, h⟩
    · cases h2
  · intro i j
    refine h3 _ ?_
    fin_cases i <;> fin_cases j <;> simp

theorem mixed_iff (d : Fin 4 → Rat) : mixed d = true ↔ (∃ j, d j < 0) ∧ ∃ j, 0 ≤ d j := by
  constructor
  · intro h
    unfold mixed sgn at h
    by_contra hn
    rw [not_and_or] at hn
    rcases hn with hn | hn <;> push Not at hn
    · have := hn 0; have := hn 1; have := hn 2; have := hn 3
      simp_all [not_lt.mpr]
    · have := hn 0; have := hn 1; have := hn 2; have := hn 3
      simp_all
  · rintro ⟨⟨i, hi⟩, j, hj⟩
    unfold mixed
    by_contra hn
    simp only [Bool.not_eq_true', Bool.not_eq_false, Bool.and_eq_true, decide_eq_true_eq] at hn
    obtain ⟨⟨e1, e2⟩, e3⟩ := hn
    have si : sgn (d i) = sgn (d 0) := by fin_cases i <;> simp_all
    have sj : sgn (d j) = sgn (d 0) := by fin_cases j <;> simp_all
    have : sgn (d i) = -1 := if_pos hi
    have : sgn (d j) = 1 := if_neg (not_lt.mpr hj)
    omega

theorem any_mixed (d : Fin 4 → Fin 4 → Rat) :
    (corners.any fun i => mixed (d i)) = true ↔ ∃ i, (∃ j, d i j < 0) ∧ ∃ j, 0 ≤ d i j := by
  simp only [List.any_eq_true, mixed_iff]
  exact ⟨fun ⟨i, _, h⟩ => ⟨i, h⟩, fun ⟨i, h⟩ => ⟨i, by fin_cases i <;> simp [corners], h⟩⟩

theorem along_ahead {a b : Fin 4 → Rat} (h : ∀ i j, a i ≤ b j) : GapAhead a b (along fun i j => b j - a i) := by
  have hm : ¬ (corners.any fun i => mixed (fun j => b j - a i)) = true := by
    rw [any_mixed fun i j => b j - a i]
    rintro ⟨i, ⟨j, hj⟩, -⟩
    have := h i j
    linarith
  unfold along
  rw [if_neg hm]
  obtain ⟨⟨i, j, e⟩, hl⟩ := least_spec fun i j => b j - a i
  refine ⟨⟨i, j, e⟩, fun i' j' => ?_⟩
  have := hl i' j'
  rw [e] at this ⊢
  rwa [abs_of_nonneg (by linarith [h i j]), abs_of_nonneg (by linarith [h i' j'])] at this

theorem along_behind {a b : Fin 4 → Rat} (h : ∀ i j, b j < a i) : GapBehind a b (along fun i j => b j - a i) := by
  have hm : ¬ (corners.any fun i => mixed (fun j => b j - a i)) = true := by
    rw [any_mixed fun i j => b j - a i]
    rintro ⟨i, -, j, hj⟩
    have := h i j
    linarith
  unfold along
  rw [if_neg hm]
  obtain ⟨⟨i, j, e⟩, hl⟩ := least_spec fun i j => b j - a i
  refine ⟨⟨i, j, e⟩, fun i' j' => ?_⟩
  have := hl i' j'
  rw [e] at this ⊢
  rw [abs_of_neg (by linarith [h i j]), abs_of_neg (by linarith [h i' j'])] at this
  linarith

theorem along_overlap {a b : Fin 4 → Rat} (h : ∃ i, (∃ j, b j < a i) ∧ ∃ j, a i ≤ b j) : (along fun i j => b j - a i) = 0 := by
  unfold along
  rw [if_pos]
  rw [any_mixed fun i j => b j - a i]
  obtain ⟨i, ⟨j, hj⟩, k, hk⟩ := h
  exact ⟨i, ⟨j, by linarith⟩, k, by linarith⟩

/-- C181: two objects on the road which do not collide. Along and across the road the distance is the gap, positive if
the other one is ahead (left), negative if it is behind (right), and 0 if a corner of the first one is beside the second.
Not covered: the first one reaching beyond the second at both ends (`contains_fails`). -/
theorem object_partial {a b t t' : Fin 4 → Rat} {cs : CS} (hcs : cs = .lane ∨ cs = .road) :
    ∃ ds dt, objectDist true cs false (fun i j => some (b j - a i, t' j - t i)) = some (ds, dt) ∧
      ((∀ i j, a i ≤ b j) → GapAhead a b ds) ∧ ((∀ i j, b j < a i) → GapBehind a b ds) ∧
      ((∃ i, (∃ j, b j < a i) ∧ ∃ j, a i ≤ b j) → ds = 0) ∧
      ((∀ i j, t i ≤ t' j) → GapAhead t t' dt) ∧ ((∀ i j, t' j < t i) → GapBehind t t' dt) ∧
      ((∃ i, (∃ j, t' j < t i) ∧ ∃ j, t i ≤ t' j) → dt = 0) := by
  refine ⟨along fun i j => b j - a i, along fun i j => t' j - t i, ?_, along_ahead, along_behind, along_overlap,
    along_ahead, along_behind, along_overlap⟩
  unfold objectDist
  rcases hcs with rfl | rfl <;> simp [corners]

/-- C181: no distance without a target, in other coordinate systems, or if some corner is not reached; colliding objects
are at distance 0. -/
theorem object_none (target overlap : Bool) (cs : CS) (delta : Fin 4 → Fin 4 → Option (Rat × Rat)) :
    (objectDist target cs overlap delta = none ↔ target = false ∨ (cs = .entity ∨ cs = .trajectory) ∨
      (overlap = false ∧ ∃ i j, delta i j = none)) ∧
    (target = true → (cs = .lane ∨ cs = .road) → overlap = true → objectDist target cs overlap delta = some (0, 0)) := by
  have hany : (corners.any fun i => corners.any fun j => (delta i j).isNone) = true ↔ ∃ i j, delta i j = none := by
    simp only [List.any_eq_true, Option.isNone_iff_eq_none]
    exact ⟨fun ⟨i, _, j, _, h⟩ => ⟨i, j, h⟩,
      fun ⟨i, j, h⟩ => ⟨i, by fin_cases i <;> simp [corners], j, by fin_cases j <;> simp [corners], h⟩⟩
  constructor
  · rw [← hany]
    unfold objectDist
    cases target <;> cases cs <;> cases overlap <;> simp
  · rintro rfl hcs rfl
    unfold objectDist
    rcases hcs with rfl | rfl <;> simp

/-- C181: a truck from s = 0 to s = 10 beside a car from s = 3 to s = 5 is reported to be 3 m from it along the road,
and the car to be 0 m from the truck. -/
theorem contains_fails : ∃ (a b : Fin 4 → Rat), Overlap a b ∧
    objectDist true .road false (fun i j => some (b j - a i, 3)) = some (3, 3) ∧
    objectDist true .road false (fun i j => some (a j - b i, -3)) = some (0, -3) := by
  refine ⟨![10, 0, 0, 10], ![5, 3, 3, 5], ⟨⟨1, 0, by decide +kernel⟩, 0, 0, by decide +kernel⟩, ?_, ?_⟩ <;> decide +kernel

/-! ## Distance to a point -/

theorem point_folds (d : Fin 4 → Rat) :
    ∃ m M, (corners.foldl (fun m i => nearer m (d i)) none) = some m ∧
      (corners.foldl (fun m i => farther m (d i)) none) = some M ∧
      (∃ i, m = d i) ∧ (∃ i, M = d i) ∧ ∀ i, |m| ≤ |d i| ∧ |d i| ≤ |M| := by
  obtain ⟨m, h1, h2, h3, -⟩ := nearer_fold [d 0, d 1, d 2, d 3] none (Or.inl (by simp))
  obtain ⟨M, g1, g2, g3, -⟩ := farther_fold [d 0, d 1, d 2, d 3] none (Or.inl (by simp))
  have e : ∀ {x : Rat}, x ∈ [d 0, d 1, d 2, d 3] ∨ (none : Option Rat) = some x → ∃ i, x = d i := by
    rintro x (h | h)
    · simp only [List.mem_cons, List.not_mem_nil, or_false] at h
      rcases h with h | h | h | h <;> exact ⟨_, h⟩
    · cases h
  refine ⟨m, M, h1, g1, e h2, e g2, fun i => ⟨h3 _ ?_, g3 _ ?_⟩⟩ <;> fin_cases i <;> simp

theorem toPoint_ahead {a : Fin 4 → Rat} {p : Rat} (h : ∀ i, a i ≤ p) : GapAhead a (fun _ => p) (toPoint fun i => p - a i) := by
  obtain ⟨m, M, h1, h2, ⟨i, hi⟩, ⟨j, hj⟩, hb⟩ := point_folds fun i => p - a i
  have sm : sgn m = 1 := if_neg (by have := h i; linarith)
  have sM : sgn M = 1 := if_neg (by have := h j; linarith)
  unfold toPoint
  rw [h1, h2]
  simp only [Option.getD_some, sm, sM, ne_eq, not_true_eq_false, if_false]
  refine ⟨⟨i, 0, hi⟩, fun i' _ => ?_⟩
  have := (hb i').1
  rw [hi] at this ⊢
  rwa [abs_of_nonneg (by linarith [h i]), abs_of_nonneg (by linarith [h i'])] at this

theorem toPoint_behind {a : Fin 4 → Rat} {p : Rat} (h : ∀ i, p < a i) : GapBehind a (fun _ => p) (toPoint fun i => p - a i) := by
  obtain ⟨m, M, h1, h2, ⟨i, hi⟩, ⟨j, hj⟩, hb⟩ := point_folds fun i => p - a i
  have sm : sgn m = -1 := if_pos (by have := h i; linarith)
  have sM : sgn M = -1 := if_pos (by have := h j; linarith)
  unfold toPoint
  rw [h1, h2]
  simp only [Option.getD_some, sm, sM, ne_eq, not_true_eq_false, if_false]
  refine ⟨⟨i, 0, hi⟩, fun i' _ => ?_⟩
  have := (hb i').1
  rw [hi] at this ⊢
  rw [abs_of_neg (by linarith [h i]), abs_of_neg (by linarith [h i'])] at this
  linarith

/-- An object along the road has only two different coordinates, front and rear. -/
theorem toPoint_beside {a : Fin 4 → Rat} {p lo hi : Rat} (ha : ∀ i, a i = lo ∨ a i = hi) (h1 : ∃ i, a i = lo) (h2 : ∃ i, a i = hi)
    (hl : lo ≤ p) (hh : p < hi) : |toPoint fun i => p - a i| = 0 ∨ (p - lo = hi - p ∧ |toPoint fun i => p - a i| = p - lo) := by
  obtain ⟨m, M, e1, e2, ⟨i, hi'⟩, ⟨j, hj⟩, hb⟩ := point_folds fun i => p - a i
  obtain ⟨k, hk⟩ := h1
  obtain ⟨l, hl'⟩ := h2
  have bk := hb k
  have bl := hb l
  rw [hk, abs_of_nonneg (show 0 ≤ p - lo by linarith)] at bk
  rw [hl', abs_of_neg (show p - hi < 0 by linarith)] at bl
  unfold toPoint
  rw [e1, e2]
  simp only [Option.getD_some]
  split_ifs with c
  · simp
  · right
    push Not at c
    rw [hi', hj] at c bk bl
    rcases ha i with q | q <;> rcases ha j with q' | q' <;> rw [q, q'] at c bk bl <;> rw [hi', q]
    · rw [abs_of_nonneg (show 0 ≤ p - lo by linarith)] at *
      exact ⟨by linarith [bk.1, bl.1, bk.2, bl.2], rfl⟩
    · rw [sgn, sgn, if_neg (by linarith), if_pos (by linarith)] at c
      omega
    · rw [sgn, sgn, if_pos (by linarith), if_neg (by linarith)] at c
      omega
    · rw [abs_of_neg (show p - hi < 0 by linarith)] at *
      exact ⟨by linarith [bk.1, bl.1, bk.2, bl.2], by linarith [bk.1, bl.1, bk.2, bl.2]⟩

/-- C181: an object and a point on the road. The distance is the gap if the point is ahead of (left of) or behind
(right of) the object. Beside an object along the road it is 0, except exactly beside its middle. Not covered: the point
beside an object that is not along the road (`point_fails`), or beside the middle (`middle_fails`). -/
theorem point_partial {a t : Fin 4 → Rat} {p q : Rat} {cs : CS} (hcs : cs = .lane ∨ cs = .road) :
    ∃ ds dt, pointDist cs (fun i => some (p - a i, q - t i)) = some (ds, dt) ∧
      ((∀ i, a i ≤ p) → GapAhead a (fun _ => p) ds) ∧ ((∀ i, p < a i) → GapBehind a (fun _ => p) ds) ∧
      (∀ lo hi, (∀ i, a i = lo ∨ a i = hi) → (∃ i, a i = lo) → (∃ i, a i = hi) → lo ≤ p → p < hi → p - lo ≠ hi - p → ds = 0) ∧
      ((∀ i, t i ≤ q) → GapAhead t (fun _ => q) dt) ∧ ((∀ i, q < t i) → GapBehind t (fun _ => q) dt) ∧
      (∀ lo hi, (∀ i, t i = lo ∨ t i = hi) → (∃ i, t i = lo) → (∃ i, t i = hi) → lo ≤ q → q < hi → q - lo ≠ hi - q → dt = 0) := by
  have side : ∀ {a : Fin 4 → Rat} {p : Rat} (lo hi : Rat), (∀ i, a i = lo ∨ a i = hi) → (∃ i, a i = lo) → (∃ i, a i = hi) →
      lo ≤ p → p < hi → p - lo ≠ hi - p → (toPoint fun i => p - a i) = 0 := by
    intro a p lo hi h1 h2 h3 h4 h5 h6
    rcases toPoint_beside h1 h2 h3 h4 h5 with h | h
    · exact abs_eq_zero.mp h
    · exact absurd h.1 h6
  refine ⟨toPoint fun i => p - a i, toPoint fun i => q - t i, ?_, toPoint_ahead, toPoint_behind, side,
    toPoint_ahead, toPoint_behind, side⟩
  unfold pointDist
  rcases hcs with rfl | rfl <;> simp [corners]

/-- C181: no distance to a point in other coordinate systems, or if some corner or the point is not found on the road. -/
theorem point_none (cs : CS) (delta : Fin 4 → Option (Rat × Rat)) :
    pointDist cs delta = none ↔ (cs = .entity ∨ cs = .trajectory) ∨ ∃ i, delta i = none := by
  have hany : (corners.any fun i => (delta i).isNone) = true ↔ ∃ i, delta i = none := by
    simp only [List.any_eq_true, Option.isNone_iff_eq_none]
    exact ⟨fun ⟨i, _, h⟩ => ⟨i, h⟩, fun ⟨i, h⟩ => ⟨i, by fin_cases i <;> simp [corners], h⟩⟩
  rw [← hany]
  unfold pointDist
  cases cs <;> simp

/-- C181: a point beside an object standing across the road is reported to be 0.8 m behind it, though a corner of the
object is 1.2 m behind the point. -/
theorem point_fails : ∃ (a : Fin 4 → Rat) (p : Rat), Overlap a (fun _ => p) ∧ a 0 + a 2 = a 1 + a 3 ∧
    pointDist .road (fun i => some (p - a i, 3)) = some (-4 / 5, 3) := by
  refine ⟨![25, 104 / 5, 94 / 5, 23], 20, ⟨⟨2, 0, by decide +kernel⟩, 0, 0, by decide +kernel⟩, by decide +kernel, by decide +kernel⟩

/-- C181: a point exactly beside the middle of a car 4 m long is reported to be 2 m behind it. -/
theorem middle_fails : ∃ (a : Fin 4 → Rat) (p : Rat), Overlap a (fun _ => p) ∧
    pointDist .road (fun i => some (p - a i, 3)) = some (-2, 3) := by
  refine ⟨![4, 0, 0, 4], 2, ⟨⟨1, 0, by decide +kernel⟩, 0, 0, by decide +kernel⟩, by decide +kernel⟩

/-! ## Hypotheses can be met -/

example : (∀ i j, (![4, 0, 0, 4] : Fin 4 → Rat) i ≤ (![14, 10, 10, 14] : Fin 4 → Rat) j) ∧
    (∀ i j, (![4, 0, 0, 4] : Fin 4 → Rat) j < (![14, 10, 10, 14] : Fin 4 → Rat) i) ∧
    objectDist true .road false (fun i j => some ((![14, 10, 10, 14] : Fin 4 → Rat) j - (![4, 0, 0, 4] : Fin 4 → Rat) i, 3)) = some (6, 3) := by
  decide +kernel

example : ∃ i, (∃ j, (![4, 0, 0, 4] : Fin 4 → Rat) j < (![7, 3, 3, 7] : Fin 4 → Rat) i) ∧
    ∃ j, (![7, 3, 3, 7] : Fin 4 → Rat) i ≤ (![4, 0, 0, 4] : Fin 4 → Rat) j := ⟨1, ⟨1, by decide +kernel⟩, 0, by decide +kernel⟩

example : (∀ i, (![4, 0, 0, 4] : Fin 4 → Rat) i = 0 ∨ (![4, 0, 0, 4] : Fin 4 → Rat) i = 4) ∧
    pointDist .road (fun i => some (1 - (![4, 0, 0, 4] : Fin 4 → Rat) i, 3)) = some (0, 3) ∧
    pointDist .road (fun i => some (9 - (![4, 0, 0, 4] : Fin 4 → Rat) i, 3)) = some (5, 3) := by
  decide +kernel

end Verif.FreeDist.Road
