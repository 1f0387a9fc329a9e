import Verif.Follow.Model
import Verif.Geom.AngleTheorems
import Verif.Geom.LineTheorems
import Mathlib.Analysis.Real.Pi.Bounds

/-
C107: an entity that follows a trajectory is where its speed or the time says, ends at the end of it and loses no
distance there.
-/
namespace Verif.Follow
open Verif.Geom Real

theorem small_eq : small = 1 / 1000000 := rfl

/-! ### Headings -/

theorem headSign_line {h t : ℝ} (hh : Turns π h t) : headSign h t = 1 := by
  have h1 := (angleDiff_spec pi_pos h t).2 0 (by
    obtain ⟨k, hk⟩ := hh
    exact ⟨-k, by rw [hk]; push_cast; ring⟩)
  have h2 := absAngleDiff_spec pi_pos h t
  rw [abs_zero] at h1
  unfold headSign
  rw [if_neg]
  rw [h2.1]
  have := pi_pos
  rw [small_eq]
  linarith [abs_nonneg (angleDiff π h t)]

theorem headSign_against {h t : ℝ} (hh : Turns π h (t + π)) : headSign h t = -1 := by
  have hp := pi_pos
  have h3 := pi_gt_three
  obtain ⟨⟨k, hk⟩, _⟩ := angleDiff_spec pi_pos h t
  have h2 := absAngleDiff_spec pi_pos h t
  obtain ⟨m, hm⟩ := hh
  have e : angleDiff π h t = π + ((m + k : ℤ) : ℝ) * (2 * π) := by rw [hk, hm]; push_cast; ring
  unfold headSign
  rw [if_pos]
  rw [h2.1, small_eq]
  rcases le_or_gt 0 (m + k) with hs | hs
  · have : (0 : ℝ) ≤ ((m + k : ℤ) : ℝ) := by exact_mod_cast hs
    have : π ≤ angleDiff π h t := by rw [e]; nlinarith
    linarith [le_abs_self (angleDiff π h t)]
  · have : ((m + k : ℤ) : ℝ) ≤ -1 := by exact_mod_cast (by omega : m + k ≤ -1)
    have : angleDiff π h t ≤ -π := by rw [e]; nlinarith
    linarith [neg_abs_le (angleDiff π h t)]

/-- C107: without specified headings the entity is put on the line with its heading along or against it, so that it moves
forward on the trajectory whatever the sign of its speed: the velocity is along the line. -/
theorem starts_forward (a : Act) (v : ℝ) (hd : a.domain = Domain.none) (he : a.traj.expl (evalS a.traj a.init) = false) :
    sign v * (start a v).head = 1 ∧
    v * cos (start a v).h = |v| * cos (a.traj.hTrue (start a v).s) ∧
    v * sin (start a v).h = |v| * sin (a.traj.hTrue (start a v).s) := by
  have hsg : speedSign a (evalS a.traj a.init) v = sign v := by
    unfold speedSign; rw [if_pos hd]
  have hh : (start a v).h = interval2PI π (a.traj.hTrue (evalS a.traj a.init) + if sign v < 0 then π else 0) := by
    show startHeading a _ (speedSign a (evalS a.traj a.init) v) = _
    rw [hsg]; unfold startHeading; rw [he]; rfl
  have hhead : (start a v).head = headSign (start a v).h (a.traj.hTrue (evalS a.traj a.init)) := by
    show startHead a _ (speedSign a (evalS a.traj a.init) v) = headSign (startHeading a _ (speedSign a (evalS a.traj a.init) v)) _
    unfold startHead; rw [he]; rfl
  have hspec := interval2PI_spec pi_pos (a.traj.hTrue (evalS a.traj a.init) + if sign v < 0 then π else 0)
  have hdir := interval2PI_direction (a.traj.hTrue (evalS a.traj a.init) + if sign v < 0 then π else 0)
  rw [← hh] at hspec hdir
  show _ ∧ v * cos (start a v).h = |v| * cos (a.traj.hTrue (evalS a.traj a.init)) ∧
    v * sin (start a v).h = |v| * sin (a.traj.hTrue (evalS a.traj a.init))
  rw [hhead, hdir.1, hdir.2]
  by_cases hv : v < 0
  · have hs : sign v = -1 := by unfold sign; rw [if_pos hv]
    rw [hs] at hspec ⊢
    rw [if_pos (by norm_num)] at hspec ⊢
    rw [headSign_against hspec.2.2, cos_add_pi, sin_add_pi, abs_of_neg hv]
    exact ⟨by norm_num, by ring, by ring⟩
  · have hs : sign v = 1 := by unfold sign; rw [if_neg hv]
    rw [hs] at hspec ⊢
    rw [if_neg (by norm_num), add_zero] at hspec ⊢
    rw [headSign_line hspec.2.2, abs_of_nonneg (by linarith)]
    exact ⟨by norm_num, rfl, rfl⟩

/-! ### Steps -/

theorem turn_parts (a : Act) (st : St) : (turn a st).s = st.s ∧ (turn a st).time = st.time ∧
    (turn a st).speed = st.speed ∧ (turn a st).dir = st.dir ∧ (turn a st).rest = st.rest ∧
    (turn a st).ended = st.ended := by
  unfold turn
  split_ifs <;> exact ⟨rfl, rfl, rfl, rfl, rfl, rfl⟩

theorem finish_parts (a : Act) (w : Who) (old dt : ℝ) (st : St) : (finish a w old dt st).s = st.s ∧
    (finish a w old dt st).time = st.time ∧ (finish a w old dt st).speed = st.speed ∧
    (finish a w old dt st).dir = st.dir ∧ (finish a w old dt st).head = st.head ∧
    (finish a w old dt st).expl = st.expl ∧ (finish a w old dt st).h = st.h := by
  unfold finish
  split_ifs <;> exact ⟨rfl, rfl, rfl, rfl, rfl, rfl, rfl⟩

/-- Steps are taken from time 0 on, by ghosts always. -/
def Active (w : Who) (sim : ℝ) : Prop := w.ghost = true ∨ 0 ≤ sim

theorem step_active (a : Act) {w : Who} {sim : ℝ} (h : Active w sim) (dt : ℝ) (st : St) :
    step a w sim dt st = finish a w st.s dt (move a w sim dt st) := by
  unfold step
  rw [if_neg]
  rintro ⟨h1, h2⟩
  rcases h with h | h
  · rw [h] at h1; exact absurd h1 (by simp)
  · linarith

/-- C107: entities other than ghosts do not move before time 0. -/
theorem waits (a : Act) (w : Who) (sim dt : ℝ) (st : St) (hg : w.ghost = false) (hs : sim < 0) :
    step a w sim dt st = st := by
  unfold step
  rw [if_pos ⟨hg, hs⟩]

/-- The heading of the trajectory is specified all along, or nowhere. -/
def Uniform (t : Traj) (b : Bool) : Prop := ∀ s, t.expl s = b

theorem turn_head (a : Act) (st : St) (h : Uniform a.traj st.expl) :
    (turn a st).head = st.head ∧ (turn a st).expl = st.expl := by
  unfold turn
  rcases he : st.expl
  · rw [he] at h
    rw [h st.s]
    simp only [Bool.false_eq_true, if_false]
    unfold newHead
    rw [he]
    exact ⟨rfl, trivial⟩
  · rw [he] at h
    rw [h st.s]
    simp only [if_true]
    exact ⟨trivial, trivial⟩

theorem move_none (a : Act) (w : Who) (sim dt : ℝ) (st : St) (hd : a.domain = Domain.none) :
    move a w sim dt st = turn a (moveSpeed a dt st) := by
  unfold move moveBy
  rw [if_pos (Or.inl hd)]

theorem sign_abs (v : ℝ) : sign v * |v| = v := by
  unfold sign
  split_ifs with h
  · rw [abs_of_neg h]; ring
  · rw [abs_of_nonneg (by linarith)]; ring

/-- C107: a step of an entity that goes forward on an open trajectory without time: it moves by speed times time step, or
reaches the end; then the action ends, and the way past the end makes up for the rest. -/
theorem forward_step (a : Act) {w : Who} {sim dt : ℝ} (hw : Active w sim) (hdt : 0 < dt) (st : St)
    (hd : a.domain = Domain.none) (hc : a.traj.closed = false) (hv : st.speed ≠ 0) (hf : sign st.speed * st.head = 1)
    (hs : st.s ≤ a.traj.len) (he : st.ended = false) :
    (st.s + |st.speed| * dt ≤ a.traj.len - 1 / 1000000 ∧ (step a w sim dt st).s = st.s + |st.speed| * dt ∧
      (step a w sim dt st).ended = false) ∨
    (st.s + |st.speed| * dt > a.traj.len - 1 / 1000000 ∧ (step a w sim dt st).s = a.traj.len ∧
      (step a w sim dt st).ended = true ∧ (a.traj.len - st.s) + (step a w sim dt st).rest = |st.speed| * dt) := by
  have hvp : 0 < |st.speed| := abs_pos.mpr hv
  have hm : (moveSpeed a dt st).s = evalS a.traj (st.s + |st.speed| * dt) := by
    unfold moveSpeed; simp only; rw [hf, one_mul]
  have hdir : (moveSpeed a dt st).dir = 1 := hf
  have hsp : (moveSpeed a dt st).speed = st.speed := rfl
  have htp := turn_parts a (moveSpeed a dt st)
  rw [step_active a hw, move_none a w sim dt st hd]
  have hfp := finish_parts a w st.s dt (turn a (moveSpeed a dt st))
  rw [hfp.1, htp.1, hm]
  by_cases hx : st.s + |st.speed| * dt > a.traj.len - 1 / 1000000
  · right
    have hE : evalS a.traj (st.s + |st.speed| * dt) = a.traj.len := by
      unfold evalS; rw [if_pos (by rw [small_eq]; exact hx)]
    have hend : endPlace a dt (turn a (moveSpeed a dt st)) := by
      refine ⟨hd, hc, hdt, Or.inl ⟨?_, ?_⟩⟩
      · rw [htp.2.2.2.1, htp.2.2.1, hdir, hsp]; linarith
      · rw [htp.1, hm, hE, small_eq]; linarith
    refine ⟨hx, hE, ?_, ?_⟩
    · unfold finish; rw [if_pos (Or.inl hend)]
    · have : (finish a w st.s dt (turn a (moveSpeed a dt st))).rest = |st.speed| * dt - |a.traj.len - st.s| := by
        unfold finish; rw [if_pos (Or.inl hend)]
        show remaining a w st.s dt (turn a (moveSpeed a dt st)) = _
        unfold remaining
        rw [if_pos ⟨hd, hc, Or.inl (by rw [htp.1, hm, hE, small_eq]; linarith)⟩, htp.1, htp.2.2.1, hm, hE, hsp]
      rw [this, abs_of_nonneg (sub_nonneg.mpr hs)]
      ring
  · left
    have hE : evalS a.traj (st.s + |st.speed| * dt) = st.s + |st.speed| * dt := by
      unfold evalS; rw [if_neg (by rw [small_eq]; exact hx)]
    refine ⟨by linarith, hE, ?_⟩
    unfold finish
    rw [if_neg]
    · rw [htp.2.2.2.2.2]; exact he
    · rintro (h | h)
      · rcases h.2.2.2 with h | h
        · have := h.2
          rw [htp.1, hm, hE, small_eq] at this
          linarith
        · have := h.1
          rw [htp.2.2.2.1, htp.2.2.1, hdir, hsp] at this
          linarith
      · exact h.1 hd

theorem step_kept (a : Act) {w : Who} {sim dt : ℝ} (hw : Active w sim) (st : St) (hd : a.domain = Domain.none)
    (hu : Uniform a.traj st.expl) : (step a w sim dt st).speed = st.speed ∧ (step a w sim dt st).head = st.head ∧
    (step a w sim dt st).expl = st.expl := by
  rw [step_active a hw, move_none a w sim dt st hd]
  have hfp := finish_parts a w st.s dt (turn a (moveSpeed a dt st))
  have htp := turn_parts a (moveSpeed a dt st)
  have hth := turn_head a (moveSpeed a dt st) hu
  exact ⟨by rw [hfp.2.2.1, htp.2.2.1]; rfl, by rw [hfp.2.2.2.2.1, hth.1]; rfl, by rw [hfp.2.2.2.2.2.1, hth.2]; rfl⟩

/-- C107: over any number of steps with constant speed the entity has covered exactly speed times time, on the trajectory
and past its end; the action ends in the step in which the end is reached, and not before. -/
theorem forward_run (a : Act) (w : Who) (hd : a.domain = Domain.none) (hc : a.traj.closed = false) :
    ∀ (dts : List ℝ) (sim : ℝ) (st : St), Active w sim → (∀ d ∈ dts, 0 < d) → st.speed ≠ 0 →
    sign st.speed * st.head = 1 → Uniform a.traj st.expl → st.s ≤ a.traj.len → st.ended = false →
    ((run a w sim dts st).ended = false ∧ (run a w sim dts st).s = st.s + |st.speed| * dts.sum) ∨
    ((run a w sim dts st).ended = true ∧ (run a w sim dts st).s = a.traj.len ∧
      ∃ pre d post, dts = pre ++ d :: post ∧ (pre ≠ [] → st.s + |st.speed| * pre.sum ≤ a.traj.len - 1 / 1000000) ∧
        st.s + |st.speed| * (pre.sum + d) > a.traj.len - 1 / 1000000 ∧
        (a.traj.len - st.s) + (run a w sim dts st).rest = |st.speed| * (pre.sum + d))
  | [], _, st, _, _, _, _, _, _, he => Or.inl ⟨he, by simp [run]⟩
  | d :: r, sim, st, hw, hp, hv, hf, hu, hs, he => by
    have hdp := hp d (by simp)
    have hw' : Active w (sim + d) := by
      rcases hw with h | h
      · exact Or.inl h
      · exact Or.inr (by linarith)
    have hrun : run a w sim (d :: r) st = run a w (sim + d) r (step a w sim d st) := by
      conv_lhs => unfold run
      rw [he]; rfl
    rw [hrun]
    obtain ⟨k1, k2, k3⟩ := step_kept a (dt := d) hw st hd hu
    rcases forward_step a hw hdp st hd hc hv hf hs he with ⟨h1, h2, h3⟩ | ⟨h1, h2, h3, h4⟩
    · have ih := forward_run a w hd hc r (sim + d) (step a w sim d st) hw' (fun x hx => hp x (by simp [hx]))
        (by rw [k1]; exact hv) (by rw [k1, k2]; exact hf) (by rw [k3]; exact hu) (by rw [h2]; linarith) h3
      rw [k1, h2] at ih
      rcases ih with ⟨i1, i2⟩ | ⟨i1, i2, pre, e, post, i3, i4, i5, i6⟩
      · left
        exact ⟨i1, by rw [i2, List.sum_cons]; ring⟩
      · right
        refine ⟨i1, i2, d :: pre, e, post, by rw [i3]; rfl, ?_, ?_, ?_⟩
        · intro _
          rw [List.sum_cons]
          rcases pre with _ | ⟨q, l⟩
          · simpa using h1
          · have := i4 (by simp)
            linarith
        · rw [List.sum_cons]; linarith
        · rw [List.sum_cons]; linarith
    · right
      have : run a w (sim + d) r (step a w sim d st) = step a w sim d st := by
        rcases r with _ | ⟨e, r⟩
        · rfl
        · unfold run; rw [h3]; rfl
      rw [this]
      exact ⟨h3, h2, [], d, r, rfl, by simp, by simpa using h1, by simpa using h4⟩

/-- C107: backwards the entity moves by speed times time step, and the action ends when the start is reached. -/
theorem backward_step (a : Act) {w : Who} {sim dt : ℝ} (hw : Active w sim) (hdt : 0 < dt) (st : St)
    (hd : a.domain = Domain.none) (hc : a.traj.closed = false) (hv : st.speed ≠ 0) (hf : sign st.speed * st.head = -1)
    (hs : st.s - |st.speed| * dt ≤ a.traj.len - 1 / 1000000) (he : st.ended = false) :
    (step a w sim dt st).s = st.s - |st.speed| * dt ∧
    ((step a w sim dt st).ended = true ↔ st.s - |st.speed| * dt < 1 / 1000000) ∧
    ((step a w sim dt st).ended = true → (step a w sim dt st).rest = 0) := by
  have hvp : 0 < |st.speed| := abs_pos.mpr hv
  have hm : (moveSpeed a dt st).s = st.s - |st.speed| * dt := by
    unfold moveSpeed; simp only; rw [hf]
    unfold evalS
    rw [if_neg (by rw [small_eq]; linarith)]
    ring
  have hdir : (moveSpeed a dt st).dir = -1 := hf
  have hsp : (moveSpeed a dt st).speed = st.speed := rfl
  have htp := turn_parts a (moveSpeed a dt st)
  rw [step_active a hw, move_none a w sim dt st hd]
  have hfp := finish_parts a w st.s dt (turn a (moveSpeed a dt st))
  rw [hfp.1, htp.1, hm]
  have hiff : (endPlace a dt (turn a (moveSpeed a dt st)) ∨ endTime a w (turn a (moveSpeed a dt st))) ↔
      st.s - |st.speed| * dt < 1 / 1000000 := by
    constructor
    · rintro (h | h)
      · rcases h.2.2.2 with h | h
        · have := h.1
          rw [htp.2.2.2.1, htp.2.2.1, hdir, hsp] at this
          linarith
        · have := h.2
          rw [htp.1, hm, small_eq] at this
          exact this
      · exact absurd hd h.1
    · intro h
      refine Or.inl ⟨hd, hc, hdt, Or.inr ⟨?_, ?_⟩⟩
      · rw [htp.2.2.2.1, htp.2.2.1, hdir, hsp]; linarith
      · rw [htp.1, hm, small_eq]; exact h
  refine ⟨rfl, ?_, ?_⟩
  · unfold finish
    by_cases h : endPlace a dt (turn a (moveSpeed a dt st)) ∨ endTime a w (turn a (moveSpeed a dt st))
    · rw [if_pos h]; simp only [true_iff]; exact hiff.mp h
    · rw [if_neg h, htp.2.2.2.2.2]
      constructor
      · intro e
        have e' : st.ended = true := e
        rw [he] at e'; exact absurd e' (by simp)
      · intro e; exact absurd (hiff.mpr e) h
  · intro e
    have h : endPlace a dt (turn a (moveSpeed a dt st)) ∨ endTime a w (turn a (moveSpeed a dt st)) := by
      by_contra h
      unfold finish at e
      rw [if_neg h, htp.2.2.2.2.2] at e
      have e' : st.ended = true := e
      rw [he] at e'; exact absurd e' (by simp)
    have hlt := hiff.mp h
    unfold finish; rw [if_pos h]
    show remaining a w st.s dt (turn a (moveSpeed a dt st)) = 0
    unfold remaining
    rw [if_pos ⟨hd, hc, Or.inr (by rw [htp.1, hm, small_eq]; exact hlt)⟩, htp.1, htp.2.2.1, hm, hsp]
    rw [show st.s - |st.speed| * dt - st.s = -(|st.speed| * dt) by ring, abs_neg,
      abs_of_nonneg (mul_nonneg (abs_nonneg _) hdt.le)]
    ring

/-- A straight trajectory of 100 m passed in 10 s. -/
noncomputable def straight : Traj :=
  ⟨100, 0, 10, false, fun t => 10 * t, fun s => s / 10, fun _ => 10, fun _ => 0, fun _ => 0, fun _ => true⟩

/-- Following it without regard to time. -/
noncomputable def plain : Act := ⟨straight, .none, 1, 0, 0, false⟩

/-- C107: an entity that goes backwards past the start stops there: the place before the start is counted, but the entity
is at the start (C77) and the remaining way is nil. -/
theorem backward_rest_fails : ¬∀ (a : Act) (w : Who) (sim dt : ℝ) (st : St), Active w sim → 0 < dt →
    a.domain = Domain.none → a.traj.closed = false → 0 ≤ st.s → st.s ≤ a.traj.len → st.ended = false →
    (step a w sim dt st).ended = true →
    |max 0 (step a w sim dt st).s - st.s| + |(step a w sim dt st).rest| = |st.speed| * dt := by
  intro h
  let st : St := ⟨1, 0, -10, 0, 1, true, 1, 0, false⟩
  have hw : Active ⟨false, 0, false⟩ 0 := Or.inr (le_refl _)
  have hsg : sign st.speed * st.head = -1 := by
    show sign (-10) * 1 = -1
    unfold sign; rw [if_pos (by norm_num)]; norm_num
  have hab : |st.speed| = 10 := by show |(-10 : ℝ)| = 10; norm_num
  have hb := backward_step plain hw (dt := 1 / 5) (by norm_num) st rfl rfl (by show (-10 : ℝ) ≠ 0; norm_num) hsg
    (by rw [hab]; show (1 : ℝ) - 10 * (1 / 5) ≤ 100 - 1 / 1000000; norm_num) rfl
  have he : (step plain ⟨false, 0, false⟩ 0 (1 / 5) st).ended = true :=
    hb.2.1.mpr (by rw [hab]; show (1 : ℝ) - 10 * (1 / 5) < 1 / 1000000; norm_num)
  have := h plain ⟨false, 0, false⟩ 0 (1 / 5) st hw (by norm_num) rfl rfl (by show (0 : ℝ) ≤ 1; norm_num)
    (by show (1 : ℝ) ≤ 100; norm_num) rfl he
  rw [hb.1, hb.2.2 he, hab] at this
  change |max 0 ((1 : ℝ) - 10 * (1 / 5)) - 1| + |(0 : ℝ)| = 10 * (1 / 5) at this
  rw [max_eq_left (by norm_num)] at this
  norm_num at this

/-- C107: on a closed trajectory the entity stands at the end for good: it does not go on at the start, and the action does
not end. -/
theorem closed_stuck_fails (a : Act) (w : Who) (hd : a.domain = Domain.none) (hc : a.traj.closed = true) :
    ∀ (dts : List ℝ) (sim : ℝ) (st : St), Active w sim → (∀ d ∈ dts, 0 ≤ d) → sign st.speed * st.head = 1 →
    Uniform a.traj st.expl → st.s = a.traj.len → st.ended = false →
    (run a w sim dts st).s = a.traj.len ∧ (run a w sim dts st).ended = false
  | [], _, _, _, _, _, _, hs, he => ⟨hs, he⟩
  | d :: r, sim, st, hw, hp, hf, hu, hs, he => by
    have hdp := hp d (by simp)
    have hw' : Active w (sim + d) := by
      rcases hw with h | h
      · exact Or.inl h
      · exact Or.inr (by linarith)
    have hrun : run a w sim (d :: r) st = run a w (sim + d) r (step a w sim d st) := by
      conv_lhs => unfold run
      rw [he]; rfl
    obtain ⟨k1, k2, k3⟩ := step_kept a (dt := d) hw st hd hu
    have htp := turn_parts a (moveSpeed a d st)
    have hm : (moveSpeed a d st).s = a.traj.len := by
      unfold moveSpeed; simp only; rw [hf, one_mul]
      unfold evalS
      rw [if_pos]
      rw [hs, small_eq]
      have : 0 ≤ |st.speed| * d := mul_nonneg (abs_nonneg _) hdp
      linarith
    have hstep : (step a w sim d st).s = a.traj.len ∧ (step a w sim d st).ended = false := by
      rw [step_active a hw, move_none a w sim d st hd]
      refine ⟨by rw [(finish_parts _ _ _ _ _).1, htp.1, hm], ?_⟩
      unfold finish
      rw [if_neg, htp.2.2.2.2.2]
      · exact he
      · rintro (h | h)
        · have := h.2.1
          rw [hc] at this; exact absurd this (by simp)
        · exact h.1 hd
    rw [hrun]
    exact closed_stuck_fails a w hd hc r (sim + d) _ hw' (fun x hx => hp x (by simp [hx])) (by rw [k1, k2]; exact hf)
      (by rw [k3]; exact hu) hstep.1 hstep.2

/-! ### Time -/

theorem move_rel (a : Act) {w : Who} (sim dt : ℝ) (st : St) (hd : a.domain = Domain.relative) (ho : w.over = false) :
    (move a w sim dt st).time = st.time + a.scale * dt ∧
    (move a w sim dt st).s = evalS a.traj (a.traj.sAt (st.time + a.scale * dt + a.offset)) ∧
    (move a w sim dt st).ended = st.ended := by
  have e : move a w sim dt st = turn a (moveRel a dt st) := by
    unfold move moveBy
    rw [if_neg (by rw [hd, ho]; simp), if_pos hd]
  have htp := turn_parts a (moveRel a dt st)
  rw [e, htp.1, htp.2.1, htp.2.2.2.2.2]
  unfold moveRel relS relTime
  split_ifs <;> exact ⟨rfl, rfl, rfl⟩

theorem lead_rel (a : Act) (w : Who) (hd : a.domain = Domain.relative) : lead a w = 0 := by
  unfold lead
  rw [if_neg (by rw [hd]; simp)]

theorem end_rel (a : Act) (w : Who) (dt : ℝ) (st : St) (hd : a.domain = Domain.relative) :
    (endPlace a dt st ∨ endTime a w st) ↔ st.time + a.offset > a.traj.start + a.traj.dur - 1 / 1000000 := by
  unfold endPlace endTime
  rw [lead_rel a w hd, hd, small_eq]
  simp

theorem step_rel (a : Act) {w : Who} {sim : ℝ} (hw : Active w sim) (dt : ℝ) (st : St) (hd : a.domain = Domain.relative)
    (ho : w.over = false) (he : st.ended = false) :
    (step a w sim dt st).time = st.time + a.scale * dt ∧
    (step a w sim dt st).s = evalS a.traj (a.traj.sAt (st.time + a.scale * dt + a.offset)) ∧
    ((step a w sim dt st).ended = true ↔
      st.time + a.scale * dt + a.offset > a.traj.start + a.traj.dur - 1 / 1000000) := by
  obtain ⟨m1, m2, m3⟩ := move_rel a sim dt st hd ho
  rw [step_active a hw]
  have hfp := finish_parts a w st.s dt (move a w sim dt st)
  refine ⟨by rw [hfp.2.1, m1], by rw [hfp.1, m2], ?_⟩
  have hi := end_rel a w dt (move a w sim dt st) hd
  rw [m1] at hi
  unfold finish
  split_ifs with h
  · simp only [true_iff]; exact hi.mp h
  · rw [m3, he]
    simp only [Bool.false_eq_true, false_iff]
    exact fun e => h (hi.mpr e)

/-- C107: with relative time the entity is where the trajectory is at the time since the start of the action, times the
scale, plus the offset; the action ends in the first step in which that time is the end of the trajectory. -/
theorem relative_run (a : Act) (w : Who) (hd : a.domain = Domain.relative) (ho : w.over = false) :
    ∀ (dts : List ℝ) (sim : ℝ) (st : St), Active w sim → (∀ d ∈ dts, 0 ≤ d) → st.ended = false →
    ((run a w sim dts st).ended = false → (run a w sim dts st).time = st.time + a.scale * dts.sum ∧
      (dts ≠ [] → (run a w sim dts st).s = evalS a.traj (a.traj.sAt (st.time + a.scale * dts.sum + a.offset)))) ∧
    ((run a w sim dts st).ended = true ↔ ∃ pre d post, dts = pre ++ d :: post ∧
      st.time + a.scale * (pre.sum + d) + a.offset > a.traj.start + a.traj.dur - 1 / 1000000)
  | [], _, st, _, _, he => by
    refine ⟨fun _ => ⟨by simp [run], by simp⟩, ?_⟩
    show st.ended = true ↔ _
    rw [he]; simp
  | d :: r, sim, st, hw, hp, he => by
    have hdp := hp d (by simp)
    have hw' : Active w (sim + d) := by
      rcases hw with h | h
      · exact Or.inl h
      · exact Or.inr (by linarith)
    have hrun : run a w sim (d :: r) st = run a w (sim + d) r (step a w sim d st) := by
      conv_lhs => unfold run
      rw [he]; rfl
    obtain ⟨s1, s2, s3⟩ := step_rel a hw d st hd ho he
    rw [hrun]
    rcases hq : (step a w sim d st).ended
    · obtain ⟨i1, i2⟩ := relative_run a w hd ho r (sim + d) (step a w sim d st) hw' (fun x hx => hp x (by simp [hx])) hq
      rw [s1] at i1 i2
      refine ⟨fun h => ⟨?_, fun _ => ?_⟩, ?_⟩
      · rw [(i1 h).1, List.sum_cons]; ring
      · rcases r with _ | ⟨e, r⟩
        · show (step a w sim d st).s = _
          rw [s2]; simp
        · rw [(i1 h).2 (by simp)]
          congr 2
          simp only [List.sum_cons]
          ring
      · rw [i2]
        constructor
        · rintro ⟨pre, e, post, h1, h2⟩
          exact ⟨d :: pre, e, post, by rw [h1]; rfl, by rw [List.sum_cons]; linarith⟩
        · rintro ⟨pre, e, post, h1, h2⟩
          rcases pre with _ | ⟨q, l⟩
          · simp only [List.nil_append, List.cons.injEq] at h1
            rw [← h1.1] at h2
            simp only [List.sum_nil, zero_add] at h2
            rw [s3.mpr h2] at hq
            exact absurd hq (by simp)
          · simp only [List.cons_append, List.cons.injEq] at h1
            refine ⟨l, e, post, h1.2, ?_⟩
            rw [List.sum_cons, ← h1.1] at h2
            linarith
    · have hr : run a w (sim + d) r (step a w sim d st) = step a w sim d st := by
        rcases r with _ | ⟨e, r⟩
        · rfl
        · unfold run; rw [hq]; rfl
      rw [hr]
      refine ⟨fun h => absurd h (by rw [hq]; simp), ?_⟩
      rw [hq]
      simp only [true_iff]
      exact ⟨[], d, r, rfl, by simpa using s3.mp hq⟩

/-- C107: with absolute time the entity is at the end of the step where the trajectory is at that simulation time, times
the scale, plus the offset (and the headstart of a ghost), wherever it was before; the action ends when that time is the
end of the trajectory. -/
theorem absolute_step (a : Act) {w : Who} {sim : ℝ} (hw : Active w sim) (dt : ℝ) (st : St)
    (hd : a.domain = Domain.absolute) (ho : w.over = false) (he : st.ended = false) :
    (step a w sim dt st).s = evalS a.traj (a.traj.sAt ((sim + dt) * a.scale + (if w.ghost then w.lead else 0) + a.offset)) ∧
    ((step a w sim dt st).ended = true ↔ (sim + dt) * a.scale + (if w.ghost then w.lead else 0) + a.offset >
      a.traj.start + a.traj.dur - 1 / 1000000) := by
  have e : move a w sim dt st = turn a (moveAbs a w sim dt st) := by
    unfold move moveBy
    rw [if_neg (by rw [hd, ho]; simp), if_neg (by rw [hd]; simp)]
  have hl : lead a w = if w.ghost then w.lead else 0 := by
    unfold lead; rw [hd]; simp
  have ht : absTime a w sim dt st = (sim + dt) * a.scale := by
    unfold absTime
    rw [if_pos]
    rcases hw with h | h
    · exact Or.inl h
    · right; rw [small_eq]; linarith
  have m : (moveAbs a w sim dt st).s = evalS a.traj (a.traj.sAt ((sim + dt) * a.scale + (if w.ghost then w.lead else 0) + a.offset)) ∧
      (moveAbs a w sim dt st).time = (sim + dt) * a.scale ∧ (moveAbs a w sim dt st).ended = st.ended := by
    rw [← hl, ← ht]
    unfold moveAbs absS
    split_ifs <;> exact ⟨rfl, rfl, rfl⟩
  have htp := turn_parts a (moveAbs a w sim dt st)
  rw [step_active a hw, e]
  refine ⟨by rw [(finish_parts _ _ _ _ _).1, htp.1, m.1], ?_⟩
  have hi : (endPlace a dt (turn a (moveAbs a w sim dt st)) ∨ endTime a w (turn a (moveAbs a w sim dt st))) ↔
      (sim + dt) * a.scale + (if w.ghost then w.lead else 0) + a.offset > a.traj.start + a.traj.dur - 1 / 1000000 := by
    unfold endPlace endTime
    rw [htp.2.1, m.2.1, hl, hd, small_eq]
    simp [add_assoc]
  unfold finish
  by_cases h : endPlace a dt (turn a (moveAbs a w sim dt st)) ∨ endTime a w (turn a (moveAbs a w sim dt st))
  · rw [if_pos h]
    simp only [true_iff]; exact hi.mp h
  · rw [if_neg h, htp.2.2.2.2.2, m.2.2, he]
    simp only [Bool.false_eq_true, false_iff]
    exact fun e => h (hi.mpr e)

/-- C107: with relative time the speed times the time step is the movement, negative if the heading is against it, until
the end of the trajectory. -/
theorem relative_speed (a : Act) {w : Who} {sim dt : ℝ} (hw : Active w sim) (hdt : dt > 1 / 1000000) (st : St)
    (hd : a.domain = Domain.relative) (ho : w.over = false)
    (hin : st.time + a.scale * dt + a.offset < a.traj.start + a.traj.dur + 1 / 1000000) :
    (step a w sim dt st).speed * dt = headSign st.h (a.traj.hTrue st.s) * ((step a w sim dt st).s - st.s) := by
  have hp : dt ≠ 0 := by intro h; rw [h] at hdt; norm_num at hdt
  have e : move a w sim dt st = turn a (moveRel a dt st) := by
    unfold move moveBy
    rw [if_neg (by rw [hd, ho]; simp), if_pos hd]
  have htp := turn_parts a (moveRel a dt st)
  have hfp := finish_parts a w st.s dt (turn a (moveRel a dt st))
  rw [step_active a hw, e, hfp.1, hfp.2.2.1, htp.1, htp.2.2.1]
  have hm : (moveRel a dt st).s = relS a dt st ∧
      (moveRel a dt st).speed = newSpeed a (sign (relS a dt st - st.s)) (relS a dt st) dt st := by
    unfold moveRel
    rw [if_pos ⟨by unfold relTime; rw [small_eq]; exact hin, by rw [small_eq]; exact hdt⟩]
    exact ⟨rfl, rfl⟩
  rw [hm.1, hm.2]
  unfold newSpeed
  rw [div_mul_cancel₀ _ hp]
  linear_combination headSign st.h (a.traj.hTrue st.s) * sign_abs (relS a dt st - st.s)

theorem moveAbs_speed (a : Act) (w : Who) (sim dt : ℝ) (st : St) (hd : a.domain = Domain.absolute) (ho : w.over = false)
    (hw : Active w sim) : (step a w sim dt st).speed = (moveAbs a w sim dt st).speed := by
  have e : move a w sim dt st = turn a (moveAbs a w sim dt st) := by
    unfold move moveBy
    rw [if_neg (by rw [hd, ho]; simp), if_neg (by rw [hd]; simp)]
  rw [step_active a hw, e, (finish_parts _ _ _ _ _).2.2.1, (turn_parts _ _).2.2.1]

/-- C107: with absolute time the speed times the time step is the size of the movement, with the sign of the heading, until
the end of the trajectory. Missing: an offset other than 0. -/
theorem absolute_speed_partial (a : Act) {w : Who} {sim dt : ℝ} (hw : Active w sim) (hdt : dt > 1 / 1000000) (st : St)
    (hd : a.domain = Domain.absolute) (ho : w.over = false) (hz : a.offset = 0) (he : st.ended = false)
    (hin : (step a w sim dt st).ended = false) :
    (step a w sim dt st).speed * dt = headSign st.h (a.traj.hTrue st.s) * |(step a w sim dt st).s - st.s| := by
  have hp : dt ≠ 0 := by intro h; rw [h] at hdt; norm_num at hdt
  obtain ⟨s1, s2⟩ := absolute_step a hw dt st hd ho he
  have hl : lead a w = if w.ghost then w.lead else 0 := by
    unfold lead; rw [hd]; simp
  have ht : absTime a w sim dt st = (sim + dt) * a.scale := by
    unfold absTime
    rw [if_pos]
    rcases hw with h | h
    · exact Or.inl h
    · right; rw [small_eq]; linarith
  have hlt : ¬((sim + dt) * a.scale + (if w.ghost then w.lead else 0) + a.offset >
      a.traj.start + a.traj.dur - 1 / 1000000) := fun h => by rw [s2.mpr h] at hin; exact absurd hin (by simp)
  rw [moveAbs_speed a w sim dt st hd ho hw, s1]
  have hm : (moveAbs a w sim dt st).speed = newSpeed a 1 (absS a w sim dt st) dt st := by
    unfold moveAbs
    rw [if_pos]
    refine ⟨by rw [small_eq]; exact hdt, ?_⟩
    rw [ht, hl, small_eq]
    rw [hz] at hlt
    linarith
  rw [hm]
  unfold newSpeed absS
  rw [div_mul_cancel₀ _ hp, ht, hl]
  ring

/-- C107: with absolute time and a negative offset the speed is no longer updated once the time without offset is past the
end, though the entity goes on. -/
theorem absolute_stale_fails : ¬∀ (a : Act) (w : Who) (sim dt : ℝ) (st : St), Active w sim → dt > 1 / 1000000 →
    a.domain = Domain.absolute → w.over = false → st.ended = false → (step a w sim dt st).ended = false →
    |(step a w sim dt st).speed| * dt = |(step a w sim dt st).s - st.s| := by
  intro h
  let a : Act := ⟨straight, .absolute, 1, -5, 0, false⟩
  let w : Who := ⟨false, 0, false⟩
  let st : St := ⟨60, 11, 3, 0, 1, true, 1, 0, false⟩
  have hw : Active w 11 := Or.inr (by norm_num)
  obtain ⟨s1, s2⟩ := absolute_step a hw 1 st rfl rfl rfl
  have hs : (step a w 11 1 st).s = 70 := by
    rw [s1]
    show evalS straight (10 * ((11 + 1) * 1 + (if false = true then 0 else 0) + -5)) = 70
    unfold evalS
    rw [small_eq, if_neg] <;> (try show ¬_ > (100 : ℝ) - 1 / 1000000) <;> norm_num
  have he : (step a w 11 1 st).ended = false := by
    rcases hq : (step a w 11 1 st).ended
    · rfl
    · have := s2.mp hq
      change ((11 : ℝ) + 1) * 1 + (if false = true then 0 else 0) + -5 > 0 + 10 - 1 / 1000000 at this
      norm_num at this
  have hv : (step a w 11 1 st).speed = 3 := by
    rw [moveAbs_speed a w 11 1 st rfl rfl hw]
    unfold moveAbs
    rw [if_neg]
    rintro ⟨_, h2⟩
    have ht : absTime a w 11 1 st = 12 := by
      unfold absTime
      rw [if_pos (Or.inr (by rw [small_eq]; norm_num))]
      show ((11 : ℝ) + 1) * 1 = 12
      norm_num
    have hl : lead a w = 0 := by
      unfold lead
      rw [if_neg]
      rintro ⟨_, h⟩
      exact absurd h (by simp [w])
    rw [ht, hl, small_eq] at h2
    change (12 : ℝ) + 0 < 0 + 10 + 1 / 1000000 at h2
    norm_num at h2
  have := h a w 11 1 st hw (by norm_num) rfl rfl rfl he
  rw [hs, hv] at this
  change |(3 : ℝ)| * 1 = |70 - 60| at this
  norm_num at this

theorem rest_rel (a : Act) {w : Who} {sim dt : ℝ} (hw : Active w sim) (st : St) (hd : a.domain = Domain.relative)
    (ho : w.over = false) (he : st.ended = false) (hend : (step a w sim dt st).ended = true) :
    (step a w sim dt st).rest =
      (st.time + a.scale * dt + a.offset - (a.traj.start + a.traj.dur)) * (step a w sim dt st).speed := by
  obtain ⟨s1, s2, s3⟩ := step_rel a hw dt st hd ho he
  obtain ⟨m1, m2, m3⟩ := move_rel a (w := w) sim dt st hd ho
  have hi := (end_rel a w dt (move a w sim dt st) hd)
  rw [m1] at hi
  have hE := hi.mpr (s3.mp hend)
  have hT : endTime a w (move a w sim dt st) := by
    rcases hE with h | h
    · exact absurd (hd.symm.trans h.1) (by simp)
    · exact h
  rw [step_active a hw, (finish_parts _ _ _ _ _).2.2.1]
  unfold finish
  rw [if_pos hE]
  show remaining a w st.s dt (move a w sim dt st) = _
  unfold remaining
  rw [if_neg (by rw [hd]; simp), if_pos hT, m1, lead_rel a w hd]
  ring

/-- C107: with relative time at scale 1, the way past the end is the speed times the part of the step past the end.
Missing: other scales. -/
theorem relative_rest_partial (a : Act) {w : Who} {sim dt : ℝ} (hw : Active w sim) (st : St)
    (hd : a.domain = Domain.relative) (ho : w.over = false) (he : st.ended = false) (h1 : a.scale = 1)
    (hend : (step a w sim dt st).ended = true) :
    (step a w sim dt st).rest = (dt - (a.traj.start + a.traj.dur - a.offset - st.time)) * (step a w sim dt st).speed := by
  rw [rest_rel a hw st hd ho he hend, h1]
  ring

/-- C107: at scale 2 the way past the end is twice as long as it should be: the entity that passed the trajectory at
constant speed jumps ahead. -/
theorem relative_rest_fails : ¬∀ (a : Act) (w : Who) (sim dt : ℝ) (st : St), Active w sim → a.domain = Domain.relative →
    w.over = false → st.ended = false → (∀ t, a.traj.sAt t = 10 * t) → st.s = 10 * (st.time + a.offset) →
    st.speed = 10 * a.scale → (step a w sim dt st).ended = true →
    (step a w sim dt st).s - st.s + (step a w sim dt st).rest = st.speed * dt := by
  intro h
  let a : Act := ⟨straight, .relative, 2, 0, 0, false⟩
  let w : Who := ⟨false, 0, false⟩
  let st : St := ⟨90, 9, 20, 0, 1, true, 1, 0, false⟩
  have hw : Active w 0 := Or.inr (le_refl _)
  obtain ⟨s1, s2, s3⟩ := step_rel a hw 1 st rfl rfl rfl
  have he : (step a w 0 1 st).ended = true := s3.mpr (by
    show (9 : ℝ) + 2 * 1 + 0 > 0 + 10 - 1 / 1000000
    norm_num)
  have hs : (step a w 0 1 st).s = 100 := by
    rw [s2]
    show evalS straight (10 * ((9 : ℝ) + 2 * 1 + 0)) = 100
    unfold evalS
    rw [if_pos]
    · rfl
    · rw [small_eq]
      show 10 * ((9 : ℝ) + 2 * 1 + 0) > 100 - 1 / 1000000
      norm_num
  have hv : (step a w 0 1 st).speed = 20 := by
    have e : move a w 0 1 st = turn a (moveRel a 1 st) := by
      unfold move moveBy
      rw [if_neg (by simp [a, w]), if_pos rfl]
    rw [step_active a hw, e, (finish_parts _ _ _ _ _).2.2.1, (turn_parts _ _).2.2.1]
    unfold moveRel
    rw [if_neg]
    rintro ⟨h2, _⟩
    rw [small_eq] at h2
    change (9 : ℝ) + 2 * 1 + 0 < 0 + 10 + 1 / 1000000 at h2
    norm_num at h2
  have hr := rest_rel a hw st rfl rfl rfl he
  rw [hv] at hr
  have := h a w 0 1 st hw rfl rfl rfl (fun _ => rfl) (by show (90 : ℝ) = 10 * (9 + 0); norm_num)
    (by show (20 : ℝ) = 10 * 2; norm_num) he
  rw [hs, hr] at this
  change (100 : ℝ) - 90 + (9 + 2 * 1 + 0 - (0 + 10)) * 20 = 20 * 1 at this
  norm_num at this

/-- C107: with a time reference and a controller in charge of the speed, the action does not end at the end of the
trajectory: the entity stands there whatever its speed. -/
theorem override_endless_fails (a : Act) (w : Who) (hd : a.domain ≠ Domain.none) (ho : w.over = true) :
    ∀ (dts : List ℝ) (sim : ℝ) (st : St), Active w sim → (∀ d ∈ dts, 0 ≤ d) → sign st.speed * st.head = 1 →
    Uniform a.traj st.expl → st.s = a.traj.len → st.ended = false →
    st.time + (lead a w + a.offset) ≤ a.traj.start + a.traj.dur - 1 / 1000000 →
    (run a w sim dts st).s = a.traj.len ∧ (run a w sim dts st).ended = false
  | [], _, _, _, _, _, _, hs, he, _ => ⟨hs, he⟩
  | d :: r, sim, st, hw, hp, hf, hu, hs, he, ht => by
    have hdp := hp d (by simp)
    have hw' : Active w (sim + d) := by
      rcases hw with h | h
      · exact Or.inl h
      · exact Or.inr (by linarith)
    have hrun : run a w sim (d :: r) st = run a w (sim + d) r (step a w sim d st) := by
      conv_lhs => unfold run
      rw [he]; rfl
    have hmv : move a w sim d st = turn a (moveSpeed a d st) := by
      unfold move moveBy
      rw [if_pos (Or.inr ho)]
    have htp := turn_parts a (moveSpeed a d st)
    have hth := turn_head a (moveSpeed a d st) hu
    have hm : (moveSpeed a d st).s = a.traj.len := by
      unfold moveSpeed; simp only; rw [hf, one_mul]
      unfold evalS
      rw [if_pos]
      rw [hs, small_eq]
      have : 0 ≤ |st.speed| * d := mul_nonneg (abs_nonneg _) hdp
      linarith
    have hstep : step a w sim d st = turn a (moveSpeed a d st) := by
      rw [step_active a hw, hmv]
      unfold finish
      rw [if_neg]
      rintro (h | h)
      · exact hd h.1
      · have := h.2
        rw [htp.2.1, small_eq] at this
        change st.time + (lead a w + a.offset) > _ at this
        linarith
    rw [hrun]
    refine override_endless_fails a w hd ho r (sim + d) _ hw' (fun x hx => hp x (by simp [hx])) ?_ ?_ ?_ ?_ ?_
    · rw [hstep, htp.2.2.1, hth.1]; exact hf
    · rw [hstep, hth.2]; exact hu
    · rw [hstep, htp.1, hm]
    · rw [hstep, htp.2.2.2.2.2]; exact he
    · rw [hstep, htp.2.1]; exact ht

/-- C107: the copy of an action for a ghost does not start where the action does: it starts at the time offset, taken as a
distance. -/
theorem copy_fails : ¬∀ (a : Act) (v : ℝ), (start (copy a) v).s = (start a v).s := by
  intro h
  have := h { plain with init := 50 } 0
  change evalS _ 0 = evalS _ 50 at this
  unfold evalS at this
  rw [small_eq] at this
  change (if (0 : ℝ) > 100 - 1 / 1000000 then (100 : ℝ) else 0) = if (50 : ℝ) > 100 - 1 / 1000000 then (100 : ℝ) else 50 at this
  norm_num at this

/-- The trajectory in relative time at half pace: after 5 s it is at 25 m. -/
example : (step ⟨straight, .relative, 1 / 2, 0, 0, false⟩ ⟨false, 0, false⟩ 0 5 ⟨0, 0, 10, 0, 1, true, 1, 0, false⟩).s
    = 25 := by
  rw [(step_rel _ (Or.inr (le_refl _)) 5 _ rfl rfl rfl).2.1]
  show evalS straight (10 * ((0 : ℝ) + 1 / 2 * 5 + 0)) = 25
  unfold evalS
  rw [small_eq, if_neg]
  · norm_num
  · show ¬10 * ((0 : ℝ) + 1 / 2 * 5 + 0) > 100 - 1 / 1000000
    norm_num

/-- Following 100 m at 10 m/s: after 5 s at 50 m. -/
example : (run plain ⟨false, 0, false⟩ 0 [2, 3] (start plain 10)).s = 50 := by
  have hs : (start plain 10).s = 0 := by
    show evalS straight 0 = 0
    unfold evalS
    rw [small_eq, if_neg]
    show ¬(0 : ℝ) > 100 - 1 / 1000000
    norm_num
  have hv : (start plain 10).speed = 10 := rfl
  have hsg : sign 10 = 1 := by unfold sign; rw [if_neg (by norm_num)]
  have hh : (start plain 10).head = 1 := headSign_line (Turns.refl _ _)
  have h := forward_run plain ⟨false, 0, false⟩ rfl rfl [2, 3] 0 (start plain 10) (Or.inr (le_refl _))
    (by intro d hd; simp at hd; rcases hd with rfl | rfl <;> norm_num) (by rw [hv]; norm_num) (by rw [hv, hh, hsg]; norm_num)
    (fun _ => rfl) (by rw [hs]; show (0 : ℝ) ≤ 100; norm_num) rfl
  rw [hs, hv] at h
  rcases h with ⟨_, h⟩ | ⟨_, _, pre, d, post, h1, _, h2, _⟩
  · rw [h]; norm_num
  · exfalso
    change 0 + |(10 : ℝ)| * (pre.sum + d) > 100 - 1 / 1000000 at h2
    rw [abs_of_pos (by norm_num)] at h2
    rcases pre with _ | ⟨p, _ | ⟨q, l⟩⟩
    · simp at h1; rw [← h1.1] at h2; norm_num at h2
    · simp at h1; rw [← h1.1, ← h1.2.1] at h2; norm_num at h2
    · simp at h1

end Verif.Follow
