import Verif.Teleport.Model
import Mathlib.Tactic.Linarith
import Mathlib.Tactic.Ring
import Mathlib.Tactic.LinearCombination
import Mathlib.Tactic.NormNum
/- Teleport actions: specification and theorems. -/
noncomputable section
namespace Verif.Teleport

/-! ## Specification -/

/-- The rear axle is where it belongs for the location: the reference point offset behind along the heading, within a millionth,
and moves as the object. -/
def RearOk (o : Obj) : Prop :=
  (o.rearX - (o.pos.loc.x - o.refOffset * Real.cos o.pos.loc.h)) ^ 2 + (o.rearY - (o.pos.loc.y - o.refOffset * Real.sin o.pos.loc.h)) ^ 2 ≤
    (1 / 1000000) ^ 2 ∧ o.rearVelX = o.pos.velX ∧ o.rearVelY = o.pos.velY

/-- All that hangs on the location of an object has followed it. -/
structure Settled (o : Obj) : Prop where
  rear : o.vehicle = true → RearOk o
  trailers : o.trailer = true → o.trailersFor = some o.pos.loc
  told : o.dirty = true

/-! ## Lemmas -/

theorem alignRear_pos (o : Obj) : (alignRear o).pos = o.pos ∧ (alignRear o).refOffset = o.refOffset ∧ (alignRear o).speed = o.speed ∧
    (alignRear o).trailersFor = o.trailersFor ∧ (alignRear o).trailer = o.trailer ∧ (alignRear o).vehicle = o.vehicle ∧
    (alignRear o).restart = o.restart ∧ (alignRear o).trailReset = o.trailReset ∧ (alignRear o).eventsReset = o.eventsReset := by
  unfold alignRear
  split <;> simp

theorem alignRear_ok (o : Obj) : RearOk (alignRear o) := by
  unfold alignRear
  split
  · refine ⟨?_, rfl, rfl⟩
    simp only
    have h1 : o.pos.loc.x + (-o.refOffset * Real.cos o.pos.loc.h - 0 * Real.sin o.pos.loc.h) -
        (o.pos.loc.x - o.refOffset * Real.cos o.pos.loc.h) = 0 := by ring
    have h2 : o.pos.loc.y + (-o.refOffset * Real.sin o.pos.loc.h + 0 * Real.cos o.pos.loc.h) -
        (o.pos.loc.y - o.refOffset * Real.sin o.pos.loc.h) = 0 := by ring
    rw [h1, h2]
    norm_num
  · rename_i c
    rw [not_not] at c
    refine ⟨?_, rfl, rfl⟩
    simp only
    have h1 : (o.pos.loc.x - (o.pos.loc.x - o.refOffset * Real.cos o.pos.loc.h)) ^ 2 +
        (o.pos.loc.y - (o.pos.loc.y - o.refOffset * Real.sin o.pos.loc.h)) ^ 2 = o.refOffset ^ 2 := by
      have := Real.sin_sq_add_cos_sq o.pos.loc.h
      linear_combination o.refOffset ^ 2 * this
    rw [h1]
    have := abs_lt.mp c
    nlinarith

theorem settle_spec (o : Obj) (ht : o.towed = false) : Settled (settle o) ∧ (settle o).pos = o.pos ∧ (settle o).speed = o.speed ∧
    (settle o).restart = o.restart ∧ (settle o).trailReset = o.trailReset ∧ (settle o).eventsReset = o.eventsReset := by
  obtain ⟨o1, ho1⟩ : ∃ o1, (if !o.towed && o.trailer then { o with trailersFor := some o.pos.loc } else o) = o1 := ⟨_, rfl⟩
  have key : settle o = { (if o1.vehicle then alignRear o1 else o1) with dirty := true } := by
    rw [← ho1]
    rfl
  rw [ht] at ho1
  rw [key]
  have e : o1.pos = o.pos ∧ o1.speed = o.speed ∧ o1.restart = o.restart ∧ o1.trailReset = o.trailReset ∧ o1.eventsReset = o.eventsReset ∧
      o1.trailer = o.trailer ∧ o1.vehicle = o.vehicle ∧ (o.trailer = true → o1.trailersFor = some o.pos.loc) := by
    rw [← ho1]
    by_cases h : o.trailer = true <;> simp [h]
  obtain ⟨e1, e2, e3, e4, e5, e6, e7, e8⟩ := e
  by_cases hv : o1.vehicle = true
  · rw [if_pos hv]
    obtain ⟨a1, a2, a3, a4, a5, a6, a7, a8, a9⟩ := alignRear_pos o1
    refine ⟨⟨fun _ => ?_, ?_, rfl⟩, ?_, ?_, ?_, ?_, ?_⟩
    · exact alignRear_ok o1
    · intro h
      change (alignRear o1).trailersFor = some (alignRear o1).pos.loc
      rw [a4, a1, e1]
      exact e8 (by rw [← e6, ← a5]; exact h)
    · simp [a1, e1]
    · simp [a3, e2]
    · simp [a7, e3]
    · simp [a8, e4]
    · simp [a9, e5]
  · rw [if_neg hv]
    refine ⟨⟨fun h => absurd h hv, ?_, rfl⟩, e1, e2, e3, e4, e5⟩
    intro h
    change o1.trailersFor = some o1.pos.loc
    rw [e1]
    exact e8 (by rw [← e6]; exact h)

theorem teleportTo_fst (on : ℝ → Loc) (p t : Pos) : (match p.trajS with
    | some s => if t.trajS.isSome then (p, setTrajS on t s) else (p, t)
    | none => (p, t)).1 = p := by
  split
  · split <;> rfl
  · rfl

/-! ## Theorems -/

/-- C184: objects that are towed, or controlled in override mode, are not teleported; nothing changes. -/
theorem teleport_ignored (ev : Pos → Pos) (on : ℝ → Loc) (gr : Bool) (time : ℝ) (o : Obj) (target : Pos)
    (h : o.overridden = true ∨ o.towed = true) : teleportStart ev on gr time o target = (o, target) := by
  unfold teleportStart
  rcases h with h | h <;> simp [h]

/-- C184: a teleport action puts any other object where its target is, resolved with the route of the object if it has one;
speed, velocity, configuration and route of the object stay, its place on the route is looked up anew, and trailers and
rear axle follow. What is missing: the place on a trajectory, see `teleport_trajectory_fails`. -/
theorem teleport_partial (ev : Pos → Pos) (on : ℝ → Loc) (gr : Bool) (time : ℝ) (o : Obj) (target : Pos)
    (h1 : o.overridden = false) (h2 : o.towed = false) (h3 : o.ghost = false ∨ gr = false ∨ time ≤ 1 / 1000000) :
    ∃ t : Pos, (∀ r, o.pos.route = some r → t = { target with route := some r }) ∧ (o.pos.route = none → t = target) ∧
      (target.relative = false → target.trajS = none → (teleportStart ev on gr time o target).1.pos.loc = target.loc) ∧
      (target.relative = true ∨ target.trajS ≠ none → (teleportStart ev on gr time o target).1.pos.loc = (ev t).loc) ∧
      Settled (teleportStart ev on gr time o target).1 ∧
      (teleportStart ev on gr time o target).1.speed = o.speed ∧
      (teleportStart ev on gr time o target).1.pos.velX = o.pos.velX ∧ (teleportStart ev on gr time o target).1.pos.velY = o.pos.velY ∧
      (teleportStart ev on gr time o target).1.pos.config = o.pos.config ∧
      (teleportStart ev on gr time o target).1.pos.route = o.pos.route ∧
      (o.pos.route ≠ none → (teleportStart ev on gr time o target).1.pos.routeFor = some (teleportStart ev on gr time o target).1.pos.loc) ∧
      ((teleportStart ev on gr time o target).1.restart = o.restart ∧ (teleportStart ev on gr time o target).1.trailReset = o.trailReset ∧
        (teleportStart ev on gr time o target).1.eventsReset = o.eventsReset) := by
  have hng : ¬ (o.ghost = true ∧ gr = true ∧ time > 1 / 1000000) := by
    rintro ⟨a, b, c⟩
    rcases h3 with h | h | h
    · rw [a] at h; cases h
    · rw [b] at h; cases h
    · linarith
  have hrel : relocate ev on gr time o target = ({ o with pos := (teleportTo ev on o.pos (copyRoute target o.pos)).1 },
      (teleportTo ev on o.pos (copyRoute target o.pos)).2) := by
    unfold relocate
    rw [if_neg hng]
  have hst : teleportStart ev on gr time o target = (settle { o with pos := (teleportTo ev on o.pos (copyRoute target o.pos)).1 },
      (teleportTo ev on o.pos (copyRoute target o.pos)).2) := by
    unfold teleportStart
    rw [hrel]
    simp [h1, h2]
  obtain ⟨s1, s2, s3, s4, s5, s6⟩ := settle_spec { o with pos := (teleportTo ev on o.pos (copyRoute target o.pos)).1 } h2
  rw [hst]
  simp only at s2 s3 s4 s5 s6 ⊢
  rw [s2, s3, s4, s5, s6]
  have hp : (teleportTo ev on o.pos (copyRoute target o.pos)).1 =
      let t := if (copyRoute target o.pos).relative ∨ (copyRoute target o.pos).trajS.isSome then ev (copyRoute target o.pos)
        else copyRoute target o.pos
      if o.pos.route.isSome then { o.pos with loc := t.loc, routeFor := some t.loc } else { o.pos with loc := t.loc } := by
    exact (teleportTo_fst on _ _).trans rfl
  rw [hp] at s1 ⊢
  have hcr : (copyRoute target o.pos).relative = target.relative ∧ (copyRoute target o.pos).trajS = target.trajS ∧
      (copyRoute target o.pos).loc = target.loc := by
    unfold copyRoute
    split <;> simp
  refine ⟨copyRoute target o.pos, ?_, ?_, ?_, ?_, s1, rfl, ?_, ?_, ?_, ?_, ?_, rfl, rfl, rfl⟩
  · intro r hr
    simp [copyRoute, hr]
  · intro hr
    simp [copyRoute, hr]
  · intro a b
    simp only [hcr.1, hcr.2.1, a, b]
    split <;> simp [hcr.2.2]
  · intro a
    have : (target.relative = true ∨ target.trajS.isSome = true) := by
      rcases a with a | a
      · exact .inl a
      · exact .inr (Option.isSome_iff_ne_none.mpr a)
    simp only [hcr.1, hcr.2.1, this, if_true]
    split <;> rfl
  all_goals dsimp only
  · split <;> rfl
  · split <;> rfl
  · split <;> rfl
  · split <;> rfl
  · intro a
    rw [if_pos (Option.isSome_iff_ne_none.mpr a)]

/-- C184: a ghost told to restart, after the start of the simulation, is put where its ego vehicle is, with its speed and velocity;
its trail and the events are reset, and the target is not used. -/
theorem teleport_restart (ev : Pos → Pos) (on : ℝ → Loc) (time : ℝ) (o : Obj) (target : Pos) (v : ℝ) (p : Pos)
    (h1 : o.overridden = false) (h2 : o.towed = false) (h3 : o.ghost = true) (h4 : time > 1 / 1000000) (h5 : o.ego = some (v, p)) :
    let r := (teleportStart ev on true time o target).1
    r.pos.loc = p.loc ∧ r.pos.velX = p.velX ∧ r.pos.velY = p.velY ∧ r.speed = v ∧ r.restart = true ∧ r.trailReset = true ∧
      r.eventsReset = true ∧ Settled r ∧ (teleportStart ev on true time o target).2 = target := by
  have hrel : relocate ev on true time o target =
      ({ o with restart := true, trailReset := true, speed := v, pos := duplicate o.pos p, eventsReset := true }, target) := by
    unfold relocate
    rw [if_pos ⟨h3, rfl, h4⟩]
    simp [h5]
  have hst : teleportStart ev on true time o target =
      (settle { o with restart := true, trailReset := true, speed := v, pos := duplicate o.pos p, eventsReset := true }, target) := by
    unfold teleportStart
    rw [hrel]
    simp [h1, h2]
  obtain ⟨s1, s2, s3, s4, s5, s6⟩ := settle_spec
    { o with restart := true, trailReset := true, speed := v, pos := duplicate o.pos p, eventsReset := true } h2
  intro r
  have hr : r = settle { o with restart := true, trailReset := true, speed := v, pos := duplicate o.pos p, eventsReset := true } := by
    change (teleportStart ev on true time o target).1 = _
    rw [hst]
  rw [hr, hst, s2, s3, s4, s5, s6]
  exact ⟨rfl, rfl, rfl, rfl, rfl, rfl, rfl, s1, rfl⟩

/-- A position at (x, 0), s on a trajectory, if any. -/
def witnessPos (x : ℝ) (s : Option ℝ) : Pos := ⟨⟨x, 0, 0, 0⟩, 0, 0, 0, false, none, none, s⟩

/-- A car there. -/
def witnessCar (x : ℝ) (s : Option ℝ) : Obj :=
  ⟨witnessPos x s, 10, false, false, false, true, false, none, 1, 0, 0, 0, 0, none, false, false, false, false⟩

/-- C184: an object on a trajectory teleported to a place 50 m along it goes on from where it was on the trajectory; instead the
target of the action is changed. -/
theorem teleport_trajectory_fails : ¬ ∀ (ev : Pos → Pos) (on : ℝ → Loc) (o : Obj) (target : Pos) (s0 s : ℝ),
    o.overridden = false → o.towed = false → o.ghost = false → o.pos.trajS = some s0 → target.trajS = some s → target.loc = on s → ev target = target →
    (teleportStart ev on false 0 o target).1.pos.trajS = some s ∧ (teleportStart ev on false 0 o target).2.trajS = some s := by
  intro h
  have := (h id (fun s => ⟨s, 0, 0, 0⟩) (witnessCar 20 (some 20)) (witnessPos 50 (some 50)) 20 50 rfl rfl rfl rfl rfl rfl rfl).1
  have e : (teleportStart id (fun s => ⟨s, 0, 0, 0⟩) false 0 (witnessCar 20 (some 20)) (witnessPos 50 (some 50))).1.pos.trajS = some 20 := by
    simp [teleportStart, relocate, settle, alignRear, witnessCar, witnessPos, teleportTo, copyRoute, copyLocation]
    split <;> rfl
  rw [e] at this
  norm_num at this

/-- A car at 20 is put to 50. -/
example : (teleportStart id (fun s => ⟨s, 0, 0, 0⟩) false 0 (witnessCar 20 none) (witnessPos 50 none)).1.pos.loc = ⟨50, 0, 0, 0⟩ := by
  obtain ⟨t, -, -, h, -⟩ := teleport_partial id (fun s => ⟨s, 0, 0, 0⟩) false 0 (witnessCar 20 none) (witnessPos 50 none) rfl rfl (.inl rfl)
  exact h rfl rfl

/-- A ghost at 80 restarts at its ego vehicle at 20. -/
example : (teleportStart id (fun s => ⟨s, 0, 0, 0⟩) true 3 { witnessCar 80 none with ghost := true, ego := some (7, witnessPos 20 none) }
    (witnessPos 50 none)).1.speed = 7 :=
  (teleport_restart id _ 3 _ (witnessPos 50 none) 7 (witnessPos 20 none) rfl rfl rfl (by norm_num) rfl).2.2.2.1

end Verif.Teleport
