import Verif.Udp.Model
/-
Driving by UDP messages: what a message says is what the entity does, and extrapolation between messages.
-/
namespace Verif.Udp
open Verif.Vehicle

/-! ### Messages as documented (docs/user_guide/controllers.adoc, UDPDriverController) -/

/-- State with position and heading. -/
def dXYH (id x y h speed wheel reckon : Nat) : Dgram := ⟨1, 3, id, [x, y, h, speed, wheel, reckon]⟩

/-- Complete state. -/
def dXYZHPR (id x y z h p r speed wheel reckon : Nat) : Dgram := ⟨1, 2, id, [x, y, z, h, p, r, speed, wheel, reckon]⟩

/-- Heading and speed only. -/
def dH (id h speed wheel reckon : Nat) : Dgram := ⟨1, 4, id, [h, speed, wheel, reckon]⟩

/-- Pedals and steering. -/
def dDriver (id throttle brake steering : Nat) : Dgram := ⟨1, 1, id, [throttle, brake, steering]⟩

/-- The messages of this step are `ds`. -/
def Takes (c : Ctrl) (arrived ds : List Dgram) : Prop := taken { c with queue := c.queue ++ arrived } = ds

/-! ### Steps without messages -/

theorem put_same (w : World) (id : Nat) (e : Ent) : put w id e id = some e := by simp [put]

theorem put_other (w : World) (id i : Nat) (e : Ent) (h : i ≠ id) : put w id e i = w i := by simp [put, h]

theorem put_put (w : World) (id : Nat) (e e' : Ent) : put (put w id e) id e' = put w id e' := by
  funext i; unfold put; split <;> rfl

theorem put_self (w : World) (id : Nat) (e : Ent) (h : w id = some e) : put w id e = w := by
  funext i; unfold put; split
  · rename_i hi; rw [hi, h]
  · rfl

theorem quiet (dbl : Nat → ℝ) (dt : ℝ) (c : Ctrl) (w : World) (hq : c.queue = []) :
    stepWith dbl [] dt (c, w) = proceed dbl false dt c w := by
  have : { c with queue := c.queue ++ [] } = c := by cases c; simp
  simp only [stepWith, this, step]
  rw [if_pos]
  simp only [taken, hq]
  split <;> rfl

/-- An entity displaced in the direction `h`. -/
noncomputable def shifted (e : Ent) (d h : ℝ) : Ent :=
  { e with x := e.x + d * Real.cos h, y := e.y + d * Real.sin h }

theorem silent_reckon (dbl : Nat → ℝ) (dts : List ℝ) (hdt : ∀ dt ∈ dts, dt > small) (c : Ctrl) (w : World) (e : Ent)
    (hq : c.queue = []) (he : w c.own = some e) (hh : c.veh.heading = e.h) (hr : reckons false c.last = true) :
    silent dbl dts (c, w) =
      (c, put w c.own (shifted e ((reckonBy dbl c.last).1 * dts.sum) (reckonBy dbl c.last).2)) := by
  induction dts generalizing w e with
  | nil => simp [silent, shifted, put_self w c.own e he]
  | cons dt r ih =>
    simp only [silent]
    rw [quiet dbl dt c w hq]
    have h1 : proceed dbl false dt c w = (c, put w c.own (reckon dbl c.last c.veh dt e)) := by
      simp [proceed, he, hdt dt (by simp), hr]
    rw [h1, ih (fun d hd => hdt d (by simp [hd])) _ (reckon dbl c.last c.veh dt e) (put_same _ _ _)
      (by simp [reckon])]
    rw [put_put]
    congr 2
    simp only [shifted, reckon, List.sum_cons, hh]
    congr 1 <;> ring

theorem silent_rest (dbl : Nat → ℝ) (dts : List ℝ) (c : Ctrl) (w : World) (e : Ent)
    (hq : c.queue = []) (he : w c.own = some e) (hr : reckons false c.last = false) (hd : c.last.mode ≠ driverInput) :
    silent dbl dts (c, w) = (c, w) := by
  induction dts with
  | nil => rfl
  | cons dt r ih =>
    simp only [silent]
    rw [quiet dbl dt c w hq]
    have h1 : proceed dbl false dt c w = (c, w) := by
      simp [proceed, he, hr, hd]
    rw [h1, ih]

/-! ### Reading -/

/-- What is read after the last of some datagrams. -/
theorem read_last (c : Ctrl) (ds : List Dgram) (d : Dgram) (h : taken c = ds ++ [d]) :
    (readAll c).msg = receive (ds.foldl receive c.msg) d := by
  simp [readAll, h]

/-- The step with a message for the own entity. -/
theorem step_own (dbl : Nat → ℝ) (dt : ℝ) (c : Ctrl) (w : World) (e : Ent) (ds : List Dgram) (d : Dgram)
    (h : taken c = ds ++ [d]) (hv : d.version = 1) (hid : d.objectId = c.own) (he : w c.own = some e) :
    step dbl dt c w = proceed dbl true dt
      { readAll c with
        last := receive (ds.foldl receive c.msg) d
        veh := placeVehicle (receive (ds.foldl receive c.msg) d)
          (applyState dbl (receive (ds.foldl receive c.msg) d) e) c.veh }
      (put w c.own (applyState dbl (receive (ds.foldl receive c.msg) d) e)) := by
  have h0 : (taken c).isEmpty = false := by rw [h]; simp
  have h1 : ((readAll c).msg.version ≠ 1) = False := by rw [read_last c ds d h]; simp [receive, hv]
  have h2 : (readAll c).msg.objectId = c.own := by rw [read_last c ds d h]; simp [receive, hid]
  simp only [step, h0, h1, h2, he, Bool.false_eq_true, if_false]
  rw [read_last c ds d h]

theorem left_nil {c : Ctrl} (hs : c.sync = false) : left c = [] := by simp [left, hs]

/-! ### State messages -/

/-- A message with position and heading puts its entity there, with its speed and wheel angle, and no other entity moves; without
further messages the entity then moves straight with this speed and heading if the message asks for it, and otherwise stays. -/
theorem xyh_followed (dbl : Nat → ℝ) (c : Ctrl) (w : World) (e : Ent) (hs : c.sync = false) (he : w c.own = some e)
    (ds : List Dgram) (x y h speed wheel f : Nat) (dt : ℝ) (dts : List ℝ) (hdt : ∀ t ∈ dts, t > small) :
    let s := silent dbl dts (stepWith dbl (ds ++ [dXYH c.own x y h speed wheel f]) dt (c, w))
    let moved := if f % 256 = 0 then 0 else dbl speed * dts.sum
    s.2 c.own = some ⟨dbl x + moved * Real.cos (dbl h), dbl y + moved * Real.sin (dbl h), dbl h, none, dbl speed, dbl wheel⟩ ∧
    ∀ i, i ≠ c.own → s.2 i = w i := by
  intro s moved
  have ht : taken { c with queue := c.queue ++ (ds ++ [dXYH c.own x y h speed wheel f]) }
      = (c.queue ++ ds) ++ [dXYH c.own x y h speed wheel f] := by simp [taken, hs]
  have h1 := step_own dbl dt { c with queue := c.queue ++ (ds ++ [dXYH c.own x y h speed wheel f]) } w e _ _ ht rfl rfl he
  generalize hm : receive (List.foldl receive c.msg (c.queue ++ ds)) (dXYH c.own x y h speed wheel f) = m at h1
  have hmode : m.mode = 3 := by rw [← hm]; rfl
  have w0 : m.word 0 = x := by rw [← hm]; rfl
  have w1 : m.word 1 = y := by rw [← hm]; rfl
  have w2 : m.word 2 = h := by rw [← hm]; rfl
  have w3 : m.word 3 = speed := by rw [← hm]; rfl
  have w4 : m.word 4 = wheel := by rw [← hm]; rfl
  have w5 : m.word 5 = f := by rw [← hm]; rfl
  have happ : applyState dbl m e = ⟨dbl x, dbl y, dbl h, none, dbl speed, dbl wheel⟩ := by
    simp [applyState, hmode, stateXYZHPR, stateXYH, w0, w1, w2, w3, w4]
  rw [happ] at h1
  generalize hc' : ({ readAll { c with queue := c.queue ++ (ds ++ [dXYH c.own x y h speed wheel f]) } with
      last := m
      veh := placeVehicle m ⟨dbl x, dbl y, dbl h, none, dbl speed, dbl wheel⟩ c.veh } : Ctrl) = c' at h1
  have hown : c'.own = c.own := by rw [← hc']; rfl
  have hlast : c'.last = m := by rw [← hc']
  have hqueue : c'.queue = [] := by rw [← hc']; simp [readAll, left, hs]
  have hveh : c'.veh.heading = dbl h := by rw [← hc']; simp [placeVehicle, hmode, stateXYH]
  have hp : proceed dbl true dt c' (put w c.own ⟨dbl x, dbl y, dbl h, none, dbl speed, dbl wheel⟩)
      = (c', put w c.own ⟨dbl x, dbl y, dbl h, none, dbl speed, dbl wheel⟩) := by
    simp [proceed, hown, put_same, hlast, reckons, hmode, stateH, driverInput]
  have hstep : stepWith dbl (ds ++ [dXYH c.own x y h speed wheel f]) dt (c, w)
      = (c', put w c.own ⟨dbl x, dbl y, dbl h, none, dbl speed, dbl wheel⟩) := by
    rw [← hp, ← h1]; rfl
  have hrec : reckons false c'.last = !(decide (f % 256 = 0)) := by
    simp [hlast, reckons, hmode, stateH, stateXYH, stateXYZHPR, w5, flag, bne]
    by_cases hf : f % 256 = 0 <;> simp [hf]
  have key : s.2 = put w c.own ⟨dbl x + moved * Real.cos (dbl h), dbl y + moved * Real.sin (dbl h), dbl h, none, dbl speed,
      dbl wheel⟩ := by
    simp only [s, hstep]
    by_cases hf : f % 256 = 0
    · rw [silent_rest dbl dts c' _ ⟨dbl x, dbl y, dbl h, none, dbl speed, dbl wheel⟩ hqueue (by rw [hown, put_same])
        (by rw [hrec]; simp [hf]) (by rw [hlast, hmode]; decide)]
      simp [moved, hf]
    · rw [silent_reckon dbl dts hdt c' _ ⟨dbl x, dbl y, dbl h, none, dbl speed, dbl wheel⟩ hqueue (by rw [hown, put_same])
        hveh (by rw [hrec]; simp [hf])]
      simp only [hown, put_put]
      simp [moved, hf, shifted, hlast, reckonBy, hmode, stateH, stateXYH, w2, w3]
  rw [key]
  exact ⟨put_same _ _ _, fun i hi => put_other _ _ _ _ hi⟩

/-- A message with heading and speed turns its entity and sets its speed; the entity moves straight with them, from this step on, if
the message asks for it, and otherwise stays. -/
theorem h_followed (dbl : Nat → ℝ) (c : Ctrl) (w : World) (e : Ent) (hs : c.sync = false) (he : w c.own = some e)
    (ds : List Dgram) (h speed wheel f : Nat) (dt : ℝ) (hd : dt > small) (dts : List ℝ) (hdt : ∀ t ∈ dts, t > small) :
    let s := silent dbl dts (stepWith dbl (ds ++ [dH c.own h speed wheel f]) dt (c, w))
    let moved := if f % 256 = 0 then 0 else dbl speed * (dt + dts.sum)
    s.2 c.own = some ⟨e.x + moved * Real.cos (dbl h), e.y + moved * Real.sin (dbl h), dbl h, none, dbl speed, dbl wheel⟩ ∧
    ∀ i, i ≠ c.own → s.2 i = w i := by
  intro s moved
  have ht : taken { c with queue := c.queue ++ (ds ++ [dH c.own h speed wheel f]) }
      = (c.queue ++ ds) ++ [dH c.own h speed wheel f] := by simp [taken, hs]
  have h1 := step_own dbl dt { c with queue := c.queue ++ (ds ++ [dH c.own h speed wheel f]) } w e _ _ ht rfl rfl he
  generalize hm : receive (List.foldl receive c.msg (c.queue ++ ds)) (dH c.own h speed wheel f) = m at h1
  have hmode : m.mode = 4 := by rw [← hm]; rfl
  have w0 : m.word 0 = h := by rw [← hm]; rfl
  have w1 : m.word 1 = speed := by rw [← hm]; rfl
  have w2 : m.word 2 = wheel := by rw [← hm]; rfl
  have w3 : m.word 3 = f := by rw [← hm]; rfl
  have happ : applyState dbl m e = ⟨e.x, e.y, dbl h, none, dbl speed, dbl wheel⟩ := by
    simp [applyState, hmode, stateXYZHPR, stateXYH, stateH, w0, w1, w2]
  rw [happ] at h1
  generalize hc' : ({ readAll { c with queue := c.queue ++ (ds ++ [dH c.own h speed wheel f]) } with
      last := m
      veh := placeVehicle m ⟨e.x, e.y, dbl h, none, dbl speed, dbl wheel⟩ c.veh } : Ctrl) = c' at h1
  have hown : c'.own = c.own := by rw [← hc']; rfl
  have hlast : c'.last = m := by rw [← hc']
  have hqueue : c'.queue = [] := by rw [← hc']; simp [readAll, left, hs]
  have hveh : c'.veh.heading = dbl h := by rw [← hc']; simp [placeVehicle, hmode, stateH]
  have hrec : ∀ b, reckons b c'.last = !(decide (f % 256 = 0)) := by
    intro b
    simp [hlast, reckons, hmode, stateH, stateXYH, stateXYZHPR, w3, flag, bne]
    by_cases hf : f % 256 = 0 <;> simp [hf]
  have hby : reckonBy dbl c'.last = (dbl speed, dbl h) := by simp [hlast, reckonBy, hmode, stateH, w0, w1]
  have hstep : stepWith dbl (ds ++ [dH c.own h speed wheel f]) dt (c, w)
      = proceed dbl true dt c' (put w c.own ⟨e.x, e.y, dbl h, none, dbl speed, dbl wheel⟩) := by
    rw [← h1]; rfl
  have key : s.2 = put w c.own ⟨e.x + moved * Real.cos (dbl h), e.y + moved * Real.sin (dbl h), dbl h, none, dbl speed,
      dbl wheel⟩ := by
    simp only [s, hstep]
    by_cases hf : f % 256 = 0
    · have hp : proceed dbl true dt c' (put w c.own ⟨e.x, e.y, dbl h, none, dbl speed, dbl wheel⟩)
          = (c', put w c.own ⟨e.x, e.y, dbl h, none, dbl speed, dbl wheel⟩) := by
        have hmd : c'.last.mode ≠ driverInput := by rw [hlast, hmode]; decide
        simp [proceed, hown, put_same, hrec, hf, hmd]
      rw [hp, silent_rest dbl dts c' _ ⟨e.x, e.y, dbl h, none, dbl speed, dbl wheel⟩ hqueue (by rw [hown, put_same])
        (by rw [hrec]; simp [hf]) (by rw [hlast, hmode]; decide)]
      simp [moved, hf]
    · have hp : proceed dbl true dt c' (put w c.own ⟨e.x, e.y, dbl h, none, dbl speed, dbl wheel⟩)
          = (c', put w c.own (reckon dbl c'.last c'.veh dt ⟨e.x, e.y, dbl h, none, dbl speed, dbl wheel⟩)) := by
        simp [proceed, hown, put_same, hrec, hf, hd, put_put]
      rw [hp, silent_reckon dbl dts hdt c' _ _ hqueue (by rw [hown, put_same]) (by simp [reckon]) (by rw [hrec]; simp [hf])]
      simp only [hown, put_put]
      congr 2
      simp only [moved, hf, shifted, reckon, hby, hveh, if_false]
      congr 1 <;> ring
  rw [key]
  exact ⟨put_same _ _ _, fun i hi => put_other _ _ _ _ hi⟩

/-- The state after a complete message. -/
theorem complete_step (dbl : Nat → ℝ) (c : Ctrl) (w : World) (e : Ent) (hs : c.sync = false) (he : w c.own = some e)
    (ds : List Dgram) (x y z h p r speed wheel f : Nat) (dt : ℝ) (dts : List ℝ) (hdt : ∀ t ∈ dts, t > small) :
    (silent dbl dts (stepWith dbl (ds ++ [dXYZHPR c.own x y z h p r speed wheel f]) dt (c, w))).2 =
      put w c.own ⟨dbl x + (if r % 256 = 0 then 0 else dbl speed * dts.sum) * Real.cos (dbl h),
        dbl y + (if r % 256 = 0 then 0 else dbl speed * dts.sum) * Real.sin (dbl h),
        dbl h, some (dbl z, dbl p, dbl r), dbl speed, dbl wheel⟩ := by
  have ht : taken { c with queue := c.queue ++ (ds ++ [dXYZHPR c.own x y z h p r speed wheel f]) }
      = (c.queue ++ ds) ++ [dXYZHPR c.own x y z h p r speed wheel f] := by simp [taken, hs]
  have h1 := step_own dbl dt { c with queue := c.queue ++ (ds ++ [dXYZHPR c.own x y z h p r speed wheel f]) } w e _ _ ht rfl rfl he
  generalize hm : receive (List.foldl receive c.msg (c.queue ++ ds)) (dXYZHPR c.own x y z h p r speed wheel f) = m at h1
  have hmode : m.mode = 2 := by rw [← hm]; rfl
  have w0 : m.word 0 = x := by rw [← hm]; rfl
  have w1 : m.word 1 = y := by rw [← hm]; rfl
  have w2 : m.word 2 = z := by rw [← hm]; rfl
  have w3 : m.word 3 = h := by rw [← hm]; rfl
  have w4 : m.word 4 = p := by rw [← hm]; rfl
  have w5 : m.word 5 = r := by rw [← hm]; rfl
  have w6 : m.word 6 = speed := by rw [← hm]; rfl
  have w7 : m.word 7 = wheel := by rw [← hm]; rfl
  have happ : applyState dbl m e = ⟨dbl x, dbl y, dbl h, some (dbl z, dbl p, dbl r), dbl speed, dbl wheel⟩ := by
    simp [applyState, hmode, stateXYZHPR, w0, w1, w2, w3, w4, w5, w6, w7]
  rw [happ] at h1
  generalize hc' : ({ readAll { c with queue := c.queue ++ (ds ++ [dXYZHPR c.own x y z h p r speed wheel f]) } with
      last := m
      veh := placeVehicle m ⟨dbl x, dbl y, dbl h, some (dbl z, dbl p, dbl r), dbl speed, dbl wheel⟩ c.veh } : Ctrl) = c' at h1
  have hown : c'.own = c.own := by rw [← hc']; rfl
  have hlast : c'.last = m := by rw [← hc']
  have hqueue : c'.queue = [] := by rw [← hc']; simp [readAll, left, hs]
  have hveh : c'.veh.heading = dbl h := by rw [← hc']; simp [placeVehicle, hmode, stateXYZHPR]
  have hp : proceed dbl true dt c' (put w c.own ⟨dbl x, dbl y, dbl h, some (dbl z, dbl p, dbl r), dbl speed, dbl wheel⟩)
      = (c', put w c.own ⟨dbl x, dbl y, dbl h, some (dbl z, dbl p, dbl r), dbl speed, dbl wheel⟩) := by
    simp [proceed, hown, put_same, hlast, reckons, hmode, stateH, driverInput]
  have hstep : stepWith dbl (ds ++ [dXYZHPR c.own x y z h p r speed wheel f]) dt (c, w)
      = (c', put w c.own ⟨dbl x, dbl y, dbl h, some (dbl z, dbl p, dbl r), dbl speed, dbl wheel⟩) := by
    rw [← hp, ← h1]; rfl
  have hrec : reckons false c'.last = !(decide (r % 256 = 0)) := by
    simp [hlast, reckons, hmode, stateH, stateXYH, stateXYZHPR, w5, flag, bne]
    by_cases hf : r % 256 = 0 <;> simp [hf]
  rw [hstep]
  by_cases hf : r % 256 = 0
  · rw [silent_rest dbl dts c' _ ⟨dbl x, dbl y, dbl h, some (dbl z, dbl p, dbl r), dbl speed, dbl wheel⟩ hqueue
      (by rw [hown, put_same]) (by rw [hrec]; simp [hf]) (by rw [hlast, hmode]; decide)]
    simp [hf]
  · rw [silent_reckon dbl dts hdt c' _ ⟨dbl x, dbl y, dbl h, some (dbl z, dbl p, dbl r), dbl speed, dbl wheel⟩ hqueue
      (by rw [hown, put_same]) hveh (by rw [hrec]; simp [hf])]
    simp only [hown, put_put]
    simp [hf, shifted, hlast, reckonBy, hmode, stateH, stateXYH, w3, w6]

/-- A complete message sets all of the state of its entity, and no other entity moves. Whether the entity then moves is right if the
lowest byte of the roll angle is zero exactly if the flag is. -/
theorem complete_followed_partial (dbl : Nat → ℝ) (c : Ctrl) (w : World) (e : Ent) (hs : c.sync = false) (he : w c.own = some e)
    (ds : List Dgram) (x y z h p r speed wheel f : Nat) (hrf : r % 256 = 0 ↔ f % 256 = 0) (dt : ℝ) (dts : List ℝ)
    (hdt : ∀ t ∈ dts, t > small) :
    let s := silent dbl dts (stepWith dbl (ds ++ [dXYZHPR c.own x y z h p r speed wheel f]) dt (c, w))
    let moved := if f % 256 = 0 then 0 else dbl speed * dts.sum
    s.2 c.own = some ⟨dbl x + moved * Real.cos (dbl h), dbl y + moved * Real.sin (dbl h), dbl h, some (dbl z, dbl p, dbl r),
      dbl speed, dbl wheel⟩ ∧ ∀ i, i ≠ c.own → s.2 i = w i := by
  intro s moved
  have hk : (if r % 256 = 0 then 0 else dbl speed * dts.sum) = moved := by simp only [moved, hrf]
  have key := complete_step dbl c w e hs he ds x y z h p r speed wheel f dt dts hdt
  rw [hk] at key
  simp only [s, key]
  exact ⟨put_same _ _ _, fun i hi => put_other _ _ _ _ hi⟩

/-- A complete message with roll angle 0 (word 0) and the flag set: the entity does not move between messages; with another roll angle
and the flag not set it does. -/
theorem complete_reckon_fails (dbl : Nat → ℝ) (h0 : dbl 0 = 0) (c : Ctrl) (w : World) (e : Ent) (hs : c.sync = false)
    (he : w c.own = some e) (speed : Nat) (dt t : ℝ) (ht : t > small) :
    (∃ e', (silent dbl [t] (stepWith dbl [dXYZHPR c.own 0 0 0 0 0 0 speed 0 1] dt (c, w))).2 c.own = some e' ∧ e'.x = 0) ∧
    (∃ e', (silent dbl [t] (stepWith dbl [dXYZHPR c.own 0 0 0 0 0 1 speed 0 0] dt (c, w))).2 c.own = some e' ∧
      e'.x = dbl speed * t) := by
  have k1 := complete_step dbl c w e hs he [] 0 0 0 0 0 0 speed 0 1 dt [t] (by simpa using ht)
  have k2 := complete_step dbl c w e hs he [] 0 0 0 0 0 1 speed 0 0 dt [t] (by simpa using ht)
  rw [List.nil_append] at k1 k2
  rw [k1, k2]
  exact ⟨⟨_, put_same _ _ _, by simp [h0]⟩, ⟨_, put_same _ _ _, by simp [h0]⟩⟩

/-! ### The latest message counts -/

theorem receive_full (m m' : Msg) (d : Dgram) (h : 9 ≤ d.words.length) : receive m d = receive m' d := by
  simp only [receive]
  congr 1
  funext i
  split
  · rename_i hi
    have : i < d.words.length := by omega
    simp [this]
  · rfl

/-- In asynchronous mode only the last of the messages of a step has an effect. -/
theorem latest_only (dbl : Nat → ℝ) (c : Ctrl) (w : World) (hs : c.sync = false) (hq : c.queue = []) (ds : List Dgram) (d : Dgram)
    (hd : 9 ≤ d.words.length) (dt : ℝ) :
    stepWith dbl (ds ++ [d]) dt (c, w) = stepWith dbl [d] dt (c, w) := by
  have h1 : taken { c with queue := c.queue ++ (ds ++ [d]) } = ds ++ [d] := by simp [taken, hs, hq]
  have h2 : taken { c with queue := c.queue ++ [d] } = [] ++ [d] := by simp [taken, hs, hq]
  have h3 : readAll { c with queue := c.queue ++ (ds ++ [d]) } = readAll { c with queue := c.queue ++ [d] } := by
    have hf : receive (ds.foldl receive c.msg) d = receive c.msg d := receive_full _ _ d hd
    unfold readAll
    rw [h1, h2]
    simp [left, hs, hf]
  simp only [stepWith, step, h1, h2, h3]
  simp

example : 9 ≤ (dXYZHPR 0 1 2 3 4 5 6 7 8 9).words.length := by decide

/-- In synchronous mode every step takes one message, in the order of arrival. -/
theorem sync_in_order (dbl : Nat → ℝ) (dt : ℝ) (c : Ctrl) (w : World) (hs : c.sync = true) (d : Dgram) (r : List Dgram)
    (hq : c.queue = d :: r) :
    (step dbl dt c w).1.queue = r ∧ (step dbl dt c w).1.last = receive c.msg d := by
  have ht : taken c = [d] := by simp [taken, hs, hq]
  have hl : left c = r := by simp [left, hs, hq]
  have hm : (readAll c).msg = receive c.msg d := by simp [readAll, ht]
  have hqq : (readAll c).queue = r := by simp [readAll, hl]
  have hp : ∀ b c' w', (proceed dbl b dt c' w').1.queue = c'.queue ∧ (proceed dbl b dt c' w').1.last = c'.last := by
    intro b c' w'
    unfold proceed
    split
    · exact ⟨rfl, rfl⟩
    · split
      · split
        · exact ⟨rfl, rfl⟩
        · split <;> exact ⟨rfl, rfl⟩
      · exact ⟨rfl, rfl⟩
  unfold step
  rw [if_neg (by simp [ht])]
  split
  · exact ⟨hqq, hm⟩
  · split
    · exact ⟨hqq, hm⟩
    · exact ⟨(hp _ _ _).1.trans hqq, (hp _ _ _).2.trans hm⟩

/-! ### Messages that are refused -/

/-- In the step in which it is read, a message of another version or for an unknown entity has no effect on any entity. -/
theorem refused_step (dbl : Nat → ℝ) (c : Ctrl) (w : World) (hs : c.sync = false) (ds : List Dgram) (d : Dgram) (dt : ℝ)
    (hd : d.version ≠ 1 ∨ w d.objectId = none) :
    (stepWith dbl (ds ++ [d]) dt (c, w)).2 = w := by
  have ht : taken { c with queue := c.queue ++ (ds ++ [d]) } = (c.queue ++ ds) ++ [d] := by simp [taken, hs]
  have hm := read_last _ _ _ ht
  simp only [stepWith, step, ht, hm]
  rw [if_neg (by simp)]
  split
  · rfl
  · rename_i hv
    have hv : d.version = 1 := by simpa [receive] using hv
    rcases hd with h | h
    · exact absurd hv h
    · have : (receive (List.foldl receive c.msg (c.queue ++ ds)) d).objectId = d.objectId := rfl
      rw [this, h]

/-- In the following steps, a refused message of another version moves the entity. -/
theorem refused_fails (dbl : Nat → ℝ) (c : Ctrl) (w : World) (e : Ent) (hs : c.sync = false) (hq : c.queue = [])
    (he : w c.own = some e) (v h speed wheel : Nat) (hv : v ≠ 1) (dt t : ℝ) (ht : t > small) :
    ∃ e', (silent dbl [t] (stepWith dbl [⟨v, 4, c.own, [h, speed, wheel, 1]⟩] dt (c, w))).2 c.own = some e' ∧
      e'.x = e.x + dbl speed * t * Real.cos (dbl h) := by
  have h1 : taken { c with queue := c.queue ++ [⟨v, 4, c.own, [h, speed, wheel, 1]⟩] } = [⟨v, 4, c.own, [h, speed, wheel, 1]⟩] := by
    simp [taken, hs, hq]
  have hm : (readAll { c with queue := c.queue ++ [⟨v, 4, c.own, [h, speed, wheel, 1]⟩] }).msg
      = receive c.msg ⟨v, 4, c.own, [h, speed, wheel, 1]⟩ := by simp [readAll, h1]
  have h2 : stepWith dbl [⟨v, 4, c.own, [h, speed, wheel, 1]⟩] dt (c, w) =
      ({ readAll { c with queue := c.queue ++ [⟨v, 4, c.own, [h, speed, wheel, 1]⟩] } with
        last := receive c.msg ⟨v, 4, c.own, [h, speed, wheel, 1]⟩ }, w) := by
    simp only [stepWith, step, h1, hm]
    rw [if_neg (by simp), if_pos (by simpa [receive] using hv)]
  rw [h2]
  simp only [silent]
  rw [quiet _ _ _ _ (by simp [readAll, left, hs])]
  refine ⟨reckon dbl (receive c.msg ⟨v, 4, c.own, [h, speed, wheel, 1]⟩) c.veh t e, ?_, ?_⟩
  · have hr : reckons false (receive c.msg ⟨v, 4, c.own, [h, speed, wheel, 1]⟩) = true := by
      simp [reckons, receive, stateH, flag]
    simp only [proceed, readAll, he, ht, hr, if_true, put_same]
  · simp [reckon, reckonBy, receive, stateH]

example : ∃ (dbl : Nat → ℝ) (speed h : Nat), dbl speed * 1 * Real.cos (dbl h) ≠ 0 := ⟨Nat.cast, 1, 0, by simp⟩

/-! ### Messages for another entity -/

/-- A message for another entity sets that one; the extrapolation then moves the entity of the controller. -/
theorem other_fails (dbl : Nat → ℝ) (c : Ctrl) (w : World) (e b : Ent) (hs : c.sync = false) (hq : c.queue = [])
    (he : w c.own = some e) (id : Nat) (hid : id ≠ c.own) (hb : w id = some b) (x y h speed wheel : Nat) (dt t : ℝ)
    (ht : t > small) :
    (silent dbl [t] (stepWith dbl [dXYH id x y h speed wheel 1] dt (c, w))).2 id
      = some ⟨dbl x, dbl y, dbl h, none, dbl speed, dbl wheel⟩ ∧
    ∃ e', (silent dbl [t] (stepWith dbl [dXYH id x y h speed wheel 1] dt (c, w))).2 c.own = some e' ∧
      e'.x = e.x + dbl speed * t * Real.cos (dbl h) := by
  have h1 : taken { c with queue := c.queue ++ [dXYH id x y h speed wheel 1] } = [dXYH id x y h speed wheel 1] := by
    simp [taken, hs, hq]
  have hm : (readAll { c with queue := c.queue ++ [dXYH id x y h speed wheel 1] }).msg
      = receive c.msg (dXYH id x y h speed wheel 1) := by simp [readAll, h1]
  generalize hr : receive c.msg (dXYH id x y h speed wheel 1) = m at hm
  have hver : m.version = 1 := by rw [← hr]; rfl
  have hobj : m.objectId = id := by rw [← hr]; rfl
  have hmode : m.mode = 3 := by rw [← hr]; rfl
  have w0 : m.word 0 = x := by rw [← hr]; rfl
  have w1 : m.word 1 = y := by rw [← hr]; rfl
  have w2 : m.word 2 = h := by rw [← hr]; rfl
  have w3 : m.word 3 = speed := by rw [← hr]; rfl
  have w4 : m.word 4 = wheel := by rw [← hr]; rfl
  have w5 : m.word 5 = 1 := by rw [← hr]; rfl
  have happ : applyState dbl m b = ⟨dbl x, dbl y, dbl h, none, dbl speed, dbl wheel⟩ := by
    simp [applyState, hmode, stateXYZHPR, stateXYH, w0, w1, w2, w3, w4]
  have h2 : ∃ c', c'.own = c.own ∧ c'.last = m ∧ c'.queue = [] ∧
      stepWith dbl [dXYH id x y h speed wheel 1] dt (c, w)
        = (c', put w id ⟨dbl x, dbl y, dbl h, none, dbl speed, dbl wheel⟩) := by
    refine ⟨{ readAll { c with queue := c.queue ++ [dXYH id x y h speed wheel 1] } with
        last := m
        veh := placeVehicle m ⟨dbl x, dbl y, dbl h, none, dbl speed, dbl wheel⟩ c.veh }, rfl, rfl, by simp [readAll, left, hs], ?_⟩
    simp only [stepWith, step, h1, hm, hver, hobj, hb, happ]
    rw [if_neg (by simp), if_neg (by simp)]
    simp only [proceed, readAll, put_other w id c.own _ (Ne.symm hid), he]
    simp [reckons, hmode, stateH, driverInput]
  obtain ⟨c', hown, hlast, hqueue, hst⟩ := h2
  rw [hst]
  simp only [silent]
  rw [quiet _ _ _ _ hqueue]
  have hrk : reckons false m = true := by simp [reckons, hmode, stateH, stateXYH, stateXYZHPR, w5, flag]
  have hp : proceed dbl false t c' (put w id ⟨dbl x, dbl y, dbl h, none, dbl speed, dbl wheel⟩)
      = (c', put (put w id ⟨dbl x, dbl y, dbl h, none, dbl speed, dbl wheel⟩) c.own (reckon dbl m c'.veh t e)) := by
    simp [proceed, hown, hlast, put_other w id c.own _ (Ne.symm hid), he, ht, hrk]
  rw [hp]
  refine ⟨?_, _, put_same _ _ _, ?_⟩
  · show put _ _ _ id = _
    rw [put_other _ _ _ _ hid, put_same]
  · simp [reckon, reckonBy, hmode, stateH, stateXYH, w2, w3]

/-! ### From state messages to driver input -/

/-- Driver input after a state message continues from the position of that message: the vehicle model is at that position, with the
heading of the message. -/
theorem driver_after_state (dbl : Nat → ℝ) (c : Ctrl) (w : World) (e : Ent) (hs : c.sync = false)
    (he : w c.own = some e) (x y h speed wheel f throttle brake steering : Nat) (dt t : ℝ) (ht : t > small) :
    let s := stepWith dbl [dDriver c.own throttle brake steering] t
      (stepWith dbl [dXYH c.own x y h speed wheel f] dt (c, w))
    let v := driveAnalog { c.veh with x := dbl x, y := dbl y, heading := dbl h } t (dbl throttle - dbl brake) (dbl steering)
    s.2 c.own = some ⟨v.x, v.y, v.heading, none, v.speed, v.wheelAngle⟩ := by
  intro s v
  have ht1 : taken { c with queue := c.queue ++ [dXYH c.own x y h speed wheel f] }
      = c.queue ++ [dXYH c.own x y h speed wheel f] := by simp [taken, hs]
  have h1 := step_own dbl dt { c with queue := c.queue ++ [dXYH c.own x y h speed wheel f] } w e _ _ ht1 rfl rfl he
  generalize hm : receive (List.foldl receive c.msg c.queue) (dXYH c.own x y h speed wheel f) = m at h1
  have hmode : m.mode = 3 := by rw [← hm]; rfl
  have happ : applyState dbl m e = ⟨dbl x, dbl y, dbl h, none, dbl speed, dbl wheel⟩ := by
    rw [← hm]; simp [applyState, receive, dXYH, stateXYZHPR, stateXYH]
  rw [happ] at h1
  generalize hc' : ({ readAll { c with queue := c.queue ++ [dXYH c.own x y h speed wheel f] } with
      last := m
      veh := placeVehicle m ⟨dbl x, dbl y, dbl h, none, dbl speed, dbl wheel⟩ c.veh } : Ctrl) = c' at h1
  have hown : c'.own = c.own := by rw [← hc']; rfl
  have hlast : c'.last = m := by rw [← hc']
  have hqueue : c'.queue = [] := by rw [← hc']; simp [readAll, left, hs]
  have hsync : c'.sync = false := by rw [← hc']; simp [readAll, hs]
  have hveh : c'.veh = { c.veh with x := dbl x, y := dbl y, heading := dbl h } := by
    rw [← hc']; simp [placeVehicle, hmode, stateXYH]
  have hp : proceed dbl true dt c' (put w c.own ⟨dbl x, dbl y, dbl h, none, dbl speed, dbl wheel⟩)
      = (c', put w c.own ⟨dbl x, dbl y, dbl h, none, dbl speed, dbl wheel⟩) := by
    simp [proceed, hown, put_same, hlast, reckons, hmode, stateH, driverInput]
  have hstep : stepWith dbl [dXYH c.own x y h speed wheel f] dt (c, w)
      = (c', put w c.own ⟨dbl x, dbl y, dbl h, none, dbl speed, dbl wheel⟩) := by
    rw [← hp, ← h1]; rfl
  have ht2 : taken { c' with queue := c'.queue ++ [dDriver c.own throttle brake steering] }
      = [] ++ [dDriver c.own throttle brake steering] := by simp [taken, hsync, hqueue]
  have h2 := step_own dbl t { c' with queue := c'.queue ++ [dDriver c.own throttle brake steering] }
    (put w c.own ⟨dbl x, dbl y, dbl h, none, dbl speed, dbl wheel⟩) ⟨dbl x, dbl y, dbl h, none, dbl speed, dbl wheel⟩ _ _ ht2 rfl
    hown.symm (by simp only [hown, put_same])
  have hs2 : s = step dbl t { c' with queue := c'.queue ++ [dDriver c.own throttle brake steering] }
      (put w c.own ⟨dbl x, dbl y, dbl h, none, dbl speed, dbl wheel⟩) := by
    simp only [s, hstep]; rfl
  rw [hs2, h2]
  simp only [hown, put_put, List.foldl_nil]
  have e1 : applyState dbl (receive c'.msg (dDriver c.own throttle brake steering))
      ⟨dbl x, dbl y, dbl h, none, dbl speed, dbl wheel⟩ = ⟨dbl x, dbl y, dbl h, none, dbl speed, dbl wheel⟩ := by
    simp [applyState, receive, dDriver, stateXYZHPR, stateXYH, stateH, driverInput]
  have e2 : placeVehicle (receive c'.msg (dDriver c.own throttle brake steering))
      ⟨dbl x, dbl y, dbl h, none, dbl speed, dbl wheel⟩ c'.veh = c'.veh := by
    simp [placeVehicle, receive, dDriver, stateXYZHPR, stateXYH, stateH]
  rw [e1, e2]
  have e3 : ∀ b, reckons b (receive c'.msg (dDriver c.own throttle brake steering)) = false := by
    intro b; simp [reckons, receive, dDriver, stateXYZHPR, stateXYH, stateH]
  simp only [proceed, readAll, hown, put_same, ht, e3, if_true, Bool.false_eq_true, if_false]
  have e4 : (receive c'.msg (dDriver c.own throttle brake steering)).mode = driverInput := rfl
  rw [if_pos e4]
  simp only [put_same]
  have e5 : (receive c'.msg (dDriver c.own throttle brake steering)).word 0 = throttle := rfl
  have e6 : (receive c'.msg (dDriver c.own throttle brake steering)).word 1 = brake := rfl
  have e7 : (receive c'.msg (dDriver c.own throttle brake steering)).word 2 = steering := rfl
  rw [e5, e6, e7, hveh]

/-- The speed of the state message is lost: a vehicle that stood when the controller was activated stands again in the first step with
driver input, whatever the speed before. -/
theorem driver_speed_fails (dbl : Nat → ℝ) (h0 : dbl 0 = 0) (w : World) (e : Ent) (id : Nat) (he : w id = some e) (m : Msg)
    (speed : Nat) (t : ℝ) (ht : t > small) :
    let c : Ctrl := ⟨id, false, [], m, m, new 0 0 0 5 0⟩
    (∃ e1, (stepWith dbl [dXYH id 0 0 0 speed 0 0] t (c, w)).2 id = some e1 ∧ e1.speed = dbl speed) ∧
    ∃ e2, (stepWith dbl [dDriver id 0 0 0] t (stepWith dbl [dXYH id 0 0 0 speed 0 0] t (c, w))).2 id = some e2 ∧ e2.speed = 0 := by
  intro c
  have h1 := xyh_followed dbl c w e rfl he [] 0 0 0 speed 0 0 t [] (by simp)
  have h2 := driver_after_state dbl c w e rfl he 0 0 0 speed 0 0 0 0 0 t t ht
  refine ⟨⟨_, h1.1, rfl⟩, ⟨_, h2, ?_⟩⟩
  simp [driveAnalog, update, steer, drive, new, c, h0, dragged, pedalSpeed, clamp]

end Verif.Udp
