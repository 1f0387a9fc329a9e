import Verif.Interact.Model
/-
Theorems about the interactive controller.
-/
namespace Verif.Interact
open Verif.Vehicle

/-! ### Keys -/

/-- Specification: a key is held if its last event is a press. -/
def Held (es : List (Arrow × Bool)) (k : Arrow) : Bool :=
  match (es.filter (fun e => e.1 = k)).getLast? with
  | some e => e.2
  | none => false

/-- Specification: what two opposite keys command. -/
def want (a b : Bool) : Key := if a && !b then .plus else if b && !a then .minus else .none

theorem held_snoc (es : List (Arrow × Bool)) (e : Arrow × Bool) (k : Arrow) :
    Held (es ++ [e]) k = if e.1 = k then e.2 else Held es k := by
  unfold Held
  by_cases h : e.1 = k
  · simp [h]
  · simp [h]

/-- Events as a keyboard sends them: only held keys are released, and opposite keys are never held together. -/
inductive Orderly : List (Arrow × Bool) → Prop
  | nil : Orderly []
  | snoc {es} (e : Arrow × Bool) : Orderly es → (e.2 = false → Held es e.1 = true) →
      (Held (es ++ [e]) .left && Held (es ++ [e]) .right) = false → (Held (es ++ [e]) .up && Held (es ++ [e]) .down) = false →
      Orderly (es ++ [e])

/-- **C178**, keys: as long as opposite keys are not held together, the command is that of the keys held. -/
theorem keys_partial {es : List (Arrow × Bool)} (h : Orderly es) : es.foldl keyEvent ⟨.none, .none⟩ =
    ⟨want (Held es .left) (Held es .right), want (Held es .up) (Held es .down)⟩ := by
  induction h with
  | nil => rfl
  | @snoc es e he hr h1 h2 ih =>
    rw [List.foldl_append, ih, List.foldl_cons, List.foldl_nil]
    obtain ⟨k, d⟩ := e
    have p1 : (Held es .left && Held es .right) = false ∧ (Held es .up && Held es .down) = false := by
      cases he with
      | nil => exact ⟨rfl, rfl⟩
      | snoc _ _ _ a b => exact ⟨a, b⟩
    obtain ⟨p1, p2⟩ := p1
    simp only [held_snoc] at h1 h2 ⊢
    simp only at hr
    clear ih he
    cases k <;> revert hr h1 h2 p1 p2 <;> generalize Held es .left = a <;> generalize Held es .right = b <;>
      generalize Held es .up = c <;> generalize Held es .down = f <;>
      cases d <;> cases a <;> cases b <;> cases c <;> cases f <;> simp [keyEvent, want]

example : Orderly [(.left, true), (.up, true), (.left, false)] :=
  .snoc (es := [(.left, true), (.up, true)]) _ (.snoc (es := [(.left, true)]) _ (.snoc (es := []) _ .nil (by decide) (by decide) (by decide))
    (by decide) (by decide) (by decide)) (by decide) (by decide) (by decide)

/-- The negation with opposite keys: the left key is held all the time, the right key pressed and released; then nothing is commanded. -/
theorem keys_fails : ∃ es, Held es .left = true ∧ Held es .right = false ∧ (es.foldl keyEvent ⟨.none, .none⟩).steer = .none :=
  ⟨[(.left, true), (.right, true), (.right, false)], by decide, by decide, by decide⟩

/-! ### Speed -/

/-- The limit which the speed of a step may not exceed: the one of the road times the factor, and the one of the entity. -/
noncomputable def Cap (factor : ℝ) (o : Obj) (i : Input) : ℝ :=
  min (factor * (if i.limit < 1 / 1000000 then (if 1 < i.lanes then 110 / 3.6 else 60 / 3.6) else i.limit)) o.maxSpeed

theorem cap_eq (factor : ℝ) (s : St) (i : Input) : (prepared factor s i).maxSpeed = Cap factor s.obj i := by
  unfold prepared Cap limitOf small
  norm_num

theorem followed_fields (i : Input) (v : Vehicle) : (followed i v).speed = v.speed ∧ (followed i v).handbrake = v.handbrake ∧
    (followed i v).wheelAngle = v.wheelAngle := by
  unfold followed
  split <;> exact ⟨rfl, rfl, rfl⟩

/-- With the handbrake on the vehicle stands. -/
def Braked (v : Vehicle) : Prop := v.handbrake = true → v.speed = 0

theorem drive_cap (v : Vehicle) (dt t : ℝ) (r c : Bool) (hd : v.throttleDisabled = false) (hb : Braked v) (hm : 0 ≤ v.maxSpeed) :
    |(drive v dt t r c).speed| ≤ v.maxSpeed ∧ Braked (drive v dt t r c) := by
  unfold drive
  rw [hd]
  simp only [Bool.false_eq_true, if_false]
  split
  · rename_i hh
    refine ⟨?_, fun _ => hb hh⟩
    show |v.speed| ≤ _
    rw [hb hh]
    simpa using hm
  · rename_i hh
    split
    · exact ⟨by simpa using hm, fun _ => rfl⟩
    · refine ⟨abs_le.mpr (clamp_mem (by linarith)), fun h => absurd h ?_⟩
      simpa using hh

theorem step_cap {factor : ℝ} {s : St} {i : Input} (hl : i.long = true) (hb : Braked s.veh) (hc : 0 ≤ Cap factor s.obj i) :
    |(step factor s i).obj.speed| ≤ Cap factor s.obj i ∧ Braked (step factor s i).veh := by
  have e := cap_eq factor s i
  have hd : (prepared factor s i).throttleDisabled = false := by
    unfold prepared
    simp [hl]
  have hb2 : Braked (prepared factor s i) := by
    intro h
    unfold prepared at h ⊢
    simp only [hl, if_true] at h ⊢
    exact hb h
  have key := drive_cap (prepared factor s i) i.dt s.keys.throttle.val (s.keys.throttle == .none) (s.keys.throttle == .none) hd hb2 (by rw [e]; exact hc)
  have e2 := binary_speed (prepared factor s i) i.dt s.keys.throttle s.keys.steer
  have f := followed_fields i (driveBinary (prepared factor s i) i.dt s.keys.throttle s.keys.steer)
  unfold step
  simp only [hl, if_true]
  refine ⟨?_, ?_⟩
  · rw [f.1, e2.1, ← e]
    exact key.1
  · intro h
    rw [f.2.1, e2.2.1] at h
    rw [f.1, e2.1]
    exact key.2 h

/-- The entity's own limits are not changed. -/
theorem step_max (factor : ℝ) (s : St) (i : Input) : (step factor s i).obj.maxSpeed = s.obj.maxSpeed := rfl

theorem run_braked {factor : ℝ} : ∀ (l : List Ev) (s : St), Braked s.veh → 0 ≤ s.obj.maxSpeed → 0 ≤ factor →
    (∀ i, .step i ∈ l → i.long = true) → Braked (run factor s l).veh ∧ (run factor s l).obj.maxSpeed = s.obj.maxSpeed
  | [], s, h, _, _, _ => ⟨h, rfl⟩
  | .key e :: l, s, h, hm, hf, hl => run_braked l _ h hm hf (fun i hi => hl i (by simp [hi]))
  | .step i :: l, s, h, hm, hf, hl => by
    have hc : 0 ≤ Cap factor s.obj i := by
      unfold Cap
      refine le_min (mul_nonneg hf ?_) hm
      split
      · split <;> norm_num
      · rename_i h1
        linarith [not_lt.1 h1, show (0 : ℝ) < 1 / 1000000 by norm_num]
    have h1 := (step_cap (hl i (by simp)) h hc).2
    exact run_braked l _ h1 hm hf (fun i hi => hl i (by simp [hi]))

theorem run_split (factor : ℝ) (i : Input) : ∀ (l : List Ev) (s : St), run factor s (l ++ [.step i]) = step factor (run factor s l) i
  | [], _ => rfl
  | .key e :: l, s => run_split factor i l { s with keys := keyEvent s.keys e }
  | .step j :: l, s => run_split factor i l (step factor s j)

/-- **C178**, speed: after activation, whatever keys are pressed, after each step the speed of the entity is at most the speed limit there
times the factor, and at most its own maximal speed. -/
theorem limit_kept {factor rate road : ℝ} {o : Obj} {lat : Bool} {l : List Ev} {i : Input} (hf : 0 ≤ factor) (hm : 0 ≤ o.maxSpeed)
    (hl : ∀ i, .step i ∈ l → i.long = true) (hi : i.long = true) :
    |(run factor (activate rate o road lat) (l ++ [.step i])).obj.speed| ≤ Cap factor o i := by
  rw [run_split]
  have hb0 : Braked (activate rate o road lat).veh := by
    intro h
    exact absurd h (by simp [activate, new])
  obtain ⟨hb, hmx⟩ := run_braked l _ hb0 hm hf hl
  have hmx : (run factor (activate rate o road lat) l).obj.maxSpeed = o.maxSpeed := hmx
  have hcap : Cap factor (run factor (activate rate o road lat) l).obj i = Cap factor o i := by
    unfold Cap
    rw [hmx]
  have hc : 0 ≤ Cap factor o i := by
    unfold Cap
    refine le_min (mul_nonneg hf ?_) hm
    split
    · split <;> norm_num
    · rename_i h1
      linarith [not_lt.1 h1, show (0 : ℝ) < 1 / 1000000 by norm_num]
  rw [← hcap]
  exact (step_cap hi hb (by rw [hcap]; exact hc)).1

/-- An entity driving at 20 m/s. -/
noncomputable def car : Obj := ⟨0, 0, 0, 20, 0, 50, 5, 10, 4⟩

/-- A step of 0.1 s on a road with the given limit. -/
noncomputable def at' (limit : ℝ) : Input := ⟨1 / 10, limit, 1, true, true, fun d => (d, 0, 0)⟩

/-- The negation for the deceleration: where the limit falls from 20 m/s to 10 m/s the speed falls by 10 m/s within a step of 0.1 s, where the
maximal deceleration of the entity allows 1 m/s. -/
theorem deceleration_fails : (step 1 (activate 4 car 0 true) (at' 10)).obj.speed = 10 ∧ car.maxDec * (1 / 10) < car.speed - 10 := by
  refine ⟨?_, by norm_num [car]⟩
  have h := (binary_speed (prepared 1 (activate 4 car 0 true) (at' 10)) (at' 10).dt (activate 4 car 0 true).keys.throttle
    (activate 4 car 0 true).keys.steer).1
  have f := (followed_fields (at' 10) (driveBinary (prepared 1 (activate 4 car 0 true) (at' 10)) (at' 10).dt (activate 4 car 0 true).keys.throttle
    (activate 4 car 0 true).keys.steer)).1
  unfold step
  simp only [at', if_true] at h f ⊢
  rw [f, h]
  norm_num [activate, drive, prepared, new, car, pedalSpeed, Key.val, dragged, clamp, limitOf, small]

/-! ### Domains -/

/-- **C178**, domains: with the longitudinal domain only, the entity follows the road by the speed times the time step, and its wheels are left
alone. -/
theorem long_only (factor : ℝ) (s : St) (i : Input) (hl : i.long = true) (ha : i.lat = false) :
    ((step factor s i).obj.x, (step factor s i).obj.y, (step factor s i).obj.h) = i.along ((step factor s i).obj.speed * i.dt) ∧
    (step factor s i).obj.wheel = s.obj.wheel := by
  unfold step followed
  simp [hl, ha]

/-- Vehicle and entity are at the same place. -/
def Same (s : St) : Prop := s.veh.x = s.obj.x ∧ s.veh.y = s.obj.y

theorem run_same {factor : ℝ} : ∀ (l : List Ev) (s : St), Same s → Same (run factor s l)
  | [], _, h => h
  | .key _ :: l, s, h => run_same l _ h
  | .step _ :: l, _, _ => run_same l _ ⟨rfl, rfl⟩

/-- **C178**, domains: with the lateral domain, after any keys and steps since the activation, the entity moves by its speed times the time step; its
speed is left alone if the longitudinal domain is not under control. -/
theorem lat_moves (factor rate road : ℝ) (o : Obj) (on : Bool) (l : List Ev) (i : Input) (ha : i.lat = true) :
    let s := run factor (activate rate o road on) l
    let t := step factor s i
    (t.obj.x - s.obj.x) ^ 2 + (t.obj.y - s.obj.y) ^ 2 = (t.obj.speed * i.dt) ^ 2 ∧ (i.long = false → t.obj.speed = s.obj.speed) := by
  intro s t
  have hsame : Same s := run_same l _ ⟨rfl, rfl⟩
  have hm := step_motion (prepared factor s i) i.dt (.binary s.keys.throttle s.keys.steer)
  have h4 := hm.2.2.2.1
  simp only [Vehicle.step] at h4
  have hx : (prepared factor s i).x = s.obj.x := hsame.1
  have hy : (prepared factor s i).y = s.obj.y := hsame.2
  rw [hx, hy] at h4
  have hs : i.long = false → (driveBinary (prepared factor s i) i.dt s.keys.throttle s.keys.steer).speed = s.obj.speed := by
    intro hl
    rw [(binary_speed ..).1]
    unfold drive prepared
    simp [hl]
  have hf : followed i (driveBinary (prepared factor s i) i.dt s.keys.throttle s.keys.steer) =
      driveBinary (prepared factor s i) i.dt s.keys.throttle s.keys.steer := by
    unfold followed
    simp [ha]
  refine ⟨?_, ?_⟩
  · show ((followed i _).x - _) ^ 2 + ((followed i _).y - _) ^ 2 = ((if i.long then (followed i _).speed else s.obj.speed) * i.dt) ^ 2
    rw [hf, h4]
    cases hl : i.long
    · simp [hs hl]
    · simp
  · intro hl
    show (if i.long then _ else s.obj.speed) = s.obj.speed
    simp [hl]

theorem binary_kept (v : Vehicle) (dt : ℝ) (a b : Key) : (driveBinary v dt a b).maxAcc = v.maxAcc ∧ (driveBinary v dt a b).maxDec = v.maxDec ∧
    (driveBinary v dt a b).steeringScale = v.steeringScale := by
  unfold driveBinary update steer drive
  split_ifs <;> exact ⟨rfl, rfl, rfl⟩

/-- What stays as it was set on activation. -/
def Kept (s : St) : Prop := s.veh.maxAcc = s.obj.maxAcc ∧ s.veh.maxDec = s.obj.maxDec ∧ 0 ≤ s.veh.steeringScale ∧ |s.veh.wheelAngle| ≤ Real.pi / 3

theorem step_kept (factor : ℝ) (s : St) (i : Input) (h : Kept s) : Kept (step factor s i) := by
  have hb := binary_kept (prepared factor s i) i.dt s.keys.throttle s.keys.steer
  have hw := step_wheel_le (prepared factor s i) i.dt (.binary s.keys.throttle s.keys.steer) h.2.2.1 h.2.2.2
  simp only [Vehicle.step] at hw
  have hf : ∀ v, (followed i v).maxAcc = v.maxAcc ∧ (followed i v).maxDec = v.maxDec ∧ (followed i v).steeringScale = v.steeringScale := by
    intro v
    unfold followed
    split <;> exact ⟨rfl, rfl, rfl⟩
  have f := hf (driveBinary (prepared factor s i) i.dt s.keys.throttle s.keys.steer)
  have f3 := (followed_fields i (driveBinary (prepared factor s i) i.dt s.keys.throttle s.keys.steer)).2.2
  unfold Kept step
  refine ⟨?_, ?_, ?_, ?_⟩
  · exact (f.1.trans hb.1).trans h.1
  · exact (f.2.1.trans hb.2.1).trans h.2.1
  · show 0 ≤ (followed i _).steeringScale
    rw [f.2.2, hb.2.2]
    exact h.2.2.1
  · show |(followed i _).wheelAngle| ≤ _
    rw [f3]
    exact hw

theorem run_kept {factor : ℝ} : ∀ (l : List Ev) (s : St), Kept s → Kept (run factor s l)
  | [], _, h => h
  | .key e :: l, s, h => run_kept l { s with keys := keyEvent s.keys e } h
  | .step i :: l, s, h => run_kept l _ (step_kept factor s i h)

theorem activate_kept (rate road : ℝ) (o : Obj) (on : Bool) : Kept (activate rate o road on) := by
  refine ⟨rfl, rfl, ?_, ?_⟩
  · show (0 : ℝ) ≤ _
    norm_num [activate, new]
  · show |(0 : ℝ)| ≤ _
    rw [abs_zero]
    linarith [Real.pi_pos]

/-- **C178**, wheels: the wheels of the entity never turn further than 60°. -/
theorem wheels (factor rate road : ℝ) (o : Obj) (on : Bool) (l : List Ev) (i : Input) (ha : i.lat = true) :
    |(run factor (activate rate o road on) (l ++ [.step i])).obj.wheel| ≤ 60 * Real.pi / 180 := by
  rw [run_split]
  have h := step_kept factor _ i (run_kept (factor := factor) l _ (activate_kept rate road o on))
  have e : (step factor (run factor (activate rate o road on) l) i).obj.wheel =
      (step factor (run factor (activate rate o road on) l) i).veh.wheelAngle := by
    show (if i.lat then _ else _) = _
    rw [ha]
    rfl
  rw [e]
  have := h.2.2.2
  linarith

/-- Under longitudinal control the entity has the speed of the vehicle. -/
theorem run_speed {factor : ℝ} : ∀ (l : List Ev) (s : St), s.veh.speed = s.obj.speed → (∀ i, .step i ∈ l → i.long = true) →
    (run factor s l).veh.speed = (run factor s l).obj.speed
  | [], _, h, _ => h
  | .key e :: l, s, h, hl => run_speed l { s with keys := keyEvent s.keys e } h (fun i hi => hl i (by simp [hi]))
  | .step i :: l, s, h, hl => by
    refine run_speed l (step factor s i) ?_ (fun i hi => hl i (by simp [hi]))
    show _ = if i.long then _ else _
    rw [hl i (by simp)]
    rfl

theorem run_obj {factor : ℝ} : ∀ (l : List Ev) (s : St), (run factor s l).obj.maxSpeed = s.obj.maxSpeed ∧ (run factor s l).obj.maxAcc = s.obj.maxAcc ∧
    (run factor s l).obj.maxDec = s.obj.maxDec
  | [], _ => ⟨rfl, rfl, rfl⟩
  | .key e :: l, s => run_obj l { s with keys := keyEvent s.keys e }
  | .step i :: l, s => run_obj l (step factor s i)

/-- **C178**, pedals: for an entity driving forwards, the up key accelerates it by its maximal acceleration, to the limit; the down key
decelerates it by its maximal deceleration, to a stop. -/
theorem pedals {factor rate road : ℝ} {o : Obj} {on : Bool} {l : List Ev} {i : Input} (hf : 0 ≤ factor) (hm : 0 ≤ o.maxSpeed)
    (hl : ∀ i, .step i ∈ l → i.long = true) (hi : i.long = true) (hdt : 0 ≤ i.dt) (hacc : 0 ≤ o.maxAcc) :
    let s := run factor (activate rate o road on) l
    let v := (step factor s i).obj.speed
    0 < s.obj.speed → s.obj.speed ≤ Cap factor o i →
    (s.keys.throttle = .plus → v = min (Cap factor o i) (s.obj.speed + o.maxAcc * i.dt)) ∧
    (s.keys.throttle = .minus → 0 ≤ o.maxDec → v = max 0 (s.obj.speed - o.maxDec * i.dt)) := by
  intro s v hpos hle
  have ho := run_obj (factor := factor) l (activate rate o road on)
  have hk := run_kept (factor := factor) l _ (activate_kept rate road o on)
  have hsp : s.veh.speed = s.obj.speed := run_speed l _ rfl hl
  have hbr : Braked s.veh := (run_braked l _ (fun h => absurd h (by simp [activate, new])) hm hf hl).1
  have hnb : s.veh.handbrake = false := by
    cases hh : s.veh.handbrake with
    | false => rfl
    | true => linarith [hbr hh]
  have hcap : (prepared factor s i).maxSpeed = Cap factor o i := by
    rw [cap_eq]
    unfold Cap
    rw [show s.obj.maxSpeed = o.maxSpeed from ho.1]
  have hps : (prepared factor s i).speed = s.obj.speed := by
    show (if i.long then s.veh.speed else s.obj.speed) = _
    rw [hi]
    exact hsp
  have hpa : (prepared factor s i).maxAcc = o.maxAcc := hk.1.trans ho.2.1
  have hpd : (prepared factor s i).maxDec = o.maxDec := hk.2.1.trans ho.2.2
  have hpt : (prepared factor s i).throttleDisabled = false := by
    show (!i.long) = false
    rw [hi]
    rfl
  have hph : (prepared factor s i).handbrake = false := hnb
  have hv : v = (drive (prepared factor s i) i.dt s.keys.throttle.val (s.keys.throttle == .none) (s.keys.throttle == .none)).speed := by
    show (if i.long then (followed i _).speed else _) = _
    rw [hi, if_pos rfl, (followed_fields i _).1, (binary_speed ..).1]
  refine ⟨fun ht => ?_, fun ht hdec => ?_⟩
  · rw [hv, ht]
    have hp : pedalSpeed (prepared factor s i) i.dt Key.plus.val = s.obj.speed + o.maxAcc * i.dt := by
      unfold pedalSpeed Key.val
      rw [hps, hpa]
      norm_num
    have hnn := mul_nonneg hacc hdt
    unfold drive
    rw [hpt, hph, hp]
    simp only [Bool.false_eq_true, if_false]
    rw [if_neg (by rintro ⟨_, h⟩; linarith)]
    show dragged _ false _ = _
    unfold dragged clamp
    rw [hcap]
    simp only [Bool.false_eq_true, if_false]
    rw [max_eq_right (by linarith)]
  · rw [hv, ht]
    have hp : pedalSpeed (prepared factor s i) i.dt Key.minus.val = s.obj.speed - o.maxDec * i.dt := by
      unfold pedalSpeed Key.val
      rw [hps, hpd]
      norm_num
      ring
    have hnn := mul_nonneg hdec hdt
    unfold drive
    rw [hpt, hph, hp, hps]
    simp only [Bool.false_eq_true, if_false]
    split
    · rename_i h
      rw [max_eq_left h.2.le]
    · rename_i h
      have h3 : 0 ≤ s.obj.speed - o.maxDec * i.dt := by
        by_contra hc
        exact h ⟨hpos, not_le.1 hc⟩
      rw [max_eq_right h3]
      show dragged _ false _ = _
      unfold dragged
      rw [hcap]
      simp only [Bool.false_eq_true, if_false]
      exact clamp_id (by linarith) (by linarith)

/-- The hypotheses are met by a car at 20 m/s on a road with a limit of 30 m/s. -/
example : 0 < (run 1 (activate 4 car 0 true) [.key (.up, true)]).obj.speed ∧
    (run 1 (activate 4 car 0 true) [.key (.up, true)]).obj.speed ≤ Cap 1 car (at' 30) ∧
    (run 1 (activate 4 car 0 true) [.key (.up, true)]).keys.throttle = .plus := by
  refine ⟨?_, ?_, rfl⟩
  · show (0 : ℝ) < 20
    norm_num
  · show (20 : ℝ) ≤ Cap 1 car (at' 30)
    unfold Cap at' car
    norm_num

theorem binary_steering (v : Vehicle) (dt : ℝ) (a b : Key) : (driveBinary v dt a b).steeringRate = v.steeringRate ∧
    (driveBinary v dt a b).steeringScale = v.steeringScale := by
  unfold driveBinary update steer drive
  split_ifs <;> exact ⟨rfl, rfl⟩

/-- Rate and scale of the steering, and that the entity shows the wheels of the vehicle. -/
theorem run_steering {factor : ℝ} : ∀ (l : List Ev) (s : St), (∀ i, .step i ∈ l → i.lat = true) →
    (run factor s l).veh.steeringRate = s.veh.steeringRate ∧ (run factor s l).veh.steeringScale = s.veh.steeringScale ∧
      (s.veh.wheelAngle = s.obj.wheel → (run factor s l).veh.wheelAngle = (run factor s l).obj.wheel)
  | [], _, _ => ⟨rfl, rfl, id⟩
  | .key e :: l, s, hl => run_steering l { s with keys := keyEvent s.keys e } (fun i hi => hl i (by simp [hi]))
  | .step i :: l, s, hl => by
    have ih := run_steering (factor := factor) l (step factor s i) (fun i hi => hl i (by simp [hi]))
    have hb := binary_steering (prepared factor s i) i.dt s.keys.throttle s.keys.steer
    have hf : ∀ v, (followed i v).steeringRate = v.steeringRate ∧ (followed i v).steeringScale = v.steeringScale := by
      intro v
      unfold followed
      split <;> exact ⟨rfl, rfl⟩
    have f := hf (driveBinary (prepared factor s i) i.dt s.keys.throttle s.keys.steer)
    refine ⟨ih.1.trans (f.1.trans hb.1), ih.2.1.trans (f.2.trans hb.2), fun _ => ih.2.2 ?_⟩
    show _ = if i.lat then _ else _
    rw [hl i (by simp)]
    rfl

/-- **C178**, steering: while a steering key is held the wheels turn to its side with the steering rate, both the rate and the largest angle
scaled by 1 / (1 + 0.02 v²) for the speed `v`. -/
theorem steers {factor rate road : ℝ} {o : Obj} {on : Bool} {l : List Ev} {i : Input} (hw : o.wheel = 0) (hl : ∀ i, .step i ∈ l → i.lat = true)
    (ha : i.lat = true) :
    let s := run factor (activate rate o road on) l
    let t := step factor s i
    let c := 1 / (1 + 0.02 * t.obj.speed ^ 2)
    (s.keys.steer = .plus → t.obj.wheel = min (c * (Real.pi / 3)) (max (-(c * (Real.pi / 3))) (s.obj.wheel + c * rate * i.dt))) ∧
    (s.keys.steer = .minus → t.obj.wheel = min (c * (Real.pi / 3)) (max (-(c * (Real.pi / 3))) (s.obj.wheel - c * rate * i.dt))) := by
  intro s t c
  have hr := run_steering (factor := factor) l (activate rate o road on) hl
  have hrate : s.veh.steeringRate = rate := hr.1
  have hscale : s.veh.steeringScale = 2 / 100 := hr.2.1
  have hwheel : s.veh.wheelAngle = s.obj.wheel := hr.2.2 hw.symm
  set p := prepared factor s i with hp
  set d := drive p i.dt s.keys.throttle.val (s.keys.throttle == .none) (s.keys.throttle == .none) with hd
  have hds : d.speed = t.obj.speed := by
    have e : d.speed = (driveBinary p i.dt s.keys.throttle s.keys.steer).speed := ((binary_speed p i.dt s.keys.throttle s.keys.steer).1).symm
    show _ = if i.long then (followed i (driveBinary p i.dt s.keys.throttle s.keys.steer)).speed else s.obj.speed
    cases hlong : i.long
    · rw [hd]
      unfold drive
      rw [show p.throttleDisabled = true by show (!i.long) = true; rw [hlong]; rfl]
      simp only [if_true, Bool.false_eq_true, if_false]
      show (if i.long then s.veh.speed else s.obj.speed) = _
      rw [hlong]
      rfl
    · simp only [if_true]
      rw [(followed_fields i _).1, ← e]
  have hdf : d.wheelAngle = s.obj.wheel ∧ d.steeringRate = rate ∧ d.steeringDisabled = false := by
    have h1 : d.wheelAngle = p.wheelAngle ∧ d.steeringRate = p.steeringRate ∧ d.steeringDisabled = p.steeringDisabled := by
      rw [hd]
      unfold drive
      split_ifs <;> exact ⟨rfl, rfl, rfl⟩
    refine ⟨h1.1.trans hwheel, h1.2.1.trans hrate, h1.2.2.trans ?_⟩
    show (!i.lat) = false
    rw [ha]
    rfl
  have hc : scaleAt (2 / 100) d.speed = c := by
    unfold scaleAt
    rw [hds]
    show _ = 1 / (1 + 0.02 * t.obj.speed ^ 2)
    norm_num
    ring
  have hm : maxAngle = Real.pi / 3 := by
    unfold maxAngle
    ring
  have ht : t.obj.wheel = (steer d i.dt p.steeringScale s.keys.steer.val (s.keys.steer == .none)).wheelAngle := by
    show (if i.lat then (followed i (driveBinary p i.dt s.keys.throttle s.keys.steer)).wheelAngle else _) = _
    rw [ha, if_pos rfl, (followed_fields i _).2.2]
    rfl
  have hps : p.steeringScale = 2 / 100 := hscale
  rw [hps] at ht
  unfold steer steered clamp at ht
  rw [hdf.2.2, hdf.2.1, hdf.1, hc, hm] at ht
  simp only [Bool.false_eq_true, if_false] at ht
  refine ⟨fun hk => ?_, fun hk => ?_⟩
  · rw [ht, hk]
    simp [Key.val]
  · rw [ht, hk]
    simp [Key.val, sub_eq_add_neg]

/-- The negation for the alignment: a car standing at an angle to the road is turned into the direction of the road when the controller is activated, and
turned back in the first step. -/
theorem align_fails (factor : ℝ) (o : Obj) (road dt limit : ℝ) (h0 : o.speed = 0) (hh : 0 ≤ o.h ∧ o.h < 2 * Real.pi) (hf : 0 ≤ factor)
    (hm : 0 ≤ o.maxSpeed) (hl : 0 ≤ limit) (n : Nat) :
    (activate 4 o road true).obj.h = road ∧
    (step factor (activate 4 o road true) ⟨dt, limit, n, true, true, fun d => (d, 0, 0)⟩).obj.h = o.h := by
  refine ⟨rfl, ?_⟩
  set i : Input := ⟨dt, limit, n, true, true, fun d => (d, 0, 0)⟩ with hi
  set s := activate 4 o road true with hs
  have hcap : 0 ≤ Cap factor s.obj i := by
    unfold Cap
    refine le_min (mul_nonneg hf ?_) hm
    split
    · split <;> norm_num
    · exact hl
  have hsp : (driveBinary (prepared factor s i) i.dt s.keys.throttle s.keys.steer).speed = 0 := by
    rw [(binary_speed ..).1]
    have hmax := cap_eq factor s i
    have hk : s.keys.throttle = .none := rfl
    have hv : (prepared factor s i).speed = 0 := by
      simp [prepared, hs, hi, activate, new, h0]
    have ht : (prepared factor s i).throttleDisabled = false := rfl
    have hb : (prepared factor s i).handbrake = false := rfl
    have hp : pedalSpeed (prepared factor s i) i.dt 0 = 0 := by
      unfold pedalSpeed
      rw [hv]
      simp
    rw [hk]
    unfold drive
    rw [ht, hb]
    simp only [Bool.false_eq_true, if_false, Key.val, hv, hp, lt_irrefl, false_and]
    show dragged (prepared factor s i) true 0 = 0
    unfold dragged
    simp only [if_true, zero_mul]
    rw [hmax]
    exact clamp_id (by linarith) hcap
  have hm := step_motion (prepared factor s i) i.dt (.binary s.keys.throttle s.keys.steer)
  show (step factor s i).obj.h = o.h
  unfold step followed
  simp only [hi, Bool.not_true, Bool.and_false, Bool.false_eq_true, if_false]
  rw [← hi]
  show (driveBinary (prepared factor s i) dt s.keys.throttle s.keys.steer).heading = o.h
  obtain ⟨u, hu, _, _, huh, _, _⟩ := step_update (prepared factor s i) i.dt (.binary s.keys.throttle s.keys.steer)
  simp only [Vehicle.step] at hu
  have hu' : driveBinary (prepared factor s i) dt s.keys.throttle s.keys.steer = update u dt := hu
  have hus : u.speed = 0 := by
    have : (update u i.dt).speed = 0 := by rw [← hu]; exact hsp
    exact this
  rw [hu']
  have hph : (prepared factor s i).heading = o.h := rfl
  have hr : turnRate u = 0 := by
    unfold turnRate
    rw [hus]
    simp
  show turned (u.heading + dt * turnRate u) = o.h
  rw [hr, huh, hph]
  have hp := Real.pi_pos
  have hz : o.h + dt * 0 = o.h := by ring
  rw [hz]
  unfold turned Geom.fmod Geom.truncZ
  have h1 : ¬ o.h / (2 * Real.pi) < 0 := not_lt.2 (div_nonneg hh.1 (by linarith))
  have h2 : ⌊o.h / (2 * Real.pi)⌋ = 0 := by
    rw [Int.floor_eq_zero_iff]
    exact ⟨not_lt.1 h1, (div_lt_one (by linarith)).2 hh.2⟩
  rw [if_neg h1, h2]
  simp [not_lt.2 hh.1]

end Verif.Interact
