import Verif.Alks.React
/-! The reference driver: which vehicles are reacted to. -/
namespace Verif.Alks

theorem abs_eq (x : Rat) : abs x = |x| := by
  unfold abs
  split_ifs with h
  · rw [abs_of_neg h]
  · rw [abs_of_nonneg (not_lt.1 h)]

theorem div_lt2 {f v w : Rat} (h : v ≠ w) : (Ttc.div f (abs (v - w))).lt2 = true ↔ f < 2 * |v - w| := by
  have hp : 0 < |v - w| := abs_pos.2 (sub_ne_zero.2 h)
  unfold Ttc.div
  rw [abs_eq, if_neg hp.ne']
  simp only [Ttc.lt2, decide_eq_true_eq]
  rw [div_lt_iff₀ hp]

theorem div_ge2 {f v w : Rat} (h : v ≠ w) : (Ttc.div f (abs (v - w))).ge2 = true ↔ 2 * |v - w| ≤ f := by
  have hp : 0 < |v - w| := abs_pos.2 (sub_ne_zero.2 h)
  unfold Ttc.div
  rw [abs_eq, if_neg hp.ne']
  simp only [Ttc.ge2, decide_eq_true_eq]
  rw [le_div_iff₀ hp]

theorem div_ge0 {f v w : Rat} (h : v ≠ w) : (Ttc.div f (abs (v - w))).ge0 = true ↔ 0 ≤ f := by
  have hp : 0 < |v - w| := abs_pos.2 (sub_ne_zero.2 h)
  unfold Ttc.div
  rw [abs_eq, if_neg hp.ne']
  simp only [Ttc.ge0, decide_eq_true_eq]
  rw [le_div_iff₀ hp, zero_mul]

/-- Not in the own lane ahead, nor in a lane beside. -/
def Obj.Away (o : Obj) : Prop := o.path = false ∨ (o.lane ≠ 0 ∧ o.lane ≠ 1 ∧ o.lane ≠ -1) ∨ (o.lane = 0 ∧ o.ds ≤ 0)

theorem look_away {d : Dim} {v : Rat} {c : Scan} {o : Obj} (h : o.Away) : look d v c o = c := by
  unfold look
  rcases h with h | ⟨h0, h1, h2⟩ | ⟨h0, h1⟩
  · simp [h]
  · simp [h0, h1, h2]
  · have : ¬ (0 < o.ds) := not_lt.2 h1
    simp [h0, this]

theorem looks_away {d : Dim} {v : Rat} {l : List Obj} (h : ∀ o, o ∈ l → o.Away) (c : Scan) : l.foldl (look d v) c = c := by
  induction l generalizing c with
  | nil => rfl
  | cons o l ih =>
    rw [List.foldl_cons, look_away (h o List.mem_cons_self)]
    exact ih (fun x hx => h x (List.mem_cons_of_mem _ hx)) c

/-- On a clear road, nothing is braked for and the speed is kept. -/
theorem clear_road {d : Dim} {s : St} {e : Env} (he : ∀ o, o ∈ e.objs → o.Away) (hg : e.given = none) (hdt : 0 ≤ e.dt)
    (hs : s.speed = s.set) (hd : s.drv = false) (ha : s.aeb = false) :
    (step d s e).speed = s.speed ∧ (step d s e).drv = false ∧ (step d s e).aeb = false := by
  have hc : scan d e s.speed s = fresh s := by
    unfold scan
    rw [looks_away he]
    unfold conclude fresh
    cases decide (0 < s.speed) && !s.aeb <;> simp
  rw [step_eq hg, hc]
  have hb : brake s.speed s.set s.since e.dt (fresh s) = (s.speed, s.wait, s.since) := by
    unfold brake fresh
    rw [ha, hd, ← hs, cruise_set hdt]
    rfl
  rw [hb]
  unfold settle
  by_cases h0 : s.speed = 0
  · simp only [h0, if_true]; exact ⟨rfl, rfl, rfl⟩
  · simp only [h0, if_false]; exact ⟨trivial, hd, ha⟩

/-- Ahead in the own lane, at its centre and fully in the way. -/
structure Obj.InWay (d : Dim) (o : Obj) : Prop where
  path : o.path = true
  lane : o.lane = 0
  ahead : 0 < o.ds
  off : -(3 / 8) ≤ o.off ∧ o.off ≤ 3 / 8
  wrap : |o.dt| < 1 / 1000000
  room : 0 ≤ free d o

theorem not_outgoing {o : Obj} (h : -(3 / 8) ≤ o.off ∧ o.off ≤ 3 / 8) : outgoing o = false ∧ incoming o = false := by
  have h1 : ¬ (3 / 8 < o.off) := not_lt.2 h.2
  have h2 : ¬ (o.off < -(3 / 8)) := not_lt.2 h.1
  simp [outgoing, incoming, h1, h2]

theorem look_inWay {d : Dim} {v : Rat} {c : Scan} {o : Obj} (h : o.InWay d) (hv : 0 < v) (ha : c.aeb = false) :
    look d v c o = ahead v (free d o) (Ttc.div (free d o) (abs (v - o.v))) o c := by
  unfold look
  have h0 : decide (v = 0) = false := decide_eq_false hv.ne'
  obtain ⟨h1, h2⟩ := not_outgoing h.off
  rw [ha, h0, h.path]
  simp only [h.lane, h.ahead, decide_true, Bool.and_true, Bool.false_or, Bool.not_true, cond_false, cond_true]
  have e1 : decide ((0 : Int) = 1) = false := rfl
  have e2 : decide ((0 : Int) = -1) = false := rfl
  rw [e1, e2]
  simp only [Bool.or_self, Bool.false_and, cond_false]
  unfold scanSame
  rw [h1, h2]
  simp

/-- For a slower vehicle in the way less than two seconds ahead the automatic braking starts at once, if no other vehicle is in the own
lane or beside and none has left the lane before. Missing: several vehicles. -/
theorem lead_brakes_partial {d : Dim} {s : St} {e : Env} {xs ys : List Obj} {o : Obj} (hobj : e.objs = xs ++ o :: ys)
    (hx : ∀ x, x ∈ xs → x.Away) (hy : ∀ y, y ∈ ys → y.Away) (ho : o.InWay d) (hv : 0 < s.speed) (hslow : o.v < s.speed)
    (hnear : free d o < 2 * (s.speed - o.v)) (hg : e.given = none) (hf : s.dtFree = none) :
    (step d s e).speed = braked (17 / 20) s.speed (later s.since e.dt) e.dt ∧ ((step d s e).speed ≠ 0 → (step d s e).aeb = true) := by
  have ht : (Ttc.div (free d o) (abs (s.speed - o.v))).lt2 = true := by
    rw [div_lt2 hslow.ne', abs_of_pos (by linarith)]; exact hnear
  have hwr : decide (abs o.dt < 1 / 1000000) = true := by rw [abs_eq]; exact decide_eq_true ho.wrap
  have hsc : (scan d e s.speed s).aeb = true := by
    cases ha : s.aeb with
    | true => exact (grow_scan d e s.speed s).aeb ha
    | false =>
      unfold scan
      rw [hobj, List.foldl_append, looks_away hx, List.foldl_cons, looks_away hy, look_inWay ho hv (by exact ha)]
      have hroom : decide (0 ≤ free d o) = true := decide_eq_true ho.room
      have hsl : decide (o.v < s.speed) = true := decide_eq_true hslow
      have hvp : decide (0 < s.speed) = true := decide_eq_true hv
      unfold ahead
      simp only [ha, cond_false]
      cases decide (o.as < 0) with
      | true =>
        simp only [hroom, ht, Bool.and_true, cond_true]
        unfold decelerating
        rw [hwr]
        simp only [cond_true]
        unfold conclude
        simp
      | false =>
        simp only [Bool.false_and, cond_false]
        cases hdrv : s.drv with
        | true =>
          unfold wrap
          simp only [hf, hsl, hroom, ht, hwr, Option.isNone_none, Bool.or_true, Bool.and_true, cond_true]
          unfold conclude
          simp
        | false =>
          unfold wrap
          simp only [hf, hsl, hroom, ht, hwr, Option.isNone_none, Bool.or_true, Bool.and_true, cond_true, wasCutOut, Bool.or_false, cond_false]
          unfold inFront
          simp only [hroom, ht, Bool.not_false, Bool.and_true, cond_true, Option.isSome_none, Bool.false_and, cond_false]
          unfold conclude
          simp only [hvp, Bool.not_false, Bool.and_true, cond_true, Option.isNone_none, Bool.or_true, ht]
  have hb : brake s.speed s.set s.since e.dt (scan d e s.speed s) =
      (braked (17 / 20) s.speed (later s.since e.dt) e.dt, (scan d e s.speed s).wait, later s.since e.dt) := by
    unfold brake; rw [hsc]; simp [hv]
  rw [step_eq hg, hb]
  unfold settle
  split_ifs with h0
  · exact ⟨h0.symm, fun h => absurd rfl h⟩
  · exact ⟨rfl, fun _ => hsc⟩

/-- With a second vehicle further ahead, listed later, there is no reaction at all to the one about to be hit. -/
theorem masked_fails {d : Dim} {s : St} {e : Env} {o p : Obj} (hobj : e.objs = [o, p]) (ho : o.InWay d) (hp : p.InWay d)
    (hv : 0 < s.speed) (hslow : o.v < s.speed) (hnear : free d o < 2 * (s.speed - o.v)) (hpv : p.v < s.speed)
    (hfar : 2 * (s.speed - p.v) ≤ free d p) (has : 0 ≤ o.as) (hg : e.given = none) (hdt : 0 ≤ e.dt)
    (hs : s.speed = s.set) (hd : s.drv = false) (ha : s.aeb = false) (hf : s.dtFree = none) :
    (step d s e).speed = s.speed ∧ (step d s e).drv = false ∧ (step d s e).aeb = false := by
  have ht : (Ttc.div (free d o) (abs (s.speed - o.v))).lt2 = true := by
    rw [div_lt2 hslow.ne', abs_of_pos (by linarith)]; exact hnear
  have ht' : (Ttc.div (free d p) (abs (s.speed - p.v))).lt2 = false := by
    rw [← Bool.not_eq_true, div_lt2 hpv.ne', abs_of_pos (by linarith)]
    exact not_lt.2 hfar
  have hwr : decide (abs o.dt < 1 / 1000000) = true := by rw [abs_eq]; exact decide_eq_true ho.wrap
  have hroom : decide (0 ≤ free d o) = true := decide_eq_true ho.room
  have hroom' : decide (0 ≤ free d p) = true := decide_eq_true hp.room
  have hsl : decide (o.v < s.speed) = true := decide_eq_true hslow
  have hac : decide (o.as < 0) = false := decide_eq_false (not_lt.2 has)
  have h1 : look d s.speed (fresh s) o = { fresh s with aebCand := true, cand := true, ttc := Ttc.div (free d o) (abs (s.speed - o.v)) } := by
    rw [look_inWay ho hv (by exact ha)]
    unfold ahead fresh
    simp only [ha, cond_false, hac, Bool.false_and]
    unfold wrap
    simp only [hf, hsl, hroom, ht, hwr, hd, Option.isNone_none, Bool.or_true, Bool.and_true, cond_true, wasCutOut, Bool.or_false, cond_false]
    unfold inFront
    simp [hroom]
  have h2 : ∀ c : Scan, c.aeb = false → c.drv = false → c.dtFree = none →
      look d s.speed c p = { c with cand := true, ttc := Ttc.div (free d p) (abs (s.speed - p.v)) } := by
    intro c h1 h2 h3
    rw [look_inWay hp hv h1]
    have hw : ∀ f, wrap s.speed f (Ttc.div (free d p) (abs (s.speed - p.v))) p c = c := by
      intro f; unfold wrap; simp [ht']
    unfold ahead
    rw [hw, h1]
    simp only [cond_false, ht', Bool.and_false]
    unfold inFront
    rw [h2, hroom', h3]
    simp [h1]
  have hc : (scan d e s.speed s).drv = false ∧ (scan d e s.speed s).aeb = false ∧ (scan d e s.speed s).wait = s.wait := by
    have : scan d e s.speed s = conclude s.speed { fresh s with aebCand := true, cand := true, ttc := Ttc.div (free d p) (abs (s.speed - p.v)) } := by
      unfold scan
      rw [hobj, List.foldl_cons, List.foldl_cons]
      show conclude _ (look d s.speed (look d s.speed (fresh s) o) p) = _
      rw [h1, h2 _ ha hd hf]
    rw [this]
    unfold conclude fresh
    simp [ht', ha, hd]
  have hb : brake s.speed s.set s.since e.dt (scan d e s.speed s) = (s.speed, s.wait, s.since) := by
    unfold brake
    rw [hc.1, hc.2.1, hc.2.2, ← hs, cruise_set hdt]
    rfl
  rw [step_eq hg, hb]
  unfold settle
  rw [if_neg hv.ne']
  exact ⟨rfl, hc.1, hc.2.1⟩

/-- A faster vehicle that has just passed makes the driver brake. -/
theorem faster_fails {d : Dim} {s : St} {e : Env} {o : Obj} (hobj : e.objs = [o]) (ho : o.InWay d) (hv : 0 < s.speed)
    (hfast : s.speed < o.v) (hnear : free d o < 2 * (o.v - s.speed)) (has : 0 ≤ o.as) (hg : e.given = none)
    (hs : s.speed = s.set) (hd : s.drv = false) (ha : s.aeb = false) (hf : s.dtFree = none) :
    (step d s e).drv = true ∧ (step d s e).wait = waited (23 / 20) e.dt := by
  have ht : (Ttc.div (free d o) (abs (s.speed - o.v))).lt2 = true := by
    rw [div_lt2 hfast.ne, abs_of_neg (by linarith)]; linarith
  have hroom : decide (0 ≤ free d o) = true := decide_eq_true ho.room
  have hsl : decide (o.v < s.speed) = false := decide_eq_false (not_lt.2 hfast.le)
  have hac : decide (o.as < 0) = false := decide_eq_false (not_lt.2 has)
  have hvp : decide (0 < s.speed) = true := decide_eq_true hv
  have hc : scan d e s.speed s = ({ fresh s with cand := true, ttc := Ttc.div (free d o) (abs (s.speed - o.v)) } : Scan).react (23 / 20) := by
    unfold scan
    rw [hobj, List.foldl_cons, List.foldl_nil]
    show conclude _ (look d s.speed (fresh s) o) = _
    rw [look_inWay ho hv (by exact ha)]
    have hw : ∀ f t c, wrap s.speed f t o c = c := by intro f t c; unfold wrap; simp [hsl]
    unfold ahead fresh
    rw [hw]
    simp only [ha, cond_false, hac, Bool.false_and]
    unfold inFront
    simp only [hroom, hd, hf, Bool.not_false, Bool.and_true, cond_true, Option.isSome_none, Bool.false_and, cond_false]
    unfold conclude
    simp only [hvp, Bool.not_false, Bool.and_true, cond_true, Bool.false_and, cond_false, ht]
  have hb : brake s.speed s.set s.since e.dt (scan d e s.speed s) = (s.set, waited (23 / 20) e.dt, s.since) := by
    rw [hc]
    unfold brake Scan.react fresh
    simp [ha, hv]
  rw [step_eq hg, hb]
  unfold settle
  rw [if_neg (by rw [← hs]; exact hv.ne'), hc]
  exact ⟨rfl, rfl⟩

/-- A slower vehicle moving in from a lane beside, more than 0.375 m off the centre of that lane, makes the driver react if the time to
collision is within two seconds after the perception time; brakes follow 1.15 s later. -/
theorem cut_in {d : Dim} {s : St} {e : Env} {xs ys : List Obj} {o : Obj} (hobj : e.objs = xs ++ o :: ys)
    (hx : ∀ x, x ∈ xs → x.Away) (hy : ∀ y, y ∈ ys → y.Away) (hpath : o.path = true)
    (hin : (o.lane = -1 ∧ 0 < o.vt ∧ 3 / 8 < o.off) ∨ (o.lane = 1 ∧ o.vt < 0 ∧ o.off < -(3 / 8)))
    (hv : 0 < s.speed) (hslow : o.v < s.speed) (hroom : 0 ≤ free d o) (hg : e.given = none)
    (hs : s.speed = s.set) (hd : s.drv = false) (ha : s.aeb = false) :
    (step d s e).drv = true ∧ (step d s e).wait = waited (23 / 20) e.dt ↔ free d o < 12 / 5 * (s.speed - o.v) := by
  have hne : s.speed ≠ o.v := hslow.ne'
  have hpos : 0 < s.speed - o.v := by linarith
  have habs : |s.speed - o.v| = s.speed - o.v := abs_of_pos hpos
  have hadj : adjIn o = true := by
    unfold adjIn
    rcases hin with ⟨h1, h2, h3⟩ | ⟨h1, h2, h3⟩ <;> simp [h1, h2, h3]
  have hlane : (decide (o.lane = 1) || decide (o.lane = -1)) = true := by
    rcases hin with ⟨h1, -⟩ | ⟨h1, -⟩ <;> simp [h1]
  have hvp : decide (0 < s.speed) = true := decide_eq_true hv
  have h0 : decide (s.speed = 0) = false := decide_eq_false hv.ne'
  have hsl : decide (o.v < s.speed) = true := decide_eq_true hslow
  have hge : (Ttc.div (free d o) (abs (s.speed - o.v))).ge0 = true := (div_ge0 hne).2 hroom
  have hlook : look d s.speed (fresh s) o = bif decide (free d o < 12 / 5 * (s.speed - o.v)) then (fresh s).react (23 / 20) else fresh s := by
    unfold look
    rw [h0, hlane, hvp, hpath]
    have haf : (fresh s).aeb = false := ha
    have hdf : (fresh s).drv = false := hd
    rw [haf]
    simp only [Bool.or_self, Bool.not_true, Bool.and_self, cond_false, cond_true]
    unfold scanAdj
    rw [hdf, hadj]
    simp only [Bool.not_false, Bool.and_self, cond_true]
    unfold cutInAdj
    simp only [hge, hsl, Bool.and_self, cond_true]
    have hk : (bif (Ttc.div (free d o) (abs (s.speed - o.v))).ge2 then Ttc.div (freeLater d s.speed o) (abs (s.speed - o.v))
        else Ttc.div (free d o) (abs (s.speed - o.v))).lt2 = decide (free d o < 12 / 5 * (s.speed - o.v)) := by
      cases h2 : (Ttc.div (free d o) (abs (s.speed - o.v))).ge2 with
      | true =>
        simp only [cond_true]
        rw [Bool.eq_iff_iff, div_lt2 hne, decide_eq_true_eq, habs]
        unfold freeLater
        constructor <;> intro h <;> linarith
      | false =>
        simp only [cond_false]
        rw [← Bool.not_eq_true, div_ge2 hne, habs] at h2
        rw [Bool.eq_iff_iff, div_lt2 hne, decide_eq_true_eq, habs]
        push Not at h2
        constructor <;> intro h <;> linarith
    rw [hk]
  have hsc : scan d e s.speed s = bif decide (free d o < 12 / 5 * (s.speed - o.v)) then (fresh s).react (23 / 20) else fresh s := by
    unfold scan
    rw [hobj, List.foldl_append, looks_away hx, List.foldl_cons, looks_away hy]
    show conclude _ (look d s.speed (fresh s) o) = _
    rw [hlook]
    cases decide (free d o < 12 / 5 * (s.speed - o.v)) <;> (unfold conclude fresh Scan.react; simp)
  by_cases hk : free d o < 12 / 5 * (s.speed - o.v)
  · rw [decide_eq_true hk] at hsc
    simp only [cond_true] at hsc
    have hb : brake s.speed s.set s.since e.dt (scan d e s.speed s) = (s.set, waited (23 / 20) e.dt, s.since) := by
      rw [hsc]
      unfold brake Scan.react fresh
      simp [ha, hv]
    rw [step_eq hg, hb]
    unfold settle
    rw [if_neg (by rw [← hs]; exact hv.ne'), hsc]
    exact ⟨fun _ => hk, fun _ => ⟨rfl, rfl⟩⟩
  · rw [decide_eq_false hk] at hsc
    simp only [cond_false] at hsc
    refine ⟨fun h => ?_, fun h => absurd h hk⟩
    rw [step_eq hg, hsc] at h
    unfold settle at h
    split_ifs at h
    · simp [reset] at h
    · have := h.1
      simp [fresh, hd] at this

/-- A vehicle beside that merely swerves is ignored, as long as none has left the own lane before. -/
theorem swerve_ignored {d : Dim} {v : Rat} {c : Scan} {o : Obj} (hl : o.lane = 1 ∨ o.lane = -1) (ho : -(3 / 8) ≤ o.off ∧ o.off ≤ 3 / 8)
    (hf : c.dtFree = none) : look d v c o = c := by
  have hadj : adjIn o = false := by
    have h1 : ¬ (3 / 8 < o.off) := not_lt.2 ho.2
    have h2 : ¬ (o.off < -(3 / 8)) := not_lt.2 ho.1
    simp [adjIn, h1, h2]
  have h0 : decide (o.lane = 0) = false := by rcases hl with h | h <;> simp [h]
  unfold look scanAdj
  rw [hadj, hf, h0]
  simp [inCutOut]

/-! ### A driver already braking lets go -/

/-- A vehicle in the own lane at rest. -/
def lead (ds : Rat) (dt : Rat) (as : Rat) : Obj := ⟨true, 0, ds, dt, 4, 2, 0, 0, 0, 0, as⟩
/-- A vehicle leaving the own lane. -/
def leaving (ds : Rat) : Obj := ⟨true, 0, ds, 1 / 2, 4, 2, 0, 1 / 2, 0, 1, 0⟩
/-- A vehicle in the lane beside, moving away. -/
def beside : Obj := ⟨true, 1, 10, 3, 4, 2, 0, 0, 20, 1, 0⟩

/-- The steps of the witness. -/
def letGo : List Env := [⟨[lead 20 (1 / 5) (-1)], none, 1 / 2⟩, ⟨[], none, 1 / 2⟩, ⟨[], none, 1 / 2⟩]

/-- In the middle of braking the driver jumps back to the full speed within one step, when one vehicle starts to leave the own lane and
another in the lane beside moves away. -/
theorem rebrake_fails : ∃ (d : Dim) (e : Env), (∀ x, x ∈ letGo → x.Ok) ∧ e.Ok ∧ e.given = none ∧
    (run d letGo (reset 20)).speed < 17 ∧ (run d (letGo ++ [e]) (reset 20)).speed = 20 := by
  refine ⟨⟨4, 2, 0⟩, ⟨[leaving 30, beside], none, 1 / 10⟩, ?_, ⟨by decide +kernel, by simp⟩, rfl, by decide +kernel, by decide +kernel⟩
  intro x hx
  simp only [letGo, List.mem_cons, List.not_mem_nil, or_false] at hx
  rcases hx with rfl | rfl | rfl <;> exact ⟨by norm_num, by simp⟩

/-! ### The hypotheses are met -/

/-- A vehicle at rest 30 m ahead is braked for. -/
example : (step ⟨4, 2, 0⟩ (reset 20) ⟨[lead 30 0 0], none, 1 / 10⟩).aeb = true := by decide +kernel
/-- Not so with another one 100 m ahead, listed later. -/
example : (step ⟨4, 2, 0⟩ (reset 20) ⟨[lead 30 0 0, lead 100 0 0], none, 1 / 10⟩).aeb = false ∧
    (lead 30 0 0).InWay ⟨4, 2, 0⟩ ∧ (lead 100 0 0).InWay ⟨4, 2, 0⟩ :=
  ⟨by decide +kernel, ⟨rfl, rfl, by decide +kernel, by decide +kernel, by decide +kernel, by decide +kernel⟩,
    ⟨rfl, rfl, by decide +kernel, by decide +kernel, by decide +kernel, by decide +kernel⟩⟩
/-- But in the other order. -/
example : (step ⟨4, 2, 0⟩ (reset 20) ⟨[lead 100 0 0, lead 30 0 0], none, 1 / 10⟩).aeb = true := by decide +kernel
/-- Braking to standstill takes less than four seconds from 20 m/s. -/
example : ∃ es fs, Free es ∧ Free fs ∧ 3 / 5 ≤ time es ∧ 20 ≤ 17 / 20 * (981 / 100) * time fs := by
  refine ⟨[⟨[], none, 3 / 5⟩], [⟨[], none, 12 / 5⟩], ?_, ?_, by norm_num [time], by norm_num [time]⟩ <;>
    (intro x hx; rw [List.mem_singleton.1 hx]; exact ⟨by norm_num, rfl⟩)
/-- A driver reacting to a vehicle that brakes, off the centre line. -/
example : (run ⟨4, 2, 0⟩ [⟨[lead 20 (1 / 5) (-1)], none, 1 / 2⟩] (reset 20)).drv = true ∧
    (run ⟨4, 2, 0⟩ [⟨[lead 20 (1 / 5) (-1)], none, 1 / 2⟩] (reset 20)).wait = 1 / 4 := by decide +kernel

end Verif.Alks
