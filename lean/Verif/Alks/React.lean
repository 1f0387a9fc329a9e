import Verif.Alks.Theorems
/-! The reference driver: reaction time, and which vehicles are reacted to. -/
namespace Verif.Alks

/-! ### Reaction time -/

/-- No reaction of the driver is due, `t` after a moment without any. -/
def Calm (t : Rat) (s : St) : Prop := s.aeb = true ∨ (s.speed = s.set ∧ (s.drv = true → 3 / 4 - t ≤ s.wait))

theorem step_eq {d : Dim} {s : St} {e : Env} (hg : e.given = none) :
    step d s e = settle s.set (scan d e s.speed s) (brake s.speed s.set s.since e.dt (scan d e s.speed s)) := by
  unfold step; rw [hg]; rfl

theorem cruise_set {v dt : Rat} (hd : 0 ≤ dt) : cruise v v dt = v := by
  have h := cruise_range (le_refl v) hd
  linarith

theorem calm_step {d : Dim} {e : Env} {s : St} {t : Rat} (hi : Inv s) (hdt : 0 ≤ e.dt) (hg : e.given = none) (ht0 : 0 ≤ t) (h : Calm t s) (ht : t < 3 / 4) :
    Calm (t + e.dt) (step d s e) := by
  rcases h with ha | ⟨hs, hw⟩
  · rcases hi.speed.lt_or_eq with hv | hv
    · obtain ⟨-, h2, h3⟩ := aeb_step (d := d) ha hv hg
      have hok : e.Ok := ⟨hdt, fun v hv => by rw [hg] at hv; simp at hv⟩
      rcases (step_inv (d := d) hok hi).speed.lt_or_eq with hp | hp
      · exact .inl (h2 hp).1
      · rw [h3 hp.symm]
        exact .inr ⟨rfl, by simp [reset]⟩
    · rw [step_eq hg, ← hv]
      have hgr := (grow_scan d e 0 s).aeb ha
      have hb : brake 0 s.set s.since e.dt (scan d e 0 s) = (s.set, (scan d e 0 s).wait, s.since) := by
        unfold brake; rw [hgr]; simp
      rw [hb]
      unfold settle
      by_cases h0 : s.set = 0
      · simp only [h0, if_true]
        exact .inr ⟨rfl, by simp [reset]⟩
      · simp only [h0, if_false]
        exact .inl hgr
  · rw [step_eq hg]
    have hgr := grow_scan d e s.speed s
    have hwt : (scan d e s.speed s).drv = true → 3 / 4 - t ≤ (scan d e s.speed s).wait := by
      intro hd
      rcases hgr.wait with ⟨h1, h2⟩ | ⟨-, h1 | h1⟩
      · rw [h1]; rw [h2] at hd; exact hw hd
      · rw [h1]; linarith
      · rw [h1]; linarith
    cases ha : (scan d e s.speed s).aeb with
    | true =>
      unfold settle
      split_ifs
      · exact .inr ⟨rfl, by simp [reset]⟩
      · exact .inl ha
    | false =>
      have key : (brake s.speed s.set s.since e.dt (scan d e s.speed s)).1 = s.set ∧
          ((scan d e s.speed s).drv = true → 3 / 4 - (t + e.dt) ≤ (brake s.speed s.set s.since e.dt (scan d e s.speed s)).2.1) := by
        unfold brake
        rw [ha]
        cases hdv : (scan d e s.speed s).drv with
        | false => exact ⟨by rw [hs]; exact cruise_set hdt, by simp⟩
        | true =>
          have hw1 := hwt hdv
          have hne : decide ((scan d e s.speed s).wait = 0) = false := by
            apply decide_eq_false
            intro h; rw [h] at hw1; linarith
          rw [hne]
          cases decide (0 < s.speed) with
          | true =>
            refine ⟨rfl, fun _ => ?_⟩
            show _ ≤ waited _ _
            unfold waited
            split_ifs <;> linarith
          | false => exact ⟨rfl, fun _ => by show _ ≤ (scan d e s.speed s).wait; linarith⟩
      unfold settle
      split_ifs with h0
      · exact .inr ⟨rfl, by simp [reset]⟩
      · exact .inr ⟨key.1, fun h => key.2 h⟩

/-- Without automatic braking the speed is not lowered earlier than 0.75 s after a moment at which the driver had nothing to react to. -/
theorem no_early_braking {d : Dim} {es : List Env} (hes : Free es) {e : Env} (he : 0 ≤ e.dt ∧ e.given = none) {s : St} (hi : Inv s)
    (hs : s.speed = s.set) (hd : s.drv = false) (ht : time es < 3 / 4) :
    (run d (es ++ [e]) s).aeb = true ∨ (run d (es ++ [e]) s).speed = (run d (es ++ [e]) s).set := by
  have key : ∀ (es : List Env) (t : Rat) (s : St), Free es → 0 ≤ t → Inv s → Calm t s → t + time es < 3 / 4 →
      Inv (run d es s) ∧ Calm (t + time es) (run d es s) := by
    intro es
    induction es with
    | nil => intro t s _ _ hi h _; simpa [run, time] using ⟨hi, h⟩
    | cons x xs ih =>
      intro t s hf ht0 hi h ht
      have hf' : Free xs := fun y hy => hf y (List.mem_cons_of_mem _ hy)
      have htm : time (x :: xs) = x.dt + time xs := by simp [time]
      have hx := hf x List.mem_cons_self
      have h0 := time_nonneg hf'
      rw [htm] at ht ⊢
      have := ih (t + x.dt) (step d s x) hf' (by linarith) (step_inv (free_ok hf x List.mem_cons_self).1 hi)
        (calm_step hi hx.1 hx.2 ht0 h (by linarith)) (by linarith)
      rw [← add_assoc]
      exact this
  obtain ⟨h1, h2⟩ := key es 0 s hes (le_refl _) hi (.inr ⟨hs, fun h => by rw [hd] at h; simp at h⟩) (by linarith)
  rw [zero_add] at h2
  have hr : run d (es ++ [e]) s = step d (run d es s) e := by simp [run, List.foldl_append]
  rw [hr]
  rcases calm_step (d := d) h1 he.1 he.2 (time_nonneg hes) h2 ht with h | h
  · exact .inl h
  · exact .inr h.1

/-- Nothing is about to leave the own lane. -/
def NoCutOut (e : Env) : Prop := ∀ o, o ∈ e.objs → outgoing o = false

/-- Once the driver reacts and nothing leaves the lane, the waiting time is not touched. -/
theorem look_reacting {d : Dim} {v : Rat} {c : Scan} {o : Obj} (ho : outgoing o = false) (hd : c.drv = true) (hf : c.dtFree = none) :
    (look d v c o).drv = true ∧ (look d v c o).dtFree = none ∧ (look d v c o).wait = c.wait := by
  have hself : c.drv = true ∧ c.dtFree = none ∧ c.wait = c.wait := ⟨hd, hf, rfl⟩
  have hadj : scanAdj d v o c = c := by unfold scanAdj; simp [hd, hf, inCutOut]
  have hahead : ∀ f t, (ahead v f t o c).drv = true ∧ (ahead v f t o c).dtFree = none ∧ (ahead v f t o c).wait = c.wait := by
    intro f t
    have hw : (wrap v f t o c).drv = true ∧ (wrap v f t o c).dtFree = none ∧ (wrap v f t o c).wait = c.wait := by
      unfold wrap
      simp only [hd, Bool.or_true, cond_true]
      cases (wasCutOut c.dtFree || c.dtFree.isNone) && decide (o.v < v) && decide (0 ≤ f) && t.lt2 && decide (abs o.dt < 1 / 1000000)
      · exact hself
      · exact ⟨rfl, hf, rfl⟩
    unfold ahead
    cases c.aeb with
    | true => exact hself
    | false =>
      cases decide (o.as < 0) && decide (0 ≤ f) && t.lt2 with
      | true =>
        show (decelerating o c).drv = true ∧ _
        unfold decelerating
        cases decide (abs o.dt < 1 / 1000000) with
        | true => exact hself
        | false => simp only [hd, Bool.not_true, cond_false, cond_true]; exact ⟨trivial, hf, trivial⟩
      | false =>
        cases (wrap v f t o c).aeb with
        | true => exact hw
        | false =>
          have : inFront f t (wrap v f t o c) = wrap v f t o c := by unfold inFront; simp [hw.1]
          show (inFront f t (wrap v f t o c)).drv = true ∧ _
          simp only [cond_false]
          rw [this]
          exact hw
  unfold look
  rw [hadj]
  cases c.aeb || decide (v = 0) with
  | true => exact hself
  | false =>
    cases !o.path with
    | true => exact hself
    | false =>
      cases (decide (o.lane = 1) || decide (o.lane = -1)) && decide (0 < v) with
      | true => exact hself
      | false =>
        cases decide (o.lane = 0) && decide (0 < o.ds) with
        | false => exact hself
        | true =>
          show (scanSame d v o c).drv = true ∧ _
          unfold scanSame
          simp only [ho, hd, Bool.not_true, Bool.false_and, cond_false, cond_true]
          exact hahead _ _

theorem scan_reacting {d : Dim} {e : Env} {v : Rat} {s : St} (he : NoCutOut e) (hd : s.drv = true) (hf : s.dtFree = none) :
    (scan d e v s).drv = true ∧ (scan d e v s).dtFree = none ∧ (scan d e v s).wait = s.wait := by
  have key : ∀ (l : List Obj) (c : Scan), (∀ o, o ∈ l → outgoing o = false) → c.drv = true → c.dtFree = none →
      (l.foldl (look d v) c).drv = true ∧ (l.foldl (look d v) c).dtFree = none ∧ (l.foldl (look d v) c).wait = c.wait := by
    intro l
    induction l with
    | nil => exact fun c _ h1 h2 => ⟨h1, h2, rfl⟩
    | cons o l ih =>
      intro c ho h1 h2
      obtain ⟨g1, g2, g3⟩ := look_reacting (d := d) (v := v) (ho o List.mem_cons_self) h1 h2
      have := ih (look d v c o) (fun x hx => ho x (List.mem_cons_of_mem _ hx)) g1 g2
      rw [List.foldl_cons]
      exact ⟨this.1, this.2.1, this.2.2.trans g3⟩
  obtain ⟨h1, h2, h3⟩ := key e.objs (fresh s) he hd hf
  have hc : ∀ c : Scan, c.drv = true → (conclude v c).drv = true ∧ (conclude v c).dtFree = c.dtFree ∧ (conclude v c).wait = c.wait := by
    intro c hc
    unfold conclude
    cases decide (0 < v) && !c.aeb with
    | false => exact ⟨hc, rfl, rfl⟩
    | true =>
      cases c.aebCand && (wasCutOut c.dtFree || c.dtFree.isNone) && c.ttc.lt2 with
      | true => exact ⟨hc, rfl, rfl⟩
      | false => simp only [hc, Bool.not_true, Bool.false_and, cond_false, cond_true]; exact ⟨trivial, trivial, trivial⟩
  obtain ⟨k1, k2, k3⟩ := hc _ h1
  exact ⟨k1, k2.trans h2, k3.trans h3⟩

/-- Reacting for `t`, or braking. -/
def Reacting (t : Rat) (s : St) : Prop := Braking s ∨ (0 < s.speed ∧ s.drv = true ∧ s.dtFree = none ∧ 0 ≤ s.wait ∧ s.wait ≤ max 0 (23 / 20 - t))

theorem reacting_step {d : Dim} {e : Env} {s : St} {t : Rat} (hi : Inv s) (hdt : 0 ≤ e.dt) (hg : e.given = none) (hn : NoCutOut e) (h : Reacting t s) :
    Reacting (t + e.dt) (step d s e) ∧ (0 < e.dt → 0 < s.speed → 23 / 20 ≤ t → (step d s e).speed < s.speed) := by
  have hok : e.Ok := ⟨hdt, fun v hv => by rw [hg] at hv; simp at hv⟩
  have hi' := step_inv (d := d) hok hi
  have hlp : 0 < e.dt → 0 < later s.since e.dt := by
    intro h
    have := hi.since.1
    unfold later
    split_ifs <;> linarith
  rcases h with h | ⟨hv, hd, hf, hw0, hw⟩
  · refine ⟨.inl (braking_step hi hdt hg h).1, fun hp hv _ => ?_⟩
    rcases h with rfl | ⟨ha, -⟩
    · exact absurd hv (lt_irrefl _)
    · exact (aeb_brakes hi ha hv hg hp).1
  · obtain ⟨g1, g2, g3⟩ := scan_reacting (d := d) (v := s.speed) hn hd hf
    have hst := step_eq (d := d) (s := s) hg
    have hlow : ∀ g : Rat, 0 < g → 0 < e.dt → braked g s.speed (later s.since e.dt) e.dt < s.speed := by
      intro g hg0 hp
      have := hlp hp
      have : 0 < later s.since e.dt / (3 / 5) * g * (981 / 100) * e.dt := by positivity
      unfold braked
      split_ifs <;> linarith
    cases ha : (scan d e s.speed s).aeb with
    | true =>
      have hb : (brake s.speed s.set s.since e.dt (scan d e s.speed s)) =
          (braked (17 / 20) s.speed (later s.since e.dt) e.dt, (scan d e s.speed s).wait, later s.since e.dt) := by
        unfold brake; rw [ha]; simp [hv]
      rw [hb] at hst
      have hspeed : (step d s e).speed = braked (17 / 20) s.speed (later s.since e.dt) e.dt := by
        rw [hst]; unfold settle; split_ifs with h0
        · exact h0.symm
        · rfl
      refine ⟨.inl ?_, fun hp _ _ => by rw [hspeed]; exact hlow _ (by norm_num) hp⟩
      rcases hi'.speed.lt_or_eq with hp | hp
      · refine .inr ⟨?_, hp⟩
        rw [hst] at hp ⊢
        unfold settle at hp ⊢
        split_ifs at hp ⊢ with h0
        · exact absurd hp (lt_irrefl _)
        · exact ha
      · left
        rw [hst]
        unfold settle
        rw [if_pos]
        rw [← hspeed]; exact hp.symm
    | false =>
      have hwt : 0 ≤ waited s.wait e.dt ∧ waited s.wait e.dt ≤ max 0 (23 / 20 - (t + e.dt)) := by
        unfold waited
        split_ifs with hc
        · exact ⟨le_refl _, le_max_left _ _⟩
        · refine ⟨by linarith, ?_⟩
          rcases le_max_iff.1 hw with h | h
          · exact le_max_of_le_left (by linarith)
          · exact le_max_of_le_right (by linarith)
      by_cases h0 : s.wait = 0
      · have hb : (brake s.speed s.set s.since e.dt (scan d e s.speed s)) =
            (braked (387 / 500) s.speed (later s.since e.dt) e.dt, waited s.wait e.dt, later s.since e.dt) := by
          unfold brake; rw [ha, g1, g3]; simp [hv, h0]
        rw [hb] at hst
        have hspeed : (step d s e).speed = braked (387 / 500) s.speed (later s.since e.dt) e.dt := by
          rw [hst]; unfold settle; split_ifs with h0
          · exact h0.symm
          · rfl
        refine ⟨?_, fun hp _ _ => by rw [hspeed]; exact hlow _ (by norm_num) hp⟩
        rcases hi'.speed.lt_or_eq with hp | hp
        · right
          refine ⟨hp, ?_⟩
          rw [hst] at hp ⊢
          unfold settle at hp ⊢
          split_ifs at hp ⊢ with h0
          · exact absurd hp (lt_irrefl _)
          · exact ⟨g1, g2, hwt⟩
        · left; left
          rw [hst]
          unfold settle
          rw [if_pos]
          rw [← hspeed]; exact hp.symm
      · have hb : (brake s.speed s.set s.since e.dt (scan d e s.speed s)) = (s.set, waited s.wait e.dt, s.since) := by
          unfold brake; rw [ha, g1, g3]; simp [hv, h0]
        have hset : s.set ≠ 0 := by have := hi.set; intro h; rw [h] at this; linarith
        rw [hb] at hst
        have hst' : step d s e = ⟨s.set, s.set, (scan d e s.speed s).dtFree, waited s.wait e.dt, (scan d e s.speed s).drv, (scan d e s.speed s).aeb, s.since⟩ := by
          rw [hst]; unfold settle; rw [if_neg hset]
        refine ⟨.inr ?_, fun _ _ ht => ?_⟩
        · rw [hst']
          exact ⟨lt_of_lt_of_le hv hi.set, g1, g2, hwt⟩
        · rw [max_eq_left (by linarith)] at hw
          exact absurd (le_antisymm hw hw0) h0

/-- A driver that reacts brakes 1.15 s later at the latest, in every step until standstill, if nothing leaves the own lane meanwhile.
Missing: vehicles leaving the lane. -/
theorem driver_brakes_partial {d : Dim} {es : List Env} (hes : Free es) {e : Env} (he : 0 < e.dt ∧ e.given = none)
    (hn : NoCutOut e ∧ ∀ x, x ∈ es → NoCutOut x) {s : St} (hi : Inv s) (hv : 0 < s.speed) (hd : s.drv = true) (hf : s.dtFree = none)
    (hw : s.wait ≤ 23 / 20) (ht : 23 / 20 ≤ time es) :
    (run d es s).speed = 0 ∨ (run d (es ++ [e]) s).speed < (run d es s).speed := by
  have key : ∀ (es : List Env) (t : Rat) (s : St), Free es → (∀ x, x ∈ es → NoCutOut x) → Inv s → Reacting t s →
      Inv (run d es s) ∧ Reacting (t + time es) (run d es s) := by
    intro es
    induction es with
    | nil => intro t s _ _ hi h; simpa [run, time] using ⟨hi, h⟩
    | cons x xs ih =>
      intro t s hf hn hi h
      have hx := hf x List.mem_cons_self
      have htm : time (x :: xs) = x.dt + time xs := by simp [time]
      rw [htm, ← add_assoc]
      exact ih (t + x.dt) (step d s x) (fun y hy => hf y (List.mem_cons_of_mem _ hy)) (fun y hy => hn y (List.mem_cons_of_mem _ hy))
        (step_inv (free_ok hf x List.mem_cons_self).1 hi) (reacting_step hi hx.1 hx.2 (hn x List.mem_cons_self) h).1
  obtain ⟨h1, h2⟩ := key es 0 s hes hn.2 hi (.inr ⟨hv, hd, hf, hi.wait hd, le_max_of_le_right (by linarith)⟩)
  rw [zero_add] at h2
  rcases h1.speed.lt_or_eq with hp | hp
  · right
    have hr : run d (es ++ [e]) s = step d (run d es s) e := by simp [run, List.foldl_append]
    rw [hr]
    exact (reacting_step h1 he.1.le he.2 hn.1 h2).2 he.1 hp ht
  · exact .inl hp.symm

end Verif.Alks
