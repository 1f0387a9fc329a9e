import Mathlib.Tactic.Linarith
import Mathlib.Tactic.NormNum
import Mathlib.Tactic.Positivity
import Mathlib.Algebra.Order.Ring.Rat
import Mathlib.Algebra.Order.Field.Rat
import Mathlib.Algebra.Order.Field.Basic
import Verif.Alks.Model
/-! The reference driver: speed, automatic braking, reaction time, what is reacted to. -/
namespace Verif.Alks

/-! ### What the look at the other vehicles may change -/

/-- Braking is not given up, and only a reaction sets the waiting time. -/
structure Grow (c c' : Scan) : Prop where
  drv : c.drv = true → c'.drv = true
  aeb : c.aeb = true → c'.aeb = true
  wait : (c'.wait = c.wait ∧ c'.drv = c.drv) ∨ (c'.drv = true ∧ (c'.wait = 23 / 20 ∨ c'.wait = 3 / 4))

theorem Grow.rfl' (c : Scan) : Grow c c := ⟨id, id, .inl ⟨rfl, rfl⟩⟩

theorem Grow.trans {a b c : Scan} (h : Grow a b) (g : Grow b c) : Grow a c := by
  refine ⟨g.drv ∘ h.drv, g.aeb ∘ h.aeb, ?_⟩
  rcases g.wait with ⟨g1, g2⟩ | g1
  · rcases h.wait with ⟨h1, h2⟩ | ⟨h1, h2⟩
    · exact .inl ⟨g1.trans h1, g2.trans h2⟩
    · exact .inr ⟨g2.trans h1, by rw [g1]; exact h2⟩
  · exact .inr g1

theorem grow_react (c : Scan) {w : Rat} (hw : w = 23 / 20 ∨ w = 3 / 4) : Grow c (c.react w) := ⟨fun _ => rfl, id, .inr ⟨rfl, hw⟩⟩

theorem grow_cond {c a b : Scan} (k : Bool) (ha : Grow c a) (hb : Grow c b) : Grow c (bif k then a else b) := by
  cases k
  · exact hb
  · exact ha

theorem grow_of_eq {c a b : Scan} (h : Grow c a) (h1 : b.drv = a.drv) (h2 : b.aeb = a.aeb) (h3 : b.wait = a.wait) : Grow c b := by
  refine ⟨fun x => by rw [h1]; exact h.drv x, fun x => by rw [h2]; exact h.aeb x, ?_⟩
  rw [h1, h3]
  exact h.wait

theorem grow_aeb {c a : Scan} (h : Grow c a) : Grow c { a with aeb := true } := ⟨h.drv, fun _ => rfl, h.wait⟩

theorem grow_scanAdj (d : Dim) (v : Rat) (o : Obj) (c : Scan) : Grow c (scanAdj d v o c) := by
  unfold scanAdj cutInAdj cutOutAdj
  refine grow_cond _ (grow_cond _ (grow_cond _ (grow_react _ (.inl rfl)) (.rfl' _)) (.rfl' _)) (grow_cond _ ?_ (.rfl' _))
  exact grow_of_eq (grow_cond (c.cand && c.ttc.lt2) (grow_react c (.inl rfl)) (.rfl' c)) rfl rfl rfl

theorem grow_cutOutSame (d : Dim) (t : Ttc) (o : Obj) (c : Scan) : Grow c (cutOutSame d t o c) := by
  have h1 : Grow c (cutOutFirst t c) := by
    unfold cutOutFirst
    refine grow_cond _ ?_ (.rfl' _)
    exact grow_of_eq (grow_cond c.cand (grow_react c (.inl rfl)) (.rfl' c)) rfl rfl rfl
  have h2 : Grow c { cutOutFirst t c with dtFree := some (latFree d o) } := grow_of_eq h1 rfl rfl rfl
  unfold cutOutSame
  exact grow_cond _ (grow_aeb h2) h2

theorem grow_wrap (v f : Rat) (t : Ttc) (o : Obj) (c : Scan) : Grow c (wrap v f t o c) := by
  unfold wrap
  exact grow_cond _ (grow_cond _ (grow_aeb (.rfl' _)) (grow_of_eq (.rfl' c) rfl rfl rfl)) (.rfl' _)

theorem grow_inFront (f : Rat) (t : Ttc) (c : Scan) : Grow c (inFront f t c) := by
  unfold inFront
  exact grow_cond _ (grow_cond _ (grow_react _ (.inl rfl)) (grow_of_eq (.rfl' c) rfl rfl rfl)) (.rfl' _)

theorem grow_decelerating (o : Obj) (c : Scan) : Grow c (decelerating o c) := by
  unfold decelerating
  refine grow_cond _ (grow_aeb (.rfl' _)) (grow_cond _ (grow_react _ ?_) (.rfl' _))
  cases decide (o.as < -5)
  · exact .inr rfl
  · exact .inl rfl

theorem grow_ahead (v f : Rat) (t : Ttc) (o : Obj) (c : Scan) : Grow c (ahead v f t o c) := by
  unfold ahead
  exact grow_cond _ (.rfl' _) (grow_cond _ (grow_decelerating o c)
    (grow_cond _ (grow_wrap _ _ _ _ _) ((grow_wrap _ _ _ _ _).trans (grow_inFront _ _ _))))

theorem grow_scanSame (d : Dim) (v : Rat) (o : Obj) (c : Scan) : Grow c (scanSame d v o c) := by
  unfold scanSame
  exact grow_cond _ ((grow_cutOutSame _ _ _ _).trans (grow_ahead _ _ _ _ _))
    (grow_cond _ ((grow_cond _ (grow_react _ (.inl rfl)) (.rfl' _)).trans (grow_ahead _ _ _ _ _)) (grow_ahead _ _ _ _ _))

theorem grow_look (d : Dim) (v : Rat) (c : Scan) (o : Obj) : Grow c (look d v c o) := by
  unfold look
  exact grow_cond _ (.rfl' _) (grow_cond _ (.rfl' _) (grow_cond _ (grow_scanAdj _ _ _ _) (grow_cond _ (grow_scanSame _ _ _ _) (.rfl' _))))

theorem grow_looks (d : Dim) (v : Rat) (l : List Obj) (c : Scan) : Grow c (l.foldl (look d v) c) := by
  induction l generalizing c with
  | nil => exact .rfl' _
  | cons o l ih => exact (grow_look d v c o).trans (ih _)

theorem grow_conclude (v : Rat) (c : Scan) : Grow c (conclude v c) := by
  unfold conclude
  exact grow_cond _ (grow_cond _ (grow_aeb (.rfl' _)) (grow_cond _ (grow_react _ (.inl rfl)) (.rfl' _))) (.rfl' _)

/-- The locals at the start of the loop. -/
def fresh (s : St) : Scan := ⟨s.dtFree, s.wait, s.drv, s.aeb, false, false, .fin 10000000000⟩

theorem grow_scan (d : Dim) (e : Env) (v : Rat) (s : St) : Grow (fresh s) (scan d e v s) :=
  (grow_looks d v e.objs _).trans (grow_conclude v _)

/-! ### Speed -/

theorem later_range {t dt : Rat} (h0 : 0 ≤ t) (hd : 0 ≤ dt) : 0 ≤ later t dt ∧ later t dt ≤ 3 / 5 := by
  unfold later
  split_ifs <;> constructor <;> linarith

theorem braked_range {g v t dt : Rat} (hg : 0 ≤ g) (ht : 0 ≤ t ∧ t ≤ 3 / 5) (hv : 0 ≤ v) (hd : 0 ≤ dt) :
    0 ≤ braked g v t dt ∧ braked g v t dt ≤ v ∧ v - braked g v t dt ≤ g * (981 / 100) * dt := by
  have h1 : 0 ≤ t / (3 / 5) := by have := ht.1; positivity
  have h2 : t / (3 / 5) ≤ 1 := by rw [div_le_one (by norm_num)]; exact ht.2
  have h3 : 0 ≤ t / (3 / 5) * g * (981 / 100) * dt := by positivity
  have h4 : t / (3 / 5) * g * (981 / 100) * dt ≤ g * (981 / 100) * dt := by
    have : 0 ≤ (1 - t / (3 / 5)) * (g * (981 / 100) * dt) := mul_nonneg (by linarith) (by positivity)
    linarith
  unfold braked
  split_ifs with h
  · exact ⟨le_refl _, hv, by linarith⟩
  · exact ⟨by linarith, by linarith, by linarith⟩

/-- What holds of every reachable controller. -/
structure Inv (s : St) : Prop where
  speed : 0 ≤ s.speed
  set : s.speed ≤ s.set
  since : 0 ≤ s.since ∧ s.since ≤ 3 / 5
  wait : s.drv = true → 0 ≤ s.wait

/-- Steps forward in time, in which no negative speed is set. -/
structure Env.Ok (e : Env) : Prop where
  dt : 0 ≤ e.dt
  given : ∀ v, e.given = some v → 0 ≤ v

theorem given_range {e : Env} (he : e.Ok) {s : St} (h : Inv s) : 0 ≤ e.given.getD s.speed ∧ e.given.getD s.speed ≤ e.given.getD s.set := by
  cases hg : e.given with
  | none => exact ⟨h.speed, h.set⟩
  | some v => exact ⟨he.given v hg, le_refl _⟩

theorem cruise_range {v set dt : Rat} (h1 : v ≤ set) (hd : 0 ≤ dt) : v ≤ cruise v set dt ∧ cruise v set dt ≤ set := by
  unfold cruise
  split_ifs <;> constructor <;> linarith

theorem brake_range {v set since dt : Rat} {c : Scan} (h0 : 0 ≤ v) (h1 : v ≤ set) (hs : 0 ≤ since ∧ since ≤ 3 / 5) (hd : 0 ≤ dt)
    (hw : c.drv = true → 0 ≤ c.wait) :
    (0 ≤ (brake v set since dt c).1 ∧ (brake v set since dt c).1 ≤ set) ∧
      (0 ≤ (brake v set since dt c).2.2 ∧ (brake v set since dt c).2.2 ≤ 3 / 5) ∧ (c.drv = true → 0 ≤ (brake v set since dt c).2.1) := by
  have hl := later_range hs.1 hd
  have ha := braked_range (g := 17 / 20) (by norm_num) hl h0 hd
  have hb := braked_range (g := 387 / 500) (by norm_num) hl h0 hd
  have hc := cruise_range h1 hd
  have hwait : 0 ≤ waited c.wait dt := by unfold waited; split_ifs <;> linarith
  unfold brake
  cases c.aeb with
  | true =>
    cases decide (0 < v) with
    | true => exact ⟨⟨ha.1, ha.2.1.trans h1⟩, hl, hw⟩
    | false => exact ⟨⟨h0.trans h1, le_refl _⟩, hs, hw⟩
  | false =>
    cases hdrv : c.drv with
    | true =>
      cases decide (0 < v) with
      | true =>
        cases decide (c.wait = 0) with
        | true => exact ⟨⟨hb.1, hb.2.1.trans h1⟩, hl, fun _ => hwait⟩
        | false => exact ⟨⟨h0.trans h1, le_refl _⟩, hs, fun _ => hwait⟩
      | false => exact ⟨⟨h0.trans h1, le_refl _⟩, hs, fun _ => hw hdrv⟩
    | false => exact ⟨⟨h0.trans hc.1, hc.2⟩, hs, fun h => by simp at h⟩

/-- A step keeps the invariant. -/
theorem step_inv {d : Dim} {e : Env} (he : e.Ok) {s : St} (h : Inv s) : Inv (step d s e) := by
  have hv := given_range he h
  have hg := grow_scan d e (e.given.getD s.speed) s
  have hw : (scan d e (e.given.getD s.speed) s).drv = true → 0 ≤ (scan d e (e.given.getD s.speed) s).wait := by
    intro hd
    rcases hg.wait with ⟨h1, h2⟩ | ⟨-, h1 | h1⟩
    · rw [h1]; rw [h2] at hd; exact h.wait hd
    · rw [h1]; norm_num
    · rw [h1]; norm_num
  have hb := brake_range hv.1 hv.2 h.since he.dt hw
  show Inv (settle _ _ _)
  unfold settle
  split_ifs with h0
  · exact ⟨le_refl _, le_refl _, ⟨le_refl _, by norm_num [reset]⟩, by simp [reset]⟩
  · exact ⟨hb.1.1, hb.1.2, hb.2.1, hb.2.2⟩

/-- The speed is never negative and never above the speed set last, at activation or since. -/
theorem speed_range {d : Dim} {es : List Env} (he : ∀ e, e ∈ es → e.Ok) {v : Rat} (hv : 0 ≤ v) : Inv (run d es (reset v)) := by
  suffices hh : ∀ (es : List Env), (∀ e, e ∈ es → e.Ok) → ∀ s, Inv s → Inv (run d es s) from
    hh es he _ ⟨hv, le_refl _, ⟨le_refl _, by norm_num [reset]⟩, by simp [reset]⟩
  intro es
  induction es with
  | nil => exact fun _ _ h => h
  | cons e es ih =>
    intro he s h
    exact ih (fun x hx => he x (List.mem_cons_of_mem _ hx)) _ (step_inv (he e List.mem_cons_self) h)

/-- Where the set speed comes from: it is the one given in the step, the one before, or zero at standstill. -/
theorem step_set (d : Dim) (s : St) (e : Env) : (step d s e).set = e.given.getD s.set ∨ (step d s e).set = 0 ∧ (step d s e).speed = 0 := by
  show (settle _ _ _).set = _ ∨ (settle _ _ _).set = 0 ∧ (settle _ _ _).speed = 0
  unfold settle
  split_ifs
  · exact .inr ⟨rfl, rfl⟩
  · exact .inl rfl

theorem looks_still (d : Dim) (l : List Obj) (c : Scan) : l.foldl (look d 0) c = c := by
  induction l generalizing c with
  | nil => rfl
  | cons o l ih =>
    rw [List.foldl_cons]
    have : look d 0 c o = c := by unfold look; simp
    rw [this, ih]

/-- At standstill the vehicle stays, until a speed is set. -/
theorem standstill_holds {d : Dim} {es : List Env} (he : ∀ e, e ∈ es → e.Ok ∧ e.given = none) : run d es (reset 0) = reset 0 := by
  induction es with
  | nil => rfl
  | cons e es ih =>
    obtain ⟨hok, hg⟩ := he e List.mem_cons_self
    have hc : scan d e 0 (reset 0) = fresh (reset 0) := by
      unfold scan
      rw [looks_still]
      rfl
    have hs : step d (reset 0) e = reset 0 := by
      have h3 : cruise 0 0 e.dt = 0 := by
        have := hok.dt
        have := cruise_range (v := 0) (set := 0) (le_refl _) hok.dt
        linarith
      show settle (e.given.getD 0) (scan d e (e.given.getD 0) (reset 0)) (brake (e.given.getD 0) (e.given.getD 0) 0 e.dt (scan d e (e.given.getD 0) (reset 0))) = _
      rw [hg]
      show settle 0 (scan d e 0 (reset 0)) (brake 0 0 0 e.dt (scan d e 0 (reset 0))) = _
      rw [hc]
      unfold settle
      rw [if_pos]
      show (brake 0 0 0 e.dt (fresh (reset 0))).1 = 0
      unfold brake
      simpa [fresh, reset] using h3
    show run d es (step d (reset 0) e) = _
    rw [hs]
    exact ih fun x hx => he x (List.mem_cons_of_mem _ hx)

/-! ### Automatic braking -/

/-- Under automatic braking a step without a speed set from outside is this. -/
theorem aeb_step {d : Dim} {s : St} {e : Env} (ha : s.aeb = true) (hv : 0 < s.speed) (hg : e.given = none) :
    (step d s e).speed = braked (17 / 20) s.speed (later s.since e.dt) e.dt ∧
      (0 < (step d s e).speed → (step d s e).aeb = true ∧ (step d s e).since = later s.since e.dt) ∧
      ((step d s e).speed = 0 → step d s e = reset 0) := by
  have hgr := (grow_scan d e s.speed s).aeb ha
  have hst : step d s e = settle s.set (scan d e s.speed s) (brake s.speed s.set s.since e.dt (scan d e s.speed s)) := by
    unfold step; rw [hg]; rfl
  have hb : brake s.speed s.set s.since e.dt (scan d e s.speed s) =
      (braked (17 / 20) s.speed (later s.since e.dt) e.dt, (scan d e s.speed s).wait, later s.since e.dt) := by
    unfold brake; rw [hgr]; simp [hv]
  rw [hst, hb]
  unfold settle
  by_cases h0 : braked (17 / 20) s.speed (later s.since e.dt) e.dt = 0
  · simp only [h0, if_true]
    exact ⟨rfl, fun h => absurd h (by simp [reset]), fun _ => trivial⟩
  · simp only [h0, if_false]
    exact ⟨trivial, fun _ => ⟨hgr, trivial⟩, fun h => h.elim⟩

/-- Automatic braking is kept up until standstill, lowers the speed in every step, and by no more than 0.85 g. -/
theorem aeb_brakes {d : Dim} {s : St} {e : Env} (hi : Inv s) (ha : s.aeb = true) (hv : 0 < s.speed) (hg : e.given = none) (hd : 0 < e.dt) :
    (step d s e).speed < s.speed ∧ s.speed - (step d s e).speed ≤ 17 / 20 * (981 / 100) * e.dt ∧
      (0 < (step d s e).speed → (step d s e).aeb = true) := by
  obtain ⟨h1, h2, h3⟩ := aeb_step (d := d) ha hv hg
  have hl := later_range hi.since.1 hd.le
  have hb := braked_range (g := 17 / 20) (by norm_num) hl hi.speed hd.le
  refine ⟨?_, by rw [h1]; exact hb.2.2, fun h => (h2 h).1⟩
  rw [h1]
  have hl' : 0 < later s.since e.dt := by
    have := hi.since.1
    unfold later
    split_ifs <;> linarith
  unfold braked
  have : 0 < later s.since e.dt / (3 / 5) * (17 / 20) * (981 / 100) * e.dt := by positivity
  split_ifs <;> linarith

/-- Steps with no speed set from outside. -/
def Free (es : List Env) : Prop := ∀ e, e ∈ es → 0 ≤ e.dt ∧ e.given = none

/-- Time taken. -/
def time (es : List Env) : Rat := (es.map Env.dt).sum

theorem free_ok {es : List Env} (h : Free es) : ∀ e, e ∈ es → e.Ok ∧ e.given = none :=
  fun e he => ⟨⟨(h e he).1, fun v hv => by rw [(h e he).2] at hv; simp at hv⟩, (h e he).2⟩

theorem time_nonneg {es : List Env} (h : Free es) : 0 ≤ time es := by
  induction es with
  | nil => exact le_refl _
  | cons e es ih =>
    have h1 := (h e List.mem_cons_self).1
    have h2 := ih fun x hx => h x (List.mem_cons_of_mem _ hx)
    simp only [time, List.map_cons, List.sum_cons] at h2 ⊢
    linarith

/-- Braking automatically, or at rest after it. -/
def Braking (s : St) : Prop := s = reset 0 ∨ (s.aeb = true ∧ 0 < s.speed)

theorem braking_step {d : Dim} {e : Env} {s : St} (hi : Inv s) (hdt : 0 ≤ e.dt) (hg : e.given = none) (h : Braking s) :
    Braking (step d s e) ∧ (step d s e).speed ≤ s.speed ∧
      (step d s e = reset 0 ∨ (step d s e).since = later s.since e.dt ∧ (step d s e).speed = braked (17 / 20) s.speed (later s.since e.dt) e.dt) := by
  have hf : Free [e] := by intro x hx; rw [List.mem_singleton.1 hx]; exact ⟨hdt, hg⟩
  have hok := (free_ok hf e List.mem_cons_self).1
  have hi' := step_inv (d := d) hok hi
  rcases h with rfl | ⟨ha, hv⟩
  · have : step d (reset 0) e = reset 0 := standstill_holds (free_ok hf)
    rw [this]
    exact ⟨.inl rfl, le_refl _, .inl rfl⟩
  · obtain ⟨h1, h2, h3⟩ := aeb_step (d := d) ha hv hg
    have hl := later_range hi.since.1 hdt
    have hb := braked_range (g := 17 / 20) (by norm_num) hl hi.speed hdt
    rcases hi'.speed.lt_or_eq with hp | hp
    · exact ⟨.inr ⟨(h2 hp).1, hp⟩, by rw [h1]; exact hb.2.1, .inr ⟨(h2 hp).2, h1⟩⟩
    · exact ⟨.inl (h3 hp.symm), by rw [h1]; exact hb.2.1, .inl (h3 hp.symm)⟩

/-- The first 0.6 s of automatic braking. -/
theorem aeb_ramp {d : Dim} {es : List Env} (hes : Free es) {s : St} (hi : Inv s) (h : Braking s) :
    Inv (run d es s) ∧ Braking (run d es s) ∧ (run d es s).speed ≤ s.speed ∧
      (run d es s = reset 0 ∨ min (3 / 5) (s.since + time es) ≤ (run d es s).since) := by
  induction es generalizing s with
  | nil => exact ⟨hi, h, le_refl _, .inr (by simp [run, time])⟩
  | cons e es ih =>
    have hes' : Free es := fun x hx => hes x (List.mem_cons_of_mem _ hx)
    obtain ⟨hdt, hg⟩ := hes e List.mem_cons_self
    have hi' := step_inv (d := d) (free_ok hes e List.mem_cons_self).1 hi
    obtain ⟨h1, h2, h3⟩ := braking_step (d := d) hi hdt hg h
    obtain ⟨g1, g2, g3, g4⟩ := ih hes' hi' h1
    refine ⟨g1, g2, g3.trans h2, ?_⟩
    show run d es (step d s e) = _ ∨ _ ≤ (run d es (step d s e)).since
    rcases h3 with h3 | ⟨h3, -⟩
    · left; rw [h3]; exact standstill_holds (free_ok hes')
    · rcases g4 with g4 | g4
      · exact .inl g4
      · right
        refine le_trans ?_ g4
        rw [h3]
        have ht := time_nonneg hes'
        have htm : time (e :: es) = e.dt + time es := by simp [time]
        rw [htm]
        unfold later
        split_ifs with hc
        · exact le_min (min_le_left _ _) ((min_le_left _ _).trans (by linarith))
        · exact min_le_min (le_refl _) (by linarith)

/-- Full automatic braking takes 0.85 g off the speed, until standstill. -/
theorem aeb_full {d : Dim} {es : List Env} (hes : Free es) {s : St} (hi : Inv s) (h : Braking s) (hs : s = reset 0 ∨ s.since = 3 / 5) :
    (run d es s).speed ≤ max 0 (s.speed - 17 / 20 * (981 / 100) * time es) := by
  induction es generalizing s with
  | nil => simp [run, time]
  | cons e es ih =>
    have hes' : Free es := fun x hx => hes x (List.mem_cons_of_mem _ hx)
    obtain ⟨hdt, hg⟩ := hes e List.mem_cons_self
    have hi' := step_inv (d := d) (free_ok hes e List.mem_cons_self).1 hi
    have htm : time (e :: es) = e.dt + time es := by simp [time]
    have ht := time_nonneg hes'
    rcases hs with rfl | hs
    · rw [standstill_holds (free_ok hes)]
      exact le_max_left _ _
    · obtain ⟨h1, -, h3⟩ := braking_step (d := d) hi hdt hg h
      have hl : later s.since e.dt = 3 / 5 := by
        unfold later
        rw [hs]
        split_ifs <;> linarith
      rw [hl] at h3
      rcases h3 with h3 | ⟨h3, h4⟩
      · show (run d es (step d s e)).speed ≤ _
        rw [h3, standstill_holds (free_ok hes')]
        exact le_max_left _ _
      · refine (ih hes' hi' h1 (.inr h3)).trans ?_
        rw [h4, htm]
        unfold braked
        split_ifs with hb
        · exact max_le (le_max_left _ _) (le_max_of_le_left (by linarith))
        · exact max_le (le_max_left _ _) (le_max_of_le_right (by linarith))

/-- Automatic braking ends at standstill: 0.6 s to build up, then at 0.85 g. -/
theorem aeb_stops {d : Dim} {es fs : List Env} (hes : Free es) (hfs : Free fs) {s : St} (hi : Inv s) (ha : s.aeb = true) (hv : 0 < s.speed)
    (h1 : 3 / 5 ≤ time es) (h2 : s.speed ≤ 17 / 20 * (981 / 100) * time fs) : run d (es ++ fs) s = reset 0 := by
  obtain ⟨g1, g2, g3, g4⟩ := aeb_ramp (d := d) hes hi (.inr ⟨ha, hv⟩)
  have hr : run d (es ++ fs) s = run d fs (run d es s) := List.foldl_append
  rw [hr]
  rcases g4 with g4 | g4
  · rw [g4, standstill_holds (free_ok hfs)]
  · have hs : (run d es s).since = 3 / 5 := by
      have := g1.since.2
      have := hi.since.1
      rw [min_eq_left (by linarith)] at g4
      linarith
    obtain ⟨k1, k2, -, -⟩ := aeb_ramp (d := d) hfs g1 g2
    have := aeb_full (d := d) hfs g1 g2 (.inr hs)
    rw [max_eq_left (by linarith)] at this
    rcases k2 with k2 | ⟨-, k2⟩
    · exact k2
    · exact absurd k2 (not_lt.2 this)

end Verif.Alks
