import Verif.Tc.Model
/-
Traffic commands: what is reported about the actions that start.
-/
namespace Verif.Tc
open Verif.Transition (Dim Shape distanceTime relativeValue)
open Verif.LaneArith

variable {P : Type}

/-! ### Each started action is reported once -/

/-- The kinds of actions that have a traffic command. -/
def Supported : Act P → Prop
  | .other => False
  | _ => True

/-- Id of a reported action. -/
def TA.id : TA P → Nat
  | .laneChange i _ _ _ _ => i
  | .speed i _ _ _ _ => i
  | .teleport i _ => i
  | .path i _ => i
  | .acquire i _ => i

/-- The kind of the report is that of the action. -/
inductive SameKind : Act P → TA P → Prop
  | lane (d t i a b s l) : SameKind (.laneChange d t) (.laneChange i a b s l)
  | speed (d c t i a b s l) : SameKind (.speed d c t) (.speed i a b s l)
  | teleport (p i) : SameKind (.teleport p) (.teleport i p)
  | route (ps i) : SameKind (.route ps) (.path i ps)
  | acquire (p i) : SameKind (.acquire p) (.acquire i p)

/-- What happens during a run: changes of actions, and reports. -/
inductive Ev (P : Type)
  | change (a : Action P) (c : Change)
  | report (time : ℝ)

/-- A run; the commands that are reported. -/
noncomputable def run : Reporter P → List (Ev P) → Reporter P × List (Cmd P)
  | r, [] => (r, [])
  | r, .change a c :: es => run (register r a c) es
  | r, .report t :: es => ((run (update t r) es).1, (update t r).cmd :: (run (update t r) es).2)

/-- The actions that start during a run. -/
def starts : List (Ev P) → List (Action P)
  | [] => []
  | .change a .started :: es => a :: starts es
  | .change _ .other :: es => starts es
  | .report _ :: es => starts es

/-- `as` are the actions, and `ts` the reports of those of them that are supported, in order. -/
inductive Reports : List (Action P) → List (TA P) → Prop
  | nil : Reports [] []
  | skip {a l ts} : ¬ Supported a.act → Reports l ts → Reports (a :: l) ts
  | cons {a l t ts} : SameKind a.act t → t.id = a.id → Reports l ts → Reports (a :: l) (t :: ts)

theorem reports_append {l1 l2 : List (Action P)} {t1 t2 : List (TA P)} (h1 : Reports l1 t1) (h2 : Reports l2 t2) :
    Reports (l1 ++ l2) (t1 ++ t2) := by
  induction h1 with
  | nil => exact h2
  | skip h _ ih => exact .skip h ih
  | cons h h' _ ih => exact .cons h h' ih

theorem report_one (time : ℝ) (tc : Cmd P) (a : Action P) (ha : a.obj ≠ none) :
    ∃ ts, (report time tc a).actions = tc.actions ++ ts ∧ Reports [a] ts := by
  obtain ⟨id, obj, act⟩ := a
  cases obj with
  | none => exact absurd rfl ha
  | some o =>
    cases act with
    | other => exact ⟨[], by simp [report, entry, addEntry], .skip (fun h => h) .nil⟩
    | laneChange d t => exact ⟨_, rfl, .cons (.lane ..) rfl .nil⟩
    | speed d c t => exact ⟨_, rfl, .cons (.speed ..) rfl .nil⟩
    | teleport p => exact ⟨_, rfl, .cons (.teleport ..) rfl .nil⟩
    | route ps => exact ⟨_, rfl, .cons (.route ..) rfl .nil⟩
    | acquire p => exact ⟨_, rfl, .cons (.acquire ..) rfl .nil⟩

theorem report_all (time : ℝ) (l : List (Action P)) (hl : ∀ a ∈ l, a.obj ≠ none) (tc : Cmd P) :
    ∃ ts, (l.foldl (report time) tc).actions = tc.actions ++ ts ∧ Reports l ts := by
  induction l generalizing tc with
  | nil => exact ⟨[], by simp, .nil⟩
  | cons a r ih =>
    obtain ⟨t1, e1, r1⟩ := report_one time tc a (hl a (by simp))
    obtain ⟨t2, e2, r2⟩ := ih (fun b hb => hl b (by simp [hb])) (report time tc a)
    exact ⟨t1 ++ t2, by simp [List.foldl_cons, e2, e1, List.append_assoc], reports_append r1 r2⟩

theorem startedOf_append (l1 l2 : List (Action P × Change)) : startedOf (l1 ++ l2) = startedOf l1 ++ startedOf l2 := by
  simp [startedOf]

theorem run_reports (es : List (Ev P)) (r : Reporter P)
    (h : ∀ a ∈ startedOf r.changes ++ starts es, a.obj ≠ none) :
    ∃ l1 l2, startedOf r.changes ++ starts es = l1 ++ l2 ∧ startedOf (run r es).1.changes = l2 ∧
      Reports l1 ((run r es).2.flatMap (·.actions)) := by
  induction es generalizing r with
  | nil => exact ⟨[], startedOf r.changes, by simp [starts], rfl, .nil⟩
  | cons e es ih =>
    cases e with
    | change a c =>
      have hc : startedOf (register r a c).changes ++ starts es = startedOf r.changes ++ starts (.change a c :: es) := by
        cases c <;> simp [register, startedOf, starts]
      obtain ⟨l1, l2, e1, e2, e3⟩ := ih (register r a c) (by rw [hc]; exact h)
      exact ⟨l1, l2, by rw [← hc, e1], e2, e3⟩
    | report t =>
      have hs : starts (Ev.report t :: es) = starts es := rfl
      rw [hs] at h ⊢
      obtain ⟨l1, l2, e1, e2, e3⟩ := ih (update t r) (fun a ha => h a (by
        simp [update, startedOf] at ha ⊢; exact Or.inr ha))
      obtain ⟨ts, f1, f2⟩ := report_all t (startedOf r.changes) (fun a ha => h a (by simp [ha])) .empty
      refine ⟨startedOf r.changes ++ l1, l2, ?_, e2, ?_⟩
      · have : startedOf (update t r).changes = [] := rfl
        rw [this] at e1
        simp only [List.nil_append] at e1
        rw [e1, List.append_assoc]
      · simp only [run, List.flatMap_cons]
        have : (update t r).cmd.actions = ts := by
          simp only [update]; rw [f1]; rfl
        rw [this]
        exact reports_append f2 e3

theorem run_append (es fs : List (Ev P)) (r : Reporter P) :
    run r (es ++ fs) = ((run (run r es).1 fs).1, (run r es).2 ++ (run (run r es).1 fs).2) := by
  induction es generalizing r with
  | nil => rfl
  | cons e es ih =>
    cases e with
    | change a c => simp only [List.cons_append, run]; rw [ih]
    | report t => simp only [List.cons_append, run]; rw [ih]

/-- The commands of a run that ends with a report have every started action exactly once, in the order of their starts, as an entry of
its kind with its id and poses; actions of other kinds and other changes have none. -/
theorem reported_once (es : List (Ev P)) (t : ℝ) (h : ∀ a ∈ starts es, a.obj ≠ none) :
    Reports (starts es) ((run ⟨[], .empty⟩ (es ++ [.report t])).2.flatMap (·.actions)) := by
  have hs : ∀ fs : List (Ev P), starts (fs ++ [.report t]) = starts fs := by
    intro fs
    induction fs with
    | nil => rfl
    | cons e fs ih =>
      cases e with
      | change a c => cases c <;> simp [starts, ih]
      | report t' => simp [starts, ih]
  obtain ⟨l1, l2, e1, e2, e3⟩ := run_reports (es ++ [.report t]) (⟨[], .empty⟩ : Reporter P) (by
    rw [hs]; simpa [startedOf] using h)
  have e4 : l2 = [] := by
    rw [← e2, run_append]; rfl
  rw [hs, e4, List.append_nil] at e1
  have e5 : starts es = l1 := by simpa [startedOf] using e1
  rw [e5]; exact e3

example : ∃ (es : List (Ev Unit)) (ts : List (TA Unit)), starts es ≠ [] ∧ ts ≠ [] ∧ Reports (starts es) ts ∧ ∀ a ∈ starts es, a.obj ≠ none :=
  ⟨[.change ⟨3, some ⟨0, -1, 10⟩, .teleport ()⟩ .started, .report 0, .change ⟨4, some ⟨0, -1, 10⟩, .other⟩ .started],
    [.teleport 3 ()], by simp [starts], by simp, .cons (.teleport () 3) rfl (.skip (fun h => h) .nil), by simp [starts]⟩

/-! ### The participant -/

/-- If the started actions of a command belong to one entity, that is its participant. -/
theorem participant_right_partial (t : ℝ) (r : Reporter P) (o : Nat)
    (h : ∀ a ∈ startedOf r.changes, ∃ b, a.obj = some b ∧ b.id = o)
    (hs : ∃ a ∈ startedOf r.changes, Supported a.act) : (update t r).cmd.participant = some o := by
  have key : ∀ (l : List (Action P)) (tc : Cmd P), (∀ a ∈ l, ∃ b, a.obj = some b ∧ b.id = o) →
      ((∃ a ∈ l, Supported a.act) ∨ tc.participant = some o) → (l.foldl (report t) tc).participant = some o := by
    intro l
    induction l with
    | nil => intro tc _ h; simpa using h
    | cons a l ih =>
      intro tc ha hh
      rw [List.foldl_cons]
      obtain ⟨b, hb, hbo⟩ := ha a (by simp)
      obtain ⟨id, obj, act⟩ := a
      simp only at hb
      subst hb
      apply ih _ (fun c hc => ha c (by simp [hc]))
      rcases hh with ⟨c, hc, hsup⟩ | hh
      · rcases List.mem_cons.1 hc with rfl | hc
        · right
          cases act <;> simp [report, entry, addEntry, hbo, Supported] at hsup ⊢
        · exact Or.inl ⟨c, hc, hsup⟩
      · right
        cases act <;> simp [report, entry, addEntry, hbo, hh]
  exact key _ _ h (Or.inl hs)

/-- Two entities that start actions in the same step: the command has both actions and only one participant. -/
theorem participant_fails (t : ℝ) (a b : Nat) (p q : P) (o1 o2 : Obj) :
    (update t ⟨[(⟨a, some o1, .teleport p⟩, .started), (⟨b, some o2, .teleport q⟩, .started)], .empty⟩).cmd
      = ⟨some (stampOf t), some o2.id, [.teleport a p, .teleport b q]⟩ := by
  simp [update, startedOf, report, entry, addEntry, Cmd.empty]

/-! ### Extent and shape -/

/-- A lane change reports the distance or the duration of the scenario, whichever is given, and its shape. -/
theorem lane_extent (o : Obj) (id : Nat) (dyn : Dyn) (target : LaneTarget) :
    ∃ d u l, entry (P := P) o id (.laneChange dyn target) = some (.laneChange id d u dyn.shape l) ∧
      (dyn.dim = .distance → d = dyn.value ∧ u = 0) ∧ (dyn.dim = .time → d = 0 ∧ u = dyn.value) := by
  refine ⟨_, _, _, rfl, ?_, ?_⟩ <;> intro h <;> simp [extent, h]

/-- A speed action over a time reports this time. -/
theorem speed_extent_partial (o : Obj) (id : Nat) (dyn : Dyn) (c : Option (ℝ × ℝ)) (target : SpeedTarget) (h : dyn.dim = .time) :
    ∃ v, entry (P := P) o id (.speed dyn c target) = some (.speed id 0 dyn.value dyn.shape v) := by
  refine ⟨reportedSpeed o.speed target, ?_⟩
  cases c <;> simp [entry, extent, h, speedParam]

/-- A speed action over a distance reports its duration as the distance: from 10 to 20 m/s over 150 m gives a distance of 10. -/
theorem speed_extent_fails (o : Obj) (id : Nat) (s : Shape) :
    entry (P := P) o id (.speed ⟨.distance, s, 150⟩ (some (10, 20)) (.absolute 20)) = some (.speed id 10 0 s 20) := by
  have : distanceTime 10 20 150 = 10 := by
    unfold distanceTime Verif.Transition.small Verif.Transition.sign
    norm_num
  simp [entry, extent, speedParam, this, reportedSpeed]

/-! ### Targets -/

/-- The lane where a lane change ends: lanes are counted without lane 0. -/
def Ends : LaneTarget → Int → Prop
  | .absolute lane, l => l = lane
  | .relative refLane forward v, l => MovedBy refLane (if forward then v else -v) l

/-- The number of lanes that a command should have. -/
def LaneRight (own : Int) (t : LaneTarget) (k : Int) : Prop := ∃ l, Ends t l ∧ MovedBy own k l

/-- The reported number of lanes to a given lane is right only from the lanes next to the reference line to a lane on the other side. -/
theorem lane_absolute_iff (own lane : Int) (ho : own ≠ 0) (hl : lane ≠ 0) :
    LaneRight own (.absolute lane) (reportedLane own (.absolute lane)) ↔ (own = -1 ∧ 0 < lane) ∨ (own = 1 ∧ lane < 0) := by
  simp only [LaneRight, Ends, reportedLane, MovedBy, lanePos]
  constructor
  · rintro ⟨l, rfl, h⟩
    grind
  · intro h
    exact ⟨lane, rfl, by grind⟩

/-- The same for a number of lanes from its own lane. -/
theorem lane_relative_iff (own v : Int) (ho : own ≠ 0) :
    LaneRight own (.relative own true v) (reportedLane own (.relative own true v)) ↔
      (own = -1 ∧ 0 ≤ v) ∨ (own = 1 ∧ v ≤ 0) := by
  simp only [LaneRight, Ends, reportedLane, if_true]
  constructor
  · rintro ⟨l, h1, h2⟩
    simp only [MovedBy] at h1 h2
    have : getLaneIdDelta own v = v := by omega
    unfold getLaneIdDelta Verif.Common.signI at this
    grind
  · intro h
    have : getLaneIdDelta own v = v := by
      unfold getLaneIdDelta Verif.Common.signI
      grind
    rw [this]
    exact ⟨getRelativeLaneId own v, getRelativeLaneId_moves own v ho, getRelativeLaneId_moves own v ho⟩

/-- One lane to the right, from lane -1 to lane -2, is reported as two lanes. One lane to the right of itself, in lane -2, is reported as
one lane to the left. -/
theorem lane_fails : reportedLane (-1) (.absolute (-2)) = -2 ∧ MovedBy (-1) (-1) (-2) ∧
    reportedLane (-2) (.relative (-2) true (-1)) = 1 ∧ MovedBy (-2) (-1) (-3) := by
  unfold MovedBy lanePos
  decide

/-- The speed that a speed action aims at. -/
noncomputable def aims : SpeedTarget → ℝ
  | .absolute v => v
  | .relative refSpeed factor v => if factor then refSpeed * v else refSpeed + v

/-- The reported target speed is right for absolute targets and for a difference to the own speed. -/
theorem speed_target_partial (o : Obj) (id : Nat) (dyn : Dyn) (c : Option (ℝ × ℝ)) (t : SpeedTarget)
    (h : ∀ ref f v, t = .relative ref f v → ref = o.speed ∧ f = false) :
    ∃ d u, entry (P := P) o id (.speed dyn c t) = some (.speed id d u dyn.shape (aims t)) := by
  refine ⟨(extent dyn.dim (speedParam dyn c)).1, (extent dyn.dim (speedParam dyn c)).2, ?_⟩
  · cases t with
    | absolute v => simp [entry, reportedSpeed, aims]
    | relative ref f v =>
      obtain ⟨h1, h2⟩ := h ref f v rfl
      simp [entry, reportedSpeed, aims, h1, h2]

/-- A difference to another entity is reported relative to the own speed, a factor as a difference. -/
theorem speed_target_fails (own ref v : ℝ) :
    (reportedSpeed own (.relative ref false v) = aims (.relative ref false v) ↔ own = ref) ∧
    (reportedSpeed own (.relative own true v) = aims (.relative own true v) ↔ own + v = own * v) := by
  constructor
  · simp [reportedSpeed, aims]
  · simp [reportedSpeed, aims]

/-! ### The timestamp -/

/-- From time zero on, the timestamp is the time rounded down to nanoseconds. -/
theorem stamp_right (time : ℝ) (h : 0 ≤ time) :
    ((stampOf time).1 : ℝ) + (stampOf time).2 / 1000000000 ≤ time ∧
    time < ((stampOf time).1 : ℝ) + ((stampOf time).2 + 1) / 1000000000 ∧ (stampOf time).2 < 1000000000 := by
  have hf : 0 ≤ (time - ⌊time⌋) * 1000000000 := by
    have := Int.floor_le time
    have : 0 ≤ time - ⌊time⌋ := by linarith
    positivity
  have h1 := Nat.floor_le hf
  have h2 := Nat.lt_floor_add_one ((time - ⌊time⌋) * 1000000000)
  have h3 := Int.lt_floor_add_one time
  simp only [stampOf, toInt, h, if_true]
  refine ⟨by linarith, by linarith, ?_⟩
  rw [Nat.floor_lt hf]
  push_cast
  linarith

end Verif.Tc
