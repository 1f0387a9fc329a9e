import Verif.Swarm.Theorems
import Mathlib.Analysis.InnerProductSpace.PiL2
/-
Properties of the places of new vehicles of the swarm: C157.
-/
namespace Verif.Swarm
open Real

/-- The lane is driven in the direction of the road. -/
def AlongRoad (r : Rule) (lane : Int) : Prop := match r with
  | .rightHand => lane < 0
  | .leftHand => 0 < lane

/-- The vehicle in the list of the swarm. -/
def New.placed (v : New) : Placed := ⟨v.id, 0, v.pos⟩

/-- A new vehicle with its place, lane and heading. -/
def New.Ok (e : Env) (v : New) : Prop :=
  v.lane ∈ v.site.lanes ∧ v.pos = e.place v.site.road v.lane v.site.s ∧
  (AlongRoad v.site.rule v.lane → v.h = 0) ∧ (¬ AlongRoad v.site.rule v.lane → v.h = π)

/-- The place of the new vehicle is at least 20 m from the vehicles of the swarm, and at least `dist` along the road from those in its lane. -/
def Clear (e : Env) (dist : ℝ) (v : New) (vs : List Placed) : Prop :=
  ∀ q ∈ vs, 20 ≤ dist2 v.site.pos q.pos ∧ ∀ ds, e.delta v.site v.lane q = some (0, ds) → dist ≤ |ds|

/-- Every new vehicle is clear of the vehicles before it, including those added in the same step. -/
def ClearAll (e : Env) (dist : ℝ) : List Placed → List New → Prop
  | _, [] => True
  | vs, v :: t => Clear e dist v vs ∧ ClearAll e dist (vs ++ [v.placed]) t

theorem ensureDistance_iff (e : Env) (p : Site) (lane : Int) (dist : ℝ) (vs : List Placed) :
    ensureDistance e p lane dist vs = true ↔
    ∀ q ∈ vs, 20 ≤ dist2 p.pos q.pos ∧ ∀ ds, e.delta p lane q = some (0, ds) → dist ≤ |ds| := by
  unfold ensureDistance
  rw [List.all_eq_true]
  refine forall₂_congr fun q _ => ?_
  by_cases h : dist2 p.pos q.pos < 20
  · rw [if_pos h]
    simp only [Bool.false_eq_true, false_iff, not_and]
    intro h'; exact absurd h (not_lt.mpr h')
  · rw [if_neg h]
    cases hd : e.delta p lane q with
    | none => simpa using h
    | some r =>
      obtain ⟨dl, ds⟩ := r
      simp only
      by_cases h2 : dl = 0 ∧ |ds| < dist
      · rw [if_pos h2]
        simp only [Bool.false_eq_true, false_iff, not_and, not_forall]
        intro _
        exact ⟨ds, by rw [h2.1], not_le.mpr h2.2⟩
      · rw [if_neg h2]
        simp only [true_iff]
        refine ⟨not_lt.mp h, fun ds' h3 => ?_⟩
        simp only [Option.some.injEq, Prod.mk.injEq] at h3
        obtain ⟨h3, h4⟩ := h3
        subst h4
        exact not_lt.mp fun h5 => h2 ⟨h3, h5⟩

theorem heading_ok (r : Rule) (lane : Int) :
    (AlongRoad r lane → headingFor r lane = 0) ∧ (¬ AlongRoad r lane → headingFor r lane = π) := by
  cases r <;> simp only [AlongRoad, headingFor] <;> exact ⟨fun h => if_pos h, fun h => if_neg h⟩

theorem clearAll_append (e : Env) (dist : ℝ) (vs : List Placed) (a b : List New) (ha : ClearAll e dist vs a)
    (hb : ClearAll e dist (vs ++ a.map New.placed) b) : ClearAll e dist vs (a ++ b) := by
  induction a generalizing vs with
  | nil => simpa using hb
  | cons v t ih =>
    refine ⟨ha.1, ih _ ha.2 ?_⟩
    simpa using hb

theorem spawnLanes_spec (e : Env) (dist : ℝ) (p : Site) (l : List Nat) (vs : List Placed) :
    (spawnLanes e dist p l vs).1 = vs ++ (spawnLanes e dist p l vs).2.map New.placed ∧
    ClearAll e dist vs (spawnLanes e dist p l vs).2 ∧
    (∀ v ∈ (spawnLanes e dist p l vs).2, v.site = p ∧ v.Ok e) ∧
    ((spawnLanes e dist p l vs).2.map New.lane).Sublist (l.filterMap fun i => p.lanes[i]?) := by
  induction l generalizing vs with
  | nil => simp [spawnLanes, ClearAll]
  | cons i t ih =>
    simp only [spawnLanes]
    cases hl : p.lanes[i]? with
    | none =>
      simp only [List.filterMap_cons, hl]
      exact ih vs
    | some lane =>
      simp only [List.filterMap_cons, hl]
      cases hd : ensureDistance e p lane dist vs with
      | false =>
        simp only [if_true]
        obtain ⟨a, b, c, d⟩ := ih vs
        exact ⟨a, b, c, d.trans (List.sublist_cons_self _ _)⟩
      | true =>
        simp only [Bool.true_eq_false, if_false]
        cases hp : e.pool vs with
        | false =>
          simp only [if_true]
          obtain ⟨a, b, c, d⟩ := ih vs
          exact ⟨a, b, c, d.trans (List.sublist_cons_self _ _)⟩
        | true =>
          simp only [Bool.true_eq_false, if_false]
          obtain ⟨a, b, c, d⟩ := ih (vs ++ [⟨e.fresh vs, 0, e.place p.road lane p.s⟩])
          refine ⟨?_, ⟨?_, b⟩, ?_, ?_⟩
          · rw [a]; simp [New.placed]
          · exact (ensureDistance_iff e p lane dist vs).mp hd
          · intro v hv
            rcases List.mem_cons.mp hv with rfl | hv
            · exact ⟨rfl, List.mem_of_getElem? hl, rfl, (heading_ok _ _).1, (heading_ok _ _).2⟩
            · exact c v hv
          · simpa using d.cons_cons lane

theorem spawnSites_spec (e : Env) (dist : ℝ) (g : Nat → Nat → Nat) (k : Nat) (l : List (Site × Nat)) (vs : List Placed) :
    (spawnSites e dist g k l vs).1 = vs ++ (spawnSites e dist g k l vs).2.map New.placed ∧
    ClearAll e dist vs (spawnSites e dist g k l vs).2 ∧
    (∀ v ∈ (spawnSites e dist g k l vs).2, v.Ok e ∧ ∃ q ∈ l, q.1 = v.site) := by
  induction l generalizing k vs with
  | nil => simp [spawnSites, ClearAll]
  | cons q t ih =>
    obtain ⟨p, n⟩ := q
    simp only [spawnSites]
    obtain ⟨a, b, c, _⟩ := spawnLanes_spec e dist p (sample (min 32 n) (g k) (List.range (min 32 p.lanes.length))) vs
    set r := spawnLanes e dist p (sample (min 32 n) (g k) (List.range (min 32 p.lanes.length))) vs with hr
    obtain ⟨a', b', c'⟩ := ih (k + 1) r.1
    refine ⟨?_, ?_, ?_⟩
    · rw [a', a]; simp
    · refine clearAll_append e dist vs r.2 _ b ?_
      rw [← a]; exact b'
    · intro v hv
      rcases List.mem_append.mp hv with hv | hv
      · exact ⟨(c v hv).2, (p, n), List.mem_cons_self, (c v hv).1.symm⟩
      · obtain ⟨h1, q, hq, h2⟩ := c' v hv
        exact ⟨h1, q, List.mem_cons_of_mem _ hq, h2⟩

theorem mem_of_sub_perm {α : Type} {a rest l : List α} (h : (a ++ rest).Perm l) {x : α} (hx : x ∈ a) : x ∈ l :=
  h.mem_iff.mp (List.mem_append_left _ hx)

theorem sampleRoads_mem (minN maxN : Int) (d : Nat) (g : Nat → Nat) (sols sh : List Site) (hp : sh.Perm sols) :
    ∀ q ∈ sampleRoads minN maxN d g sols sh, q.1 ∈ sols ∧ 1 ≤ q.2 ∧ q.2 ≤ q.1.lanes.length := by
  intro q hq
  unfold sampleRoads at hq
  split at hq
  · simp at hq
  · simp only at hq
    split at hq
    · simp at hq
    · split at hq
      · rename_i h1 h2
        simp only [List.mem_map, List.mem_filter, Bool.and_eq_true, Bool.not_eq_true', bne_iff_ne] at hq
        obtain ⟨p, ⟨hp1, _, hp3⟩, rfl⟩ := hq
        obtain ⟨_, rest, hr⟩ := sample_spec (between minN (maxN - 1) d).toNat g sh (by rw [hp.length_eq]; exact h2)
        refine ⟨hp.mem_iff.mp (mem_of_sub_perm hr hp1), le_refl _, ?_⟩
        show 1 ≤ p.lanes.length
        omega
      · exact spread_mem g 0 _ sols q hq

/-- C157: every new vehicle is at a place found on the ellipse, in a driving lane of the road there, at the position of that lane, and heads in the driving direction of the
lane. At least 20 m are kept from the place on the ellipse to the vehicles already in the swarm, and the distance for the speed to those in its lane. -/
theorem new_vehicles (e : Env) (number : Nat) (v a : ℝ) (d : Draws) (sols : List Site) (n : Nat) (vs : List Placed) (hp : d.shuffled.Perm sols) :
    (spawn e number v a d sols n vs).1 = vs ++ (spawn e number v a d sols n vs).2.map New.placed ∧
    ClearAll e (min (max 40 (v * 2)) (7 / 10 * a)) vs (spawn e number v a d sols n vs).2 ∧
    ∀ x ∈ (spawn e number v a d sols n vs).2, x.site ∈ sols ∧ x.Ok e := by
  unfold spawn
  split
  · simp [ClearAll]
  · obtain ⟨h1, h2, h3⟩ := spawnSites_spec e (min (max 40 (v * 2)) (7 / 10 * a)) d.lanes 0
      (sampleRoads n (maxCars number vs.length) d.draw d.g sols d.shuffled) vs
    refine ⟨h1, h2, fun x hx => ?_⟩
    obtain ⟨h4, q, hq, h5⟩ := h3 x hx
    exact ⟨h5 ▸ (sampleRoads_mem _ _ _ _ _ _ hp q hq).1, h4⟩

theorem dist2_eq (p q : Pose) : dist2 p q = dist (!₂[p.x, p.y] : EuclideanSpace ℝ (Fin 2)) !₂[q.x, q.y] := by
  unfold dist2
  rw [EuclideanSpace.dist_eq]
  simp only [Fin.sum_univ_two, Real.dist_eq, sq_abs]
  congr 1
  simp
  ring

theorem dist2_triangle (p q r : Pose) : dist2 p r ≤ dist2 p q + dist2 q r := by
  rw [dist2_eq, dist2_eq, dist2_eq]; exact dist_triangle _ _ _

/-- C157, partial: a new vehicle is at least 20 m from an earlier vehicle of the swarm, less the distance from its position to the place on the ellipse. -/
theorem new_distance_partial (e : Env) (dist : ℝ) (v : New) (vs : List Placed) (h : Clear e dist v vs) (q : Placed) (hq : q ∈ vs) :
    20 - dist2 v.site.pos v.pos ≤ dist2 v.pos q.pos := by
  have h1 := (h q hq).1
  have h2 := dist2_triangle v.site.pos v.pos q.pos
  linarith

/-- C157, partial: if there are not more vehicles to add than places, none is put on a junction. -/
theorem no_junction_partial (minN maxN : Int) (d : Nat) (g : Nat → Nat) (sols sh : List Site)
    (hn : (between minN (maxN - 1) d).toNat ≤ sols.length) : ∀ q ∈ sampleRoads minN maxN d g sols sh, q.1.junction = false := by
  intro q hq
  unfold sampleRoads at hq
  split at hq
  · simp at hq
  · simp only at hq
    split at hq
    · simp at hq
    · try rw [if_pos hn] at hq
      simp only [List.mem_map, List.mem_filter, Bool.and_eq_true, Bool.not_eq_true', bne_iff_ne] at hq
      obtain ⟨p, ⟨_, hp2, _⟩, rfl⟩ := hq
      exact hp2

/-- A place with one lane. -/
noncomputable def siteA : Site := ⟨⟨0, 0⟩, 1, 50, [-1], true, .rightHand⟩

/-- No path between places; the lane is 10 m beside the place; every vehicle is available. -/
noncomputable def envA : Env := ⟨fun _ _ _ => none, fun _ _ _ => ⟨0, -10⟩, fun vs => vs.length, fun _ => true⟩

/-- Three vehicles asked for, the number two is drawn. -/
noncomputable def drawsA : Draws := ⟨2, fun _ => 0, fun _ _ => 0, [siteA]⟩

theorem spawnA (vs : List Placed) (hv : vs.length = 0 ∨ (vs.length = 1 ∧ ∀ q ∈ vs, 20 ≤ dist2 ⟨0, 0⟩ q.pos)) :
    (spawn envA (3 + vs.length) 10 200 drawsA [siteA] 0 vs).2 = [⟨vs.length, siteA, -1, ⟨0, -10⟩, 0⟩] := by
  have hm : maxCars (3 + vs.length) vs.length = 3 := by unfold maxCars; rw [if_pos (by omega)]; omega
  have hs : sampleRoads (0 : Nat) (3 : Nat) drawsA.draw drawsA.g [siteA] drawsA.shuffled = [(siteA, 1)] := by
    simp [sampleRoads, between, drawsA, spread, siteA]
  have hl : sample (min 32 1) (drawsA.lanes 0) (List.range (min 32 siteA.lanes.length)) = [0] := by
    simp [sample, siteA, reservoir]
  have he : ensureDistance envA siteA (-1) (min (max 40 (10 * 2)) (7 / 10 * 200)) vs = true := by
    rw [ensureDistance_iff]
    intro q hq
    rcases hv with h | ⟨_, h⟩
    · rw [List.length_eq_zero_iff.mp h] at hq; simp at hq
    · exact ⟨h q hq, fun ds hd => by simp [envA] at hd⟩
  unfold spawn
  rw [hm, if_neg (by omega), hs]
  simp only [spawnSites, hl, spawnLanes]
  rw [show siteA.lanes[0]? = some (-1) from rfl]
  simp only [he]
  simp [envA, siteA, headingFor]

/-- C157 does not hold as "no vehicle is put on a junction": with fewer places than vehicles to add, all places are used. -/
theorem junction_fails : ∃ (e : Env) (d : Draws) (sols : List Site), d.shuffled.Perm sols ∧
    ∃ v ∈ (spawn e 3 10 200 d sols 0 []).2, v.site.junction = true := by
  refine ⟨envA, drawsA, [siteA], List.Perm.refl _, ⟨0, siteA, -1, ⟨0, -10⟩, 0⟩, ?_, rfl⟩
  have := spawnA [] (Or.inl rfl)
  simp only [List.length_nil, Nat.add_zero] at this
  rw [this]; simp

/-- C157 does not hold as "a new vehicle is at least 20 m from all vehicles of the swarm": the distance is taken from the place on the ellipse, not from the lane. -/
theorem distance_fails : ∃ (e : Env) (d : Draws) (sols : List Site) (q : Placed), d.shuffled.Perm sols ∧
    ∃ v ∈ (spawn e 4 10 200 d sols 0 [q]).2, dist2 v.pos q.pos < 20 := by
  refine ⟨envA, drawsA, [siteA], ⟨7, 0, ⟨0, -21⟩⟩, List.Perm.refl _, ⟨1, siteA, -1, ⟨0, -10⟩, 0⟩, ?_, ?_⟩
  · have := spawnA [⟨7, 0, ⟨0, -21⟩⟩] (Or.inr ⟨rfl, ?_⟩)
    · simp only [List.length_singleton] at this
      rw [this]; simp
    · intro q hq
      simp only [List.mem_singleton] at hq
      subst hq
      unfold dist2
      exact Real.le_sqrt_of_sq_le (by norm_num)
  · unfold dist2
    rw [Real.sqrt_lt' (by norm_num)]
    norm_num

/-- C157 does not hold for entities outside of the swarm: a new vehicle can be put exactly where another entity is. -/
theorem overlap_fails (other : Pose) : ∃ (e : Env) (d : Draws) (sols : List Site), d.shuffled.Perm sols ∧
    (∃ p ∈ sols, dist2 p.pos other < 20) ∧ ∃ v ∈ (spawn e 3 10 200 d sols 0 []).2, v.pos = other := by
  let p : Site := ⟨other, 1, 50, [-1], false, .rightHand⟩
  let e : Env := ⟨fun _ _ _ => none, fun _ _ _ => other, fun vs => vs.length, fun _ => true⟩
  refine ⟨e, ⟨1, fun _ => 0, fun _ _ => 0, [p]⟩, [p], List.Perm.refl _, ⟨p, by simp, ?_⟩, ⟨0, p, -1, other, 0⟩, ?_, rfl⟩
  · unfold dist2
    simp [p]
  · simp [spawn, maxCars, sampleRoads, between, sample, reservoir, spawnSites, spawnLanes, ensureDistance, p, e, headingFor]

/-- Concrete cases: the case of `new_vehicles` with a vehicle added, and of the bound on the number with two vehicles asked for: one is added. -/
example : (spawn envA 3 10 200 drawsA [siteA] 0 []).2.length = 1 := by
  have := spawnA [] (Or.inl rfl)
  simp only [List.length_nil, Nat.add_zero] at this
  rw [this]; rfl

/-- A place away from a junction, and lanes far away from it. -/
noncomputable def siteB : Site := ⟨⟨0, 0⟩, 1, 50, [-1], false, .rightHand⟩

noncomputable def envB : Env := ⟨fun _ _ _ => none, fun _ _ _ => ⟨1000, 0⟩, fun vs => vs.length, fun _ => true⟩

theorem spawnB (dist : ℝ) (g : Nat → Nat → Nat) (n k : Nat) (vs : List Placed) (hv : ∀ q ∈ vs, q.pos = ⟨1000, 0⟩) :
    (spawnSites envB dist g k (List.replicate n (siteB, 1)) vs).1.length = vs.length + n := by
  induction n generalizing k vs with
  | zero => rfl
  | succ n ih =>
    have hl : sample (min 32 1) (g k) (List.range (min 32 siteB.lanes.length)) = [0] := by
      simp [sample, siteB, reservoir]
    have he : ensureDistance envB siteB (-1) dist vs = true := by
      rw [ensureDistance_iff]
      intro q hq
      refine ⟨?_, fun ds hd => by simp [envB] at hd⟩
      rw [hv q hq]
      unfold dist2
      exact Real.le_sqrt_of_sq_le (by norm_num [siteB])
    rw [List.replicate_succ]
    simp only [spawnSites, hl, spawnLanes]
    rw [show siteB.lanes[0]? = some (-1) from rfl]
    simp only [he]
    have hp : envB.pool vs = true := rfl
    simp only [hp, Bool.true_eq_false, if_false]
    rw [ih]
    · simp only [List.length_append, List.length_singleton]; omega
    · intro q hq
      rcases List.mem_append.mp hq with hq | hq
      · exact hv q hq
      · simp only [List.mem_singleton] at hq
        subst hq; rfl

/-- C155: the bound of `population_below` is the best possible: one less than the number asked for is reached at the first update. -/
theorem population_reached (number : Nat) (h1 : 1 ≤ number) (h2 : number ≤ 1000) :
    ∃ (w : World) (es : List Entry) (t : ℝ), w.Fair ∧ run number 10 200 [(0, w)] = some (es, t) ∧ es.length = number - 1 := by
  let sols := List.replicate (number - 1) siteB
  let w : World := ⟨⟨⟨0, 0⟩, 0, 200, 100, 100, 50⟩, fun _ => none, envB, sols, ⟨number - 1, fun _ => 0, fun _ _ => 0, sols⟩⟩
  have hm : maxCars number 0 = number := by unfold maxCars; rw [if_pos (by omega)]; omega
  have hs : sampleRoads (0 : Nat) (number : Nat) (number - 1) (fun _ => 0) sols sols = List.replicate (number - 1) (siteB, 1) := by
    have hb : between (0 : Nat) ((number : Nat) - 1) (number - 1) = (number - 1 : Nat) := by
      unfold between
      rw [if_neg (by omega)]
      rw [Nat.mod_eq_of_lt (by omega)]
      omega
    unfold sampleRoads
    rw [if_neg (by omega), hb]
    simp only [Int.toNat_natCast]
    split
    · rename_i h3; rw [h3]; rfl
    · rw [if_pos (by simp [sols])]
      have : sample (number - 1) (fun _ => 0) sols = sols := by
        simp [sample, sols, reservoir]
      rw [this]
      simp [sols, siteB]
  have hu : (spawn envB number 10 200 w.draws sols 0 []).1.length = number - 1 := by
    unfold spawn
    rw [show ([] : List Placed).length = 0 from rfl, hm, if_neg (by omega)]
    show (spawnSites envB _ _ 0 (sampleRoads (0 : Nat) (number : Nat) (number - 1) (fun _ => 0) sols sols) []).1.length = _
    rw [hs, spawnB _ _ _ _ _ (by simp)]
    simp
  refine ⟨w, (spawn envB number 10 200 w.draws sols 0 []).1.map (fun v => ⟨v.id, v.out⟩), 0, List.Perm.refl _, ?_, ?_⟩
  · simp only [run, Option.bind_some, step]
    rw [if_pos (Or.inl (by norm_num))]
    simp [update, despawn, located, w]
  · rw [List.length_map]; exact hu

end Verif.Swarm
