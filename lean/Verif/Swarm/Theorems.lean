import Verif.Swarm.Model
import Mathlib.Tactic.Linarith
import Mathlib.Tactic.NormNum
import Mathlib.Tactic.Positivity
import Mathlib.Tactic.Ring
/-
Properties of the traffic around an entity: C155 (number of vehicles), C156 (removal), C157 (places of new vehicles).
-/
namespace Verif.Swarm
open Real

/-! ### Removal (C156) -/

/-- The vehicle is off the road or outside of the outer ellipse (by more than a thousandth of the measure). -/
def Lost (z : Zone) (v : Veh) : Prop :=
  v.off = true ∨ ellipse z.centre.x z.centre.y z.h z.a z.b v.pos.x v.pos.y > 1 / 1000

/-- The vehicle is not inside of the ellipse in the middle. -/
def Outer (z : Zone) (v : Veh) : Prop := 0 ≤ ellipse z.centre.x z.centre.y z.h z.midA z.midB v.pos.x v.pos.y

theorem judge_lost {z : Zone} {v : Veh} {n : Nat} (h : Lost z v) : judge z v n = none := by
  unfold judge
  rcases h with h | h
  · simp [h]
  · by_cases ho : v.off <;> simp only [ho, if_true, if_false, Bool.false_eq_true]
    exact if_pos h

theorem judge_outer {z : Zone} {v : Veh} {n : Nat} (h : ¬ Lost z v) (ho : Outer z v) :
    judge z v n = if 5 ≤ n then none else some (n + 1) := by
  unfold Lost at h
  unfold Outer at ho
  have h1 : v.off = false := by
    cases e : v.off with
    | false => rfl
    | true => exact absurd (Or.inl e) h
  have h2 : ¬ ellipse z.centre.x z.centre.y z.h z.a z.b v.pos.x v.pos.y > 1 / 1000 := fun h' => h (Or.inr h')
  have h3 : ellipse z.centre.x z.centre.y z.h z.midA z.midB v.pos.x v.pos.y > 1 / 1000 ∨
      (0 ≤ ellipse z.centre.x z.centre.y z.h z.midA z.midB v.pos.x v.pos.y ∧
        ellipse z.centre.x z.centre.y z.h z.midA z.midB v.pos.x v.pos.y ≤ 1 / 1000) := by
    rcases lt_or_ge (1 / 1000) (ellipse z.centre.x z.centre.y z.h z.midA z.midB v.pos.x v.pos.y) with h4 | h4
    · exact Or.inl h4
    · exact Or.inr ⟨ho, h4⟩
  unfold judge
  simp only [h1, Bool.false_eq_true, if_false, if_neg h2, if_pos h3]
  by_cases h5 : 5 ≤ n
  · rw [if_pos (show n + 1 > 5 by omega), if_pos h5]
  · rw [if_neg (show ¬ n + 1 > 5 by omega), if_neg h5]

theorem judge_inner {z : Zone} {v : Veh} {n : Nat} (h : ¬ Lost z v) (ho : ¬ Outer z v) : judge z v n = some 0 := by
  unfold Lost at h
  unfold Outer at ho
  have h1 : v.off = false := by
    cases e : v.off with
    | false => rfl
    | true => exact absurd (Or.inl e) h
  have h2 : ¬ ellipse z.centre.x z.centre.y z.h z.a z.b v.pos.x v.pos.y > 1 / 1000 := fun h' => h (Or.inr h')
  have h3 : ¬ (ellipse z.centre.x z.centre.y z.h z.midA z.midB v.pos.x v.pos.y > 1 / 1000 ∨
      (0 ≤ ellipse z.centre.x z.centre.y z.h z.midA z.midB v.pos.x v.pos.y ∧
        ellipse z.centre.x z.centre.y z.h z.midA z.midB v.pos.x v.pos.y ≤ 1 / 1000)) := by
    rintro (h4 | h4)
    · linarith
    · exact ho h4.1
  unfold judge
  simp only [h1, Bool.false_eq_true, if_false, if_neg h2, if_neg h3]

/-- A vehicle over several checks, the latest first: its counter, none after it has been deleted. It starts with counter zero. -/
noncomputable def life : List (Zone × Veh) → Option Nat
  | [] => some 0
  | x :: before => (life before).bind (judge x.1 x.2)

/-- Number of checks in a row, ending with the latest, at which the vehicle was not inside of the ellipse in the middle. -/
def Streak (l : List (Zone × Veh)) (n : Nat) : Prop :=
  n ≤ l.length ∧ (∀ x ∈ l.take n, Outer x.1 x.2) ∧ ∀ x, l[n]? = some x → ¬ Outer x.1 x.2

theorem life_some (l : List (Zone × Veh)) (n : Nat) (h : life l = some n) :
    (∀ x ∈ l, ¬ Lost x.1 x.2) ∧ n ≤ 5 ∧ Streak l n := by
  induction l generalizing n with
  | nil =>
    simp only [life, Option.some.injEq] at h
    subst h
    exact ⟨by simp, by omega, by simp, by simp, by simp⟩
  | cons x t ih =>
    simp only [life] at h
    cases hl : life t with
    | none => simp [hl] at h
    | some m =>
      obtain ⟨i1, i2, i3, i4, i5⟩ := ih m hl
      simp only [hl, Option.bind_some] at h
      by_cases hlost : Lost x.1 x.2
      · rw [judge_lost hlost] at h; exact absurd h (by simp)
      have hall : ∀ y ∈ x :: t, ¬ Lost y.1 y.2 := by
        intro y hy
        rcases List.mem_cons.mp hy with rfl | hy
        · exact hlost
        · exact i1 y hy
      by_cases ho : Outer x.1 x.2
      · rw [judge_outer hlost ho] at h
        by_cases h5 : 5 ≤ m
        · simp [h5] at h
        · simp only [h5, if_false, Option.some.injEq] at h
          subst h
          refine ⟨hall, by omega, by simpa using i3, ?_, by simpa using i5⟩
          intro y hy
          simp only [List.take_succ_cons] at hy
          rcases List.mem_cons.mp hy with rfl | hy
          · exact ho
          · exact i4 y hy
      · rw [judge_inner hlost ho] at h
        simp only [Option.some.injEq] at h
        subst h
        exact ⟨hall, by omega, by omega, by simp, by intro y hy; simp at hy; subst hy; exact ho⟩

/-- Six checks in a row, the latest at place `i`, at which the vehicle was not inside of the ellipse in the middle. -/
def SixOuter (l : List (Zone × Veh)) : Prop :=
  ∃ i, ∀ j, j < 6 → ∃ x, l[i + j]? = some x ∧ Outer x.1 x.2

/-- C156: a vehicle of the swarm is deleted exactly if at some check it was off the road or outside of the outer ellipse, or at six checks in a row not inside of the
ellipse in the middle. -/
theorem deleted_iff (l : List (Zone × Veh)) : life l = none ↔ (∃ x ∈ l, Lost x.1 x.2) ∨ SixOuter l := by
  constructor
  · intro h
    induction l with
    | nil => simp [life] at h
    | cons x t ih =>
      cases hl : life t with
      | none =>
        rcases ih hl with ⟨y, hy, hy'⟩ | ⟨i, hi⟩
        · exact Or.inl ⟨y, List.mem_cons_of_mem _ hy, hy'⟩
        · refine Or.inr ⟨i + 1, fun j hj => ?_⟩
          obtain ⟨y, hy, hy'⟩ := hi j hj
          refine ⟨y, ?_, hy'⟩
          rw [show i + 1 + j = (i + j) + 1 by omega]
          simpa using hy
      | some m =>
        obtain ⟨i1, i2, i3, i4, i5⟩ := life_some t m hl
        simp only [life, hl, Option.bind_some] at h
        by_cases hlost : Lost x.1 x.2
        · exact Or.inl ⟨x, List.mem_cons_self, hlost⟩
        by_cases ho : Outer x.1 x.2
        · rw [judge_outer hlost ho] at h
          by_cases h5 : 5 ≤ m
          · refine Or.inr ⟨0, fun j hj => ?_⟩
            cases j with
            | zero => exact ⟨x, by simp, ho⟩
            | succ j =>
              have hj' : j < t.length := by omega
              refine ⟨t[j], by simp [hj'], i4 _ ?_⟩
              rw [List.mem_take_iff_getElem]
              exact ⟨j, by omega, rfl⟩
          · simp [h5] at h
        · rw [judge_inner hlost ho] at h; simp at h
  · intro h
    cases hl : life l with
    | none => rfl
    | some n =>
      exfalso
      induction l generalizing n with
      | nil =>
        rcases h with ⟨y, hy, _⟩ | ⟨i, hi⟩
        · simp at hy
        · obtain ⟨y, hy, _⟩ := hi 0 (by omega); simp at hy
      | cons x t ih =>
        have hs := life_some _ _ hl
        rcases h with ⟨y, hy, hy'⟩ | ⟨i, hi⟩
        · exact hs.1 y hy hy'
        · cases i with
          | zero =>
            obtain ⟨h1, h2, h3, h4, h5⟩ := hs
            obtain ⟨y, hy, hy'⟩ := hi n (by omega)
            rw [Nat.zero_add] at hy
            exact h5 y hy hy'
          | succ i =>
            cases hl' : life t with
            | none => simp [life, hl'] at hl
            | some m =>
              refine ih (Or.inr ⟨i, fun j hj => ?_⟩) m hl'
              obtain ⟨y, hy, hy'⟩ := hi j hj
              refine ⟨y, ?_, hy'⟩
              rw [show i + 1 + j = (i + j) + 1 by omega] at hy
              simpa using hy

/-- C156: an update judges every vehicle by itself: the remaining vehicles are those whose judgement is not to delete, in the same order, and the number is that of the
deleted ones. -/
theorem despawn_each (z : Zone) (w : Int → Option Veh) (es rest : List Entry) (n : Nat) (h : despawn z w es = some (rest, n)) :
    rest = es.filterMap (fun s => ((w s.id).bind fun v => judge z v s.out).map fun k => ⟨s.id, k⟩) ∧
    rest.length + n = es.length ∧ ∀ s ∈ es, (w s.id).isSome := by
  induction es generalizing rest n with
  | nil => simp only [despawn, Option.some.injEq, Prod.mk.injEq] at h; obtain ⟨rfl, rfl⟩ := h; simp
  | cons s t ih =>
    simp only [despawn] at h
    cases hw : w s.id with
    | none => simp [hw] at h
    | some v =>
      simp only [hw] at h
      cases hj : judge z v s.out with
      | none =>
        simp only [hj, Option.map_eq_some_iff] at h
        obtain ⟨⟨r, m⟩, hr, he⟩ := h
        simp only [Prod.mk.injEq] at he
        obtain ⟨rfl, rfl⟩ := he
        obtain ⟨a, b, c⟩ := ih r m hr
        refine ⟨?_, by simp only [List.length_cons]; omega, ?_⟩
        · rw [List.filterMap_cons]
          simp only [hw, Option.bind_some, hj, Option.map_none]
          exact a
        · intro s' hs'
          rcases List.mem_cons.mp hs' with rfl | hs'
          · simp [hw]
          · exact c s' hs'
      | some k =>
        simp only [hj, Option.map_eq_some_iff] at h
        obtain ⟨⟨r, m⟩, hr, he⟩ := h
        simp only [Prod.mk.injEq] at he
        obtain ⟨rfl, rfl⟩ := he
        obtain ⟨a, b, c⟩ := ih r m hr
        refine ⟨?_, by simp only [List.length_cons]; omega, ?_⟩
        · rw [List.filterMap_cons]
          simp only [hw, Option.bind_some, hj, Option.map_some]
          rw [← a]
        · intro s' hs'
          rcases List.mem_cons.mp hs' with rfl | hs'
          · simp [hw]
          · exact c s' hs'

/-- C156: the update succeeds if every vehicle of the swarm is still among the entities. -/
theorem despawn_ok (z : Zone) (w : Int → Option Veh) (es : List Entry) (h : ∀ s ∈ es, (w s.id).isSome) : (despawn z w es).isSome := by
  induction es with
  | nil => simp [despawn]
  | cons s t ih =>
    have h1 := h s List.mem_cons_self
    have h2 := ih fun s' hs' => h s' (List.mem_cons_of_mem _ hs')
    obtain ⟨v, hv⟩ := Option.isSome_iff_exists.mp h1
    obtain ⟨r, hr⟩ := Option.isSome_iff_exists.mp h2
    simp only [despawn, hv, hr]
    cases judge z v s.out <;> simp

/-- C156 does not hold if a vehicle of the swarm is deleted by something else (DeleteEntityAction, SE_DeleteObject): the next update reads it through a null pointer. -/
theorem deleted_elsewhere_fails (z : Zone) (w : Int → Option Veh) (es : List Entry) (s : Entry) (hs : s ∈ es) (h : w s.id = none) :
    despawn z w es = none := by
  cases hd : despawn z w es with
  | none => rfl
  | some r =>
    have := (despawn_each z w es r.1 r.2 (by rw [hd])).2.2 s hs
    rw [h] at this
    exact absurd this (by simp)

/-- Concrete cases with half axes 200 m and 100 m outside and 100 m and 50 m in the middle: a vehicle 50 m ahead stays, one 150 m ahead is deleted at the sixth check,
one 250 m ahead at once. -/
noncomputable def zoneA : Zone := ⟨⟨0, 0⟩, 0, 200, 100, 100, 50⟩

example : ¬ Lost zoneA ⟨⟨50, 0⟩, false⟩ ∧ ¬ Outer zoneA ⟨⟨50, 0⟩, false⟩ := by
  constructor <;> norm_num [Lost, Outer, ellipse, zoneA]

example : ¬ Lost zoneA ⟨⟨150, 0⟩, false⟩ ∧ Outer zoneA ⟨⟨150, 0⟩, false⟩ := by
  constructor <;> norm_num [Lost, Outer, ellipse, zoneA]

example : life (List.replicate 6 (zoneA, ⟨⟨150, 0⟩, false⟩)) = none := by
  rw [deleted_iff]
  refine Or.inr ⟨0, fun j hj => ⟨(zoneA, ⟨⟨150, 0⟩, false⟩), by rw [Nat.zero_add, List.getElem?_replicate, if_pos hj], ?_⟩⟩
  norm_num [Outer, ellipse, zoneA]

example : Lost zoneA ⟨⟨250, 0⟩, false⟩ := by
  norm_num [Lost, ellipse, zoneA]

/-! ### Number of vehicles (C155) -/

theorem between_range (lo hi : Int) (d : Nat) (h : lo ≤ hi) : lo ≤ between lo hi d ∧ between lo hi d ≤ hi := by
  unfold between
  rw [if_neg (by omega)]
  have h1 : d % (hi - lo + 1).toNat < (hi - lo + 1).toNat := Nat.mod_lt _ (by omega)
  omega

theorem reservoir_length {α : Type} (n : Nat) (g : Nat → Nat) (i : Nat) (xs out : List α) : (reservoir n g i xs out).length = out.length := by
  induction xs generalizing i out with
  | nil => rfl
  | cons x t ih => simp only [reservoir]; rw [ih]; split <;> simp

theorem set_perm {α : Type} (l : List α) (i : Nat) (x : α) (h : i < l.length) : (l[i] :: l.set i x).Perm (x :: l) := by
  induction l generalizing i with
  | nil => simp at h
  | cons y t ih =>
    cases i with
    | zero => simp only [List.getElem_cons_zero, List.set_cons_zero]; exact List.Perm.swap _ _ _
    | succ i =>
      simp only [List.getElem_cons_succ, List.set_cons_succ]
      exact ((List.Perm.swap _ _ _).trans ((ih i (by simpa using h)).cons y)).trans (List.Perm.swap _ _ _)

theorem reservoir_perm {α : Type} (n : Nat) (g : Nat → Nat) (i : Nat) (xs out : List α) (h : out.length = n) :
    ∃ rest, (reservoir n g i xs out ++ rest).Perm (out ++ xs) := by
  induction xs generalizing i out with
  | nil => exact ⟨[], by simp [reservoir]⟩
  | cons x t ih =>
    simp only [reservoir]
    by_cases hj : g i % (n + 1) < n
    · rw [if_pos hj]
      obtain ⟨rest, hr⟩ := ih (i + 1) (out.set (g i % (n + 1)) x) (by simp [h])
      have hlt : g i % (n + 1) < out.length := by omega
      refine ⟨out[g i % (n + 1)] :: rest, ?_⟩
      refine (List.perm_middle).trans ?_
      refine (hr.cons _).trans ?_
      refine ((set_perm out _ x hlt).append_right t).trans ?_
      exact List.perm_middle.symm
    · rw [if_neg hj]
      obtain ⟨rest, hr⟩ := ih (i + 1) out h
      refine ⟨x :: rest, ?_⟩
      refine (List.perm_middle).trans ((hr.cons x).trans List.perm_middle.symm)

/-- The sample has the size asked for and takes every element at most once. -/
theorem sample_spec {α : Type} (n : Nat) (g : Nat → Nat) (xs : List α) (h : n ≤ xs.length) :
    (sample n g xs).length = n ∧ ∃ rest, (sample n g xs ++ rest).Perm xs := by
  have hl : (xs.take n).length = n := by simp [h]
  refine ⟨by unfold sample; rw [reservoir_length, hl], ?_⟩
  obtain ⟨rest, hr⟩ := reservoir_perm n g 0 (xs.drop n) (xs.take n) hl
  exact ⟨rest, by rw [List.take_append_drop] at hr; exact hr⟩

/-- Total number of lanes. -/
def total (l : List (Site × Nat)) : Nat := (l.map (·.2)).sum

theorem spread_total (g : Nat → Nat) (i left : Nat) (l : List Site) : total (spread g i left l) ≤ left + l.length := by
  induction l generalizing i left with
  | nil => simp [spread, total]
  | cons p t ih =>
    simp only [spread]
    split
    · have := ih i (left + 1); simp only [List.length_cons]; omega
    · rename_i hp
      set r := g i % (min left p.lanes.length + 1) with hr
      have hr' : r ≤ min left p.lanes.length := by
        have : g i % (min left p.lanes.length + 1) < min left p.lanes.length + 1 := Nat.mod_lt _ (by omega)
        omega
      set n := (if left > 0 then (if r = 0 then 0 else r - 1) else 0) with hn
      have hn' : n ≤ left := by rw [hn]; split <;> (try split) <;> omega
      have := ih (i + 1) (left - n)
      simp only [total, List.map_cons, List.sum_cons, List.length_cons] at this ⊢
      omega

theorem spread_mem (g : Nat → Nat) (i left : Nat) (l : List Site) : ∀ q ∈ spread g i left l, q.1 ∈ l ∧ 1 ≤ q.2 ∧ q.2 ≤ q.1.lanes.length := by
  induction l generalizing i left with
  | nil => simp [spread]
  | cons p t ih =>
    simp only [spread]
    split
    · intro q hq
      obtain ⟨a, b⟩ := ih _ _ q hq
      exact ⟨List.mem_cons_of_mem _ a, b⟩
    · rename_i hp
      intro q hq
      rcases List.mem_cons.mp hq with rfl | hq
      · refine ⟨List.mem_cons_self, by simp, ?_⟩
        have : g i % (min left p.lanes.length + 1) < min left p.lanes.length + 1 := Nat.mod_lt _ (by omega)
        show 1 + (if left > 0 then (if g i % (min left p.lanes.length + 1) = 0 then 0 else g i % (min left p.lanes.length + 1) - 1) else 0) ≤ p.lanes.length
        split
        · split <;> omega
        · omega
      · obtain ⟨a, b⟩ := ih _ _ q hq
        exact ⟨List.mem_cons_of_mem _ a, b⟩

theorem total_ones (l : List Site) : total (l.map fun p => (p, 1)) = l.length := by
  induction l with
  | nil => rfl
  | cons p t ih => simp only [total, List.map_cons, List.sum_cons, List.length_cons] at ih ⊢; omega

theorem sampleRoads_total (minN maxN : Int) (d : Nat) (g : Nat → Nat) (sols sh : List Site) (hp : sh.Perm sols) :
    total (sampleRoads minN maxN d g sols sh) ≤ if maxN < minN then 0 else (max minN (maxN - 1)).toNat := by
  unfold sampleRoads
  split
  · simp [total]
  · rename_i hm
    have hb : between minN (maxN - 1) d ≤ max minN (maxN - 1) := by
      by_cases h : minN ≤ maxN - 1
      · have := between_range minN (maxN - 1) d h; omega
      · unfold between; rw [if_pos (by omega)]; omega
    set n := (between minN (maxN - 1) d).toNat with hn
    simp only
    split
    · simp [total]
    · split
      · rename_i h1 h2
        rw [total_ones]
        have h3 := (sample_spec n g sh (by rw [hp.length_eq]; exact h2)).1
        have h4 := List.length_filter_le (fun p : Site => !p.junction && p.lanes.length != 0) (sample n g sh)
        omega
      · have := spread_total g 0 (n - sols.length) sols
        omega

theorem spawnLanes_length (e : Env) (dist : ℝ) (p : Site) (l : List Nat) (vs : List Placed) :
    (spawnLanes e dist p l vs).1.length = vs.length + (spawnLanes e dist p l vs).2.length ∧ (spawnLanes e dist p l vs).2.length ≤ l.length := by
  induction l generalizing vs with
  | nil => simp [spawnLanes]
  | cons i t ih =>
    simp only [spawnLanes]
    split
    · have := ih vs; simp only [List.length_cons]; omega
    · split
      · have := ih vs; simp only [List.length_cons]; omega
      · split
        · have := ih vs; simp only [List.length_cons]; omega
        · have := ih (vs ++ [⟨e.fresh vs, 0, e.place p.road ‹Int› p.s⟩])
          simp only [List.length_append, List.length_cons, List.length_nil] at this ⊢
          omega

theorem sample_length_le {α : Type} (n : Nat) (g : Nat → Nat) (xs : List α) : (sample n g xs).length ≤ n := by
  unfold sample; rw [reservoir_length]; simp

theorem spawnSites_length (e : Env) (dist : ℝ) (g : Nat → Nat → Nat) (k : Nat) (l : List (Site × Nat)) (vs : List Placed) :
    (spawnSites e dist g k l vs).1.length = vs.length + (spawnSites e dist g k l vs).2.length ∧
    (spawnSites e dist g k l vs).2.length ≤ total l := by
  induction l generalizing k vs with
  | nil => simp [spawnSites, total]
  | cons q t ih =>
    obtain ⟨p, n⟩ := q
    simp only [spawnSites]
    have h1 := spawnLanes_length e dist p (sample (min 32 n) (g k) (List.range (min 32 p.lanes.length))) vs
    have h2 := sample_length_le (min 32 n) (g k) (List.range (min 32 p.lanes.length))
    have h3 := ih (k + 1) (spawnLanes e dist p (sample (min 32 n) (g k) (List.range (min 32 p.lanes.length))) vs).1
    simp only [List.length_append, total, List.map_cons, List.sum_cons] at h3 ⊢
    omega

theorem located_length (w : Int → Option Veh) (es : List Entry) (vs : List Placed) (h : located w es = some vs) : vs.length = es.length := by
  induction es generalizing vs with
  | nil => simp only [located, Option.some.injEq] at h; subst h; rfl
  | cons s t ih =>
    simp only [located] at h
    split at h
    · rename_i v r h1 h2
      simp only [Option.some.injEq] at h
      subst h
      simp only [List.length_cons]
      rw [ih _ h2]
    · exact absurd h (by simp)

/-- The permutation of the places is one. -/
def World.Fair (w : World) : Prop := w.draws.shuffled.Perm w.sols

theorem update_below (number : Nat) (v a : ℝ) (w : World) (hw : w.Fair) (es es' : List Entry) (nw : List New)
    (hn : es.length < number) (h : update number v a w es = some (es', nw)) : es'.length < number := by
  unfold update at h
  split at h
  · exact absurd h (by simp)
  · rename_i rest n hd
    split at h
    · exact absurd h (by simp)
    · rename_i vs hl
      simp only [Option.some.injEq, Prod.mk.injEq] at h
      obtain ⟨h1, _⟩ := h
      subst h1
      have h2 := (despawn_each _ _ _ _ _ hd).2.1
      have h3 := located_length _ _ _ hl
      simp only [List.length_map]
      unfold spawn
      split
      · show vs.length < number
        omega
      · rename_i hm
        have h4 := spawnSites_length w.env (min (max 40 (v * 2)) (7 / 10 * a)) w.draws.lanes 0
          (sampleRoads n (maxCars number vs.length) w.draws.draw w.draws.g w.sols w.draws.shuffled) vs
        have h5 := sampleRoads_total n (maxCars number vs.length) w.draws.draw w.draws.g w.sols w.draws.shuffled hw
        have h6 : maxCars number vs.length = min 1000 (number - vs.length) := by unfold maxCars; rw [if_pos (by omega)]
        rw [h6] at h4 h5 hm ⊢
        generalize spawnSites w.env (min (max 40 (v * 2)) (7 / 10 * a)) w.draws.lanes 0
          (sampleRoads n (min 1000 (number - vs.length) : Nat) w.draws.draw w.draws.g w.sols w.draws.shuffled) vs = r at h4 ⊢
        split at h5 <;> omega

/-- C155: there are never as many vehicles in the swarm as the action asks for. In particular the number is never exceeded. -/
theorem population_below (number : Nat) (hn : 1 ≤ number) (v a : ℝ) (steps : List (ℝ × World)) (hw : ∀ x ∈ steps, x.2.Fair)
    (es : List Entry) (t : ℝ) (h : run number v a steps = some (es, t)) : es.length < number := by
  induction steps generalizing es t with
  | nil => simp only [run, Option.some.injEq, Prod.mk.injEq] at h; rw [← h.1]; exact hn
  | cons x before ih =>
    simp only [run] at h
    cases hr : run number v a before with
    | none => simp [hr] at h
    | some q =>
      have hq := ih (fun y hy => hw y (List.mem_cons_of_mem _ hy)) q.1 q.2 hr
      simp only [hr, Option.bind_some, step] at h
      split at h
      · simp only [Option.map_eq_some_iff] at h
        obtain ⟨r, hu, he⟩ := h
        simp only [Prod.mk.injEq] at he
        rw [← he.1]
        exact update_below number v a x.2 (hw x List.mem_cons_self) q.1 r.1 r.2 hq (by rw [hu])
      · simp only [Option.some.injEq] at h
        rw [h] at hq
        exact hq

/-- C155: with zero vehicles asked for, none appear. -/
theorem population_zero (v a : ℝ) (steps : List (ℝ × World)) (es : List Entry) (t : ℝ) (h : run 0 v a steps = some (es, t)) : es = [] := by
  induction steps generalizing es t with
  | nil => simp only [run, Option.some.injEq, Prod.mk.injEq] at h; exact h.1.symm
  | cons x before ih =>
    simp only [run] at h
    cases hr : run 0 v a before with
    | none => simp [hr] at h
    | some q =>
      have hq := ih q.1 q.2 hr
      simp only [hr, Option.bind_some, step] at h
      split at h
      · rw [hq] at h
        simp only [update, despawn, located, spawn, maxCars, Option.map_some, Option.some.injEq, Prod.mk.injEq] at h
        rw [← h.1]; simp
      · simp only [Option.some.injEq] at h
        rw [h] at hq
        exact hq

/-- C155: the number of vehicles never exceeds the number the action asks for. -/
theorem population_le (number : Nat) (v a : ℝ) (steps : List (ℝ × World)) (hw : ∀ x ∈ steps, x.2.Fair)
    (es : List Entry) (t : ℝ) (h : run number v a steps = some (es, t)) : es.length ≤ number := by
  rcases Nat.eq_zero_or_pos number with rfl | hn
  · rw [population_zero v a steps es t h]; simp
  · exact Nat.le_of_lt (population_below number hn v a steps hw es t h)

/-- C155 does not hold as "the swarm can have the number of vehicles asked for": whatever happens, an action asking for a single vehicle never adds one. -/
theorem single_fails (v a : ℝ) (steps : List (ℝ × World)) (hw : ∀ x ∈ steps, x.2.Fair) (es : List Entry) (t : ℝ)
    (h : run 1 v a steps = some (es, t)) : es = [] := by
  have := population_below 1 (by omega) v a steps hw es t h
  exact List.length_eq_zero_iff.mp (by omega)

end Verif.Swarm
