import Verif.AABB.Lemmas

namespace Verif.AABB

/-! ## Specification -/

/-- A point of the box. -/
def Box.Has (b : Box) (p : Point) : Prop := b.lo.x ≤ p.x ∧ p.x ≤ b.hi.x ∧ b.lo.y ≤ p.y ∧ p.y ≤ b.hi.y

/-- The corners are in order. -/
def Box.Valid (b : Box) : Prop := b.lo.x ≤ b.hi.x ∧ b.lo.y ≤ b.hi.y

/-- A point of the triangle: it is a weighted mean of the corners. -/
def Tri.Has (t : Tri) (p : Point) : Prop :=
  ∃ u v w : Rat, 0 ≤ u ∧ 0 ≤ v ∧ 0 ≤ w ∧ u + v + w = 1 ∧
    p.x = u * t.a.x + v * t.b.x + w * t.c.x ∧ p.y = u * t.a.y + v * t.b.y + w * t.c.y

/-- All pairs of boxes that collide. -/
def pairs (l l' : List Box) : List (Box × Box) := l.flatMap fun a => (l'.filter fun b => b.collide a).map fun b => (a, b)

/-! ## Boxes -/

theorem min2_le (a b : Rat) : min2 a b ≤ a ∧ min2 a b ≤ b := by unfold min2; grind
theorem le_max2 (a b : Rat) : a ≤ max2 a b ∧ b ≤ max2 a b := by unfold max2; grind

/-- Two boxes collide exactly if they have a common point. -/
theorem collide_iff {a b : Box} (ha : a.Valid) (hb : b.Valid) : a.collide b = true ↔ ∃ p, a.Has p ∧ b.Has p := by
  obtain ⟨ha1, ha2⟩ := ha
  obtain ⟨hb1, hb2⟩ := hb
  simp only [Box.collide, Box.Has]
  constructor
  · intro h
    simp at h
    refine ⟨⟨max2 a.lo.x b.lo.x, max2 a.lo.y b.lo.y⟩, ?_⟩
    simp only [max2]
    grind
  · rintro ⟨p, h1, h2⟩
    simp
    grind

theorem collide_symm (a b : Box) : a.collide b = b.collide a := by
  simp only [Box.collide]
  grind

theorem boxOf_valid (t : Tri) : (boxOf t).Valid := by
  simp only [Box.Valid, boxOf, min2, max2]
  grind

theorem mean_between {u v w a b c lo hi : Rat} (hu : 0 ≤ u) (hv : 0 ≤ v) (hw : 0 ≤ w) (h1 : u + v + w = 1)
    (ha : lo ≤ a ∧ a ≤ hi) (hb : lo ≤ b ∧ b ≤ hi) (hc : lo ≤ c ∧ c ≤ hi) :
    lo ≤ u * a + v * b + w * c ∧ u * a + v * b + w * c ≤ hi := by
  have e1 : 0 ≤ u * (a - lo) := Rat.mul_nonneg hu (by grind)
  have e2 : 0 ≤ v * (b - lo) := Rat.mul_nonneg hv (by grind)
  have e3 : 0 ≤ w * (c - lo) := Rat.mul_nonneg hw (by grind)
  have f1 : 0 ≤ u * (hi - a) := Rat.mul_nonneg hu (by grind)
  have f2 : 0 ≤ v * (hi - b) := Rat.mul_nonneg hv (by grind)
  have f3 : 0 ≤ w * (hi - c) := Rat.mul_nonneg hw (by grind)
  have g1 : u * lo + v * lo + w * lo = lo := by
    have : (u + v + w) * lo = lo := by rw [h1]; grind
    grind
  have g2 : u * hi + v * hi + w * hi = hi := by
    have : (u + v + w) * hi = hi := by rw [h1]; grind
    grind
  constructor <;> grind

/-- The box of a triangle contains the triangle. -/
theorem boxOf_has {t : Tri} {p : Point} (h : t.Has p) : (boxOf t).Has p := by
  obtain ⟨u, v, w, hu, hv, hw, h1, hx, hy⟩ := h
  have bx : ∀ a b c : Rat, min2 a (min2 b c) ≤ a ∧ min2 a (min2 b c) ≤ b ∧ min2 a (min2 b c) ≤ c ∧
      a ≤ max2 a (max2 b c) ∧ b ≤ max2 a (max2 b c) ∧ c ≤ max2 a (max2 b c) := by
    intro a b c
    have := min2_le a (min2 b c); have := min2_le b c; have := le_max2 a (max2 b c); have := le_max2 b c
    grind
  simp only [Box.Has, boxOf]
  have e1 := bx t.a.x t.b.x t.c.x
  have e2 := bx t.a.y t.b.y t.c.y
  have r1 := mean_between hu hv hw h1 ⟨e1.1, e1.2.2.2.1⟩ ⟨e1.2.1, e1.2.2.2.2.1⟩ ⟨e1.2.2.1, e1.2.2.2.2.2⟩
  have r2 := mean_between hu hv hw h1 ⟨e2.1, e2.2.2.2.1⟩ ⟨e2.2.1, e2.2.2.2.2.1⟩ ⟨e2.2.2.1, e2.2.2.2.2.2⟩
  rw [hx, hy]
  exact ⟨r1.1, r1.2, r2.1, r2.2⟩

/-- And no smaller box does. -/
theorem boxOf_tight (t : Tri) : (∃ p, t.Has p ∧ p.x = (boxOf t).lo.x) ∧ (∃ p, t.Has p ∧ p.x = (boxOf t).hi.x) ∧
    (∃ p, t.Has p ∧ p.y = (boxOf t).lo.y) ∧ (∃ p, t.Has p ∧ p.y = (boxOf t).hi.y) := by
  have ha : t.Has t.a := ⟨1, 0, 0, by decide +kernel, by decide +kernel, by decide +kernel, by decide +kernel, by grind, by grind⟩
  have hb : t.Has t.b := ⟨0, 1, 0, by decide +kernel, by decide +kernel, by decide +kernel, by decide +kernel, by grind, by grind⟩
  have hc : t.Has t.c := ⟨0, 0, 1, by decide +kernel, by decide +kernel, by decide +kernel, by decide +kernel, by grind, by grind⟩
  refine ⟨?_, ?_, ?_, ?_⟩ <;> simp only [boxOf, min2, max2] <;> split <;> split
  all_goals first | exact ⟨_, ha, rfl⟩ | exact ⟨_, hb, rfl⟩ | exact ⟨_, hc, rfl⟩

/-! ## Building -/

/-- C23: building a tree from any boxes ends and reads nothing outside the vector; the tree has exactly the given boxes as leaves, and
each inner node the smallest box around its leaves. -/
theorem build_exact (old : Cell) (v : Array Box) (h : v.size ≠ 0) :
    ∃ fuel0, ∀ fuel, fuel0 ≤ fuel → ∃ heap T, build fuel old v = some (heap, 2 * v.size - 1, v.size) ∧
      Reads heap (fun _ => True) 0 T ∧ T.leaves.Perm v.toList ∧ T.Hulls := by
  obtain ⟨s', T, hrun, d⟩ := build_part v.size ⟨v, [{ old with kids := [] }], [], 0, v.size, 0, 1, 0⟩ rfl (by simp only; omega) (Nat.le_refl _)
    ⟨old.bbox, by rfl⟩
  refine ⟨2 * v.size - 1, fun fuel hf => ⟨s'.heap, T, ?_, d.reads.frame (fun j _ _ => ⟨trivial, rfl⟩), ?_, d.hulls⟩⟩
  · have e : fuel = (fuel - (2 * v.size - 1)) + (2 * v.size - 1) := by omega
    have hst : s'.stack = [] := d.stack
    have hn : s'.nodes = 1 + 2 * (v.size - 1) := d.nodes
    have hl : s'.leaves = 0 + v.size := d.count
    unfold build
    simp only [h, if_false]
    rw [e, hrun, pop, hst]
    simp only [Option.map_some, hn, hl]
    congr 2
    congr 1 <;> omega
  · have := d.leaves
    have e : segment v 0 v.size = v.toList := by unfold segment; rw [List.take_of_length_le (by simp), List.drop_zero]
    exact e ▸ this

/-- The new trees have only their own nodes; nothing of an earlier build remains below the root. -/
theorem build_empty (fuel : Nat) (b : Option Box) (k : List Nat) : build fuel ⟨b, k⟩ #[] = some ([⟨b, []⟩], 0, 0) := rfl

/-- A fresh tree built from nothing is empty. -/
theorem build_fresh_empty (fuel : Nat) : ∃ heap, build fuel ⟨none, []⟩ #[] = some (heap, 0, 0) ∧ Reads heap (fun _ => True) 0 .nil :=
  ⟨_, rfl, .nil trivial rfl⟩

/-- Building again from nothing leaves the old box: the tree then counts as a leaf with that box. -/
theorem rebuild_empty_fails (fuel : Nat) (b : Box) (k : List Nat) :
    ∃ heap, build fuel ⟨some b, k⟩ #[] = some (heap, 0, 0) ∧ Reads heap (fun _ => True) 0 (.leaf b) :=
  ⟨_, rfl, .leaf trivial rfl⟩

/-! ## Intersecting -/

theorem pairs_nil (l : List Box) : pairs l [] = [] := by simp [pairs]

theorem pairs_append_left (l l' m : List Box) : pairs (l ++ l') m = pairs l m ++ pairs l' m := by simp [pairs]

theorem pairs_append_right (l m m' : List Box) : (pairs l (m ++ m')).Perm (pairs l m ++ pairs l m') := by
  induction l with
  | nil => simp [pairs]
  | cons a l ih =>
    simp only [pairs, List.flatMap_cons, List.filter_append, List.map_append] at *
    refine ((ih.append_left _).trans ?_)
    rw [List.append_assoc, List.append_assoc]
    refine List.Perm.append_left _ ?_
    rw [← List.append_assoc, ← List.append_assoc]
    exact List.Perm.append_right _ List.perm_append_comm

theorem pairs_eq_nil {l m : List Box} (h : ∀ a, a ∈ l → ∀ b, b ∈ m → b.collide a = false) : pairs l m = [] := by
  unfold pairs
  rw [List.flatMap_eq_nil_iff]
  intro a ha
  rw [List.map_eq_nil_iff, List.filter_eq_nil_iff]
  intro b hb
  simp [h a ha b hb]

/-- The leaves are inside the box of the tree. -/
theorem tree_inside {t : Tree} {m : Box} (h : t.Hulls) (hm : t.box = some m) :
    ∀ b, b ∈ t.leaves → m.lo.x ≤ b.lo.x ∧ m.lo.y ≤ b.lo.y ∧ b.hi.x ≤ m.hi.x ∧ b.hi.y ≤ m.hi.y := by
  cases t with
  | nil => cases hm
  | leaf b => cases hm; intro c hc; simp only [Tree.leaves, List.mem_singleton] at hc; subst hc; grind
  | node b l r => cases hm; intro c hc; exact h.1.inside c hc

theorem far_apart {t u : Tree} {a b : Box} (ht : t.Hulls) (hu : u.Hulls) (ha : t.box = some a) (hb : u.box = some b)
    (h : b.collide a = false) : pairs t.leaves u.leaves = [] := by
  apply pairs_eq_nil
  intro x hx y hy
  have h1 := tree_inside ht ha x hx
  have h2 := tree_inside hu hb y hy
  simp only [Box.collide] at *
  grind

theorem intersect_perm (t u : Tree) (ht : t.Hulls) (hu : u.Hulls) : (intersect t u).Perm (pairs t.leaves u.leaves) := by
  fun_induction intersect t u with
  | case1 u => simp [Tree.leaves, pairs]
  | case2 t => rw [Tree.leaves, pairs_nil]
  | case3 a b h => simp [Tree.leaves, pairs, h]
  | case4 a b h => simp [Tree.leaves, pairs, h]
  | case5 a l r b h ih1 ih2 =>
    simp only [Tree.leaves, pairs_append_left]
    exact (ih1 ht.2.2.1 hu).append (ih2 ht.2.2.2 hu)
  | case6 a l r b h =>
    rw [far_apart ht hu rfl rfl (by simpa using h)]
  | case7 a b l r h ih1 ih2 =>
    simp only [Tree.leaves]
    exact ((ih1 ht hu.2.2.1).append (ih2 ht hu.2.2.2)).trans (pairs_append_right _ _ _).symm
  | case8 a b l r h =>
    rw [far_apart ht hu rfl rfl (by simpa using h)]
  | case9 a l r b l' r' h ih1 ih2 ih3 ih4 =>
    simp only [Tree.leaves, pairs_append_left]
    exact (((ih1 ht.2.2.1 hu.2.2.1).append (ih2 ht.2.2.1 hu.2.2.2)).trans (pairs_append_right _ _ _).symm).append
      (((ih3 ht.2.2.2 hu.2.2.1).append (ih4 ht.2.2.2 hu.2.2.2)).trans (pairs_append_right _ _ _).symm)
  | case10 a l r b l' r' h =>
    rw [far_apart ht hu rfl rfl (by simpa using h)]

theorem flatMap_pointwise {α β : Type} {f g : α → List β} (l : List α) (h : ∀ a, (f a).Perm (g a)) : (l.flatMap f).Perm (l.flatMap g) := by
  induction l with
  | nil => exact List.Perm.refl _
  | cons a l ih => simp only [List.flatMap_cons]; exact (h a).append ih

/-- C23: the candidates of two trees are exactly the pairs of given boxes that collide, each pair as often as it occurs. -/
theorem candidates_exact (old old' : Cell) (v w : Array Box) (hv : v.size ≠ 0) (hw : w.size ≠ 0) :
    ∃ fuel0, ∀ fuel, fuel0 ≤ fuel → ∃ h h' T U, build fuel old v = some (h, 2 * v.size - 1, v.size) ∧
      build fuel old' w = some (h', 2 * w.size - 1, w.size) ∧ Reads h (fun _ => True) 0 T ∧ Reads h' (fun _ => True) 0 U ∧
      (intersect T U).Perm (pairs v.toList w.toList) := by
  obtain ⟨f1, h1⟩ := build_exact old v hv
  obtain ⟨f2, h2⟩ := build_exact old' w hw
  refine ⟨f1 + f2, fun fuel hf => ?_⟩
  obtain ⟨h, T, a1, a2, a3, a4⟩ := h1 fuel (by omega)
  obtain ⟨h', U, b1, b2, b3, b4⟩ := h2 fuel (by omega)
  refine ⟨h, h', T, U, a1, b1, a2, b2, (intersect_perm T U a4 b4).trans ?_⟩
  unfold pairs
  refine (List.Perm.flatMap_right _ a3).trans ?_
  exact flatMap_pointwise _ fun a => (b3.filter _).map _

theorem mem_pairs {l m : List Box} {a b : Box} : (a, b) ∈ pairs l m ↔ a ∈ l ∧ b ∈ m ∧ b.collide a = true := by
  simp only [pairs, List.mem_flatMap, List.mem_map, List.mem_filter, Prod.mk.injEq]
  constructor
  · rintro ⟨x, hx, y, ⟨hy, hc⟩, rfl, rfl⟩; exact ⟨hx, hy, hc⟩
  · rintro ⟨ha, hb, hc⟩; exact ⟨a, ha, b, ⟨hb, hc⟩, rfl, rfl⟩

/-- C23: two triangles with a common point are always among the candidates. -/
theorem touching_triangles_found {t u : Tri} {p : Point} {T U : Tree} (hT : T.Hulls) (hU : U.Hulls) (ht : boxOf t ∈ T.leaves)
    (hu : boxOf u ∈ U.leaves) (h1 : t.Has p) (h2 : u.Has p) : (boxOf t, boxOf u) ∈ intersect T U := by
  rw [(intersect_perm T U hT hU).mem_iff, mem_pairs]
  exact ⟨ht, hu, (collide_iff (boxOf_valid u) (boxOf_valid t)).2 ⟨p, boxOf_has h2, boxOf_has h1⟩⟩

/-- The order of the two trees does not matter. -/
theorem intersect_symm {T U : Tree} (hT : T.Hulls) (hU : U.Hulls) (a b : Box) : (a, b) ∈ intersect T U ↔ (b, a) ∈ intersect U T := by
  rw [(intersect_perm T U hT hU).mem_iff, (intersect_perm U T hU hT).mem_iff, mem_pairs, mem_pairs, collide_symm]
  grind

/-! ## Triangles -/

/-- The triangles reported are members of candidate pairs whose triangles collide by the test, and all of them are reported. -/
theorem processCandidates_mem {l : List (Box × Box)} {x : Tri} : x ∈ processCandidates l ↔
    ∃ a b t u, (a, b) ∈ l ∧ a.tri = some t ∧ b.tri = some u ∧ t.collide u = true ∧ ((u.geometry ≠ none ∧ x = u) ∨ (u.geometry = none ∧ x = t)) := by
  simp only [processCandidates, List.mem_filterMap]
  constructor
  · rintro ⟨⟨a, b⟩, hm, h⟩
    dsimp only at h
    split at h
    · rename_i t u ht hu
      split at h
      · rename_i hc
        cases h
        refine ⟨a, b, t, u, hm, ht, hu, hc, ?_⟩
        cases hg : u.geometry <;> simp
      · cases h
    · cases h
  · rintro ⟨a, b, t, u, hm, ht, hu, hc, hx⟩
    refine ⟨(a, b), hm, ?_⟩
    simp only [ht, hu, hc, if_true]
    rcases hx with ⟨hg, rfl⟩ | ⟨hg, rfl⟩
    · cases h : x.geometry with
      | none => exact absurd h hg
      | some g => simp
    · simp [hg]

/-- Two triangles without common point. -/
def Apart (t u : Tri) : Prop := ∀ p, t.Has p → ¬u.Has p

/-- The test misses common points: these triangles share the point (3/2, 3/2), yet the test says no. -/
theorem overlap_missed_fails : ∃ t u p, Tri.Has t p ∧ Tri.Has u p ∧ t.collide u = false :=
  ⟨⟨⟨2, 0⟩, ⟨3, 0⟩, ⟨1, 2⟩, none⟩, ⟨⟨0, 2⟩, ⟨3, 1⟩, ⟨2, 2⟩, none⟩, ⟨3/2, 3/2⟩,
    ⟨0, 1/4, 3/4, by decide +kernel, by decide +kernel, by decide +kernel, by decide +kernel, by decide +kernel, by decide +kernel⟩,
    ⟨1/2, 1/2, 0, by decide +kernel, by decide +kernel, by decide +kernel, by decide +kernel, by decide +kernel, by decide +kernel⟩, by decide +kernel⟩

/-- It also reports triangles that are apart. -/
theorem overlap_invented_fails : ∃ t u, Apart t u ∧ t.collide u = true := by
  refine ⟨⟨⟨2, 1⟩, ⟨3, 0⟩, ⟨1, 0⟩, none⟩, ⟨⟨1, 1⟩, ⟨1, 2⟩, ⟨0, 3⟩, none⟩, ?_, by decide +kernel⟩
  rintro p ⟨u, v, w, hu, hv, hw, h1, hx, hy⟩ ⟨u', v', w', hu', hv', hw', h1', hx', hy'⟩
  dsimp only at *
  grind

/-- And the answer depends on the order of the two triangles. -/
theorem overlap_asymmetric_fails : ∃ t u : Tri, t.collide u ≠ u.collide t :=
  ⟨⟨⟨2, 0⟩, ⟨3, 0⟩, ⟨1, 2⟩, none⟩, ⟨⟨0, 2⟩, ⟨3, 1⟩, ⟨2, 2⟩, none⟩, by decide +kernel⟩

/-! ## Pieces of a line -/

/-- The point at distance `x` is on some piece. -/
def Covered (l : List (Rat × Rat)) (x : Rat) : Prop := ∃ p, p ∈ l ∧ p.1 ≤ x ∧ x ≤ p.2

/-- The pieces cover the line from the first distance on. -/
theorem lineSegments_cover {fuel : Nat} {dist minSize length x : Rat} (hm : 0 < minSize) (hf : (length - dist) / minSize < fuel)
    (h1 : dist ≤ x) (h2 : x ≤ length) (h3 : dist < length) : Covered (lineSegments fuel dist minSize length) x := by
  induction fuel generalizing dist with
  | zero =>
    rw [Rat.div_lt_iff hm] at hf
    exfalso
    have : ((0 : Nat) : Rat) * minSize = 0 := by simp
    grind
  | succ fuel ih =>
    unfold lineSegments
    simp only [h3, if_true]
    by_cases hx : x ≤ (if dist + minSize > length then length else dist + minSize)
    · exact ⟨_, List.mem_cons_self .., h1, hx⟩
    · have hle : ¬(dist + minSize > length) := by grind
      simp only [hle, if_false] at hx ⊢
      obtain ⟨p, hp, hp'⟩ := ih (dist := dist + minSize) (by
        rw [Rat.div_lt_iff hm] at hf ⊢
        have : ((fuel + 1 : Nat) : Rat) * minSize = (fuel : Rat) * minSize + minSize := by
          simp; grind
        grind) (by grind) (by grind)
      exact ⟨p, List.mem_cons_of_mem _ hp, hp'⟩

/-- The first distance is the start of the geometry along the road, not zero: a line of 50 m that starts 100 m along its road gets no
piece at all. -/
theorem line_uncovered_fails : ∃ s minSize length x : Rat, 0 < minSize ∧ 0 ≤ x ∧ x ≤ length ∧
    ∀ fuel, ¬Covered (lineSegments fuel s minSize length) x := by
  refine ⟨100, 1, 50, 10, by decide +kernel, by decide +kernel, by decide +kernel, ?_⟩
  intro fuel
  cases fuel with
  | zero => simp [lineSegments, Covered]
  | succ fuel =>
    have : ¬((100 : Rat) < 50) := by decide +kernel
    simp [lineSegments, this, Covered]

/-! ## A concrete case -/

def sq (x y : Rat) : Box := boxOf ⟨⟨x, y⟩, ⟨x + 1, y⟩, ⟨x, y + 1⟩, none⟩

example : (build 20 ⟨none, []⟩ #[sq 0 0, sq 3 0, sq 1 0, sq 5 5]).map (fun r => (r.1.length, r.2)) = some (7, 7, 4) := by decide +kernel

example : (pairs [sq 0 0, sq 3 0, sq 1 0] [sq (1/2) 0, sq 9 9]).length = 2 := by decide +kernel

end Verif.AABB
