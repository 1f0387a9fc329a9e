import Verif.Road.ProfileLemmas
/-
Theorems on the profiles of a road (C36: the entry in force; C68: lane height).
-/
namespace Verif.Road

/-! ## Specification -/

/-- `w` is in force at `s` among the entries `xs`: it starts at or before `s` and no entry that starts
at or before `s` starts later. -/
def InForce {α : Type} (key : α → Rat) (xs : List α) (s : Rat) (w : α) : Prop :=
  w ∈ xs ∧ key w ≤ s ∧ ∀ v ∈ xs, key v ≤ s → key v ≤ key w

/-- `w` starts first. -/
def Earliest {α : Type} (key : α → Rat) (xs : List α) (w : α) : Prop :=
  w ∈ xs ∧ ∀ v ∈ xs, key w ≤ key v

/-! ## Widths, materials, heights: any order of insertion -/

/-- The list of a lane is sorted after adding entries in any order, holds exactly the entries added,
and entries with the same start keep their order. -/
theorem addAll_sorted {α : Type} (key : α → Rat) (xs : List α) :
    (addAll key xs).Pairwise (fun a b => key a ≤ key b) ∧ (addAll key xs).Perm xs ∧
      ∀ k, (addAll key xs).filter (fun a => decide (key a = k)) =
        xs.filter (fun a => decide (key a = k)) := by
  simpa [addAll] using foldl_addEntry key xs [] List.Pairwise.nil

example : addAll LaneWidth.off [⟨5, ⟨1,0,0,0,1⟩⟩, ⟨0, ⟨2,0,0,0,1⟩⟩, ⟨3, ⟨3,0,0,0,1⟩⟩, ⟨3, ⟨4,0,0,0,1⟩⟩]
    = [⟨0, ⟨2,0,0,0,1⟩⟩, ⟨3, ⟨3,0,0,0,1⟩⟩, ⟨3, ⟨4,0,0,0,1⟩⟩, ⟨5, ⟨1,0,0,0,1⟩⟩] := by decide +kernel

/-- After adding entries in any order, the entry found at `s` is the one in force, and of several
entries with the same start it is the one added last. -/
theorem entry_in_force {α : Type} (key : α → Rat) (xs : List α) (s : Rat) (h : ∃ v ∈ xs, key v ≤ s) :
    ∃ w, entryByS key (addAll key xs) s = some w ∧ InForce key xs s w ∧
      (xs.filter (fun a => decide (key a = key w))).getLast? = some w := by
  obtain ⟨h1, h2, h3⟩ := addAll_sorted key xs
  obtain ⟨v, hv, hvs⟩ := h
  have hne : addAll key xs ≠ [] := by
    intro he; rw [he] at h2; have := h2.symm.eq_nil; subst this; simp at hv
  obtain ⟨w, g1, g2, g3, _⟩ := entryByS_sorted key (addAll key xs) s h1 hne
  obtain ⟨g4, g5, g6⟩ := g3 ⟨v, h2.mem_iff.mpr hv, hvs⟩
  refine ⟨w, g1, ⟨h2.mem_iff.mp g2, g4, fun u hu hus => g5 u (h2.mem_iff.mpr hu) hus⟩, ?_⟩
  rw [← h3]; exact g6

example : ∃ v ∈ ([⟨5, ⟨1,0,0,0,1⟩⟩, ⟨0, ⟨2,0,0,0,1⟩⟩] : List LaneWidth), v.off ≤ 3 :=
  ⟨⟨0, ⟨2,0,0,0,1⟩⟩, by decide +kernel, by decide +kernel⟩

/-- Before all entries the first one is used. -/
theorem entry_before_all {α : Type} (key : α → Rat) (xs : List α) (s : Rat) (hne : xs ≠ [])
    (h : ∀ v ∈ xs, s < key v) :
    ∃ w, entryByS key (addAll key xs) s = some w ∧ Earliest key xs w := by
  obtain ⟨h1, h2, _⟩ := addAll_sorted key xs
  have hne' : addAll key xs ≠ [] := by
    intro he; rw [he] at h2; exact hne h2.symm.eq_nil
  obtain ⟨w, g1, g2, _, g4⟩ := entryByS_sorted key (addAll key xs) s h1 hne'
  exact ⟨w, g1, h2.mem_iff.mp g2, fun v hv =>
    g4 (fun u hu => h u (h2.mem_iff.mp hu)) v (h2.mem_iff.mpr hv)⟩

example : entryByS LaneWidth.off (addAll LaneWidth.off [⟨5, ⟨1,0,0,0,1⟩⟩, ⟨2, ⟨2,0,0,0,1⟩⟩]) 1 =
    some ⟨2, ⟨2,0,0,0,1⟩⟩ := by decide +kernel

/-- Without entries nothing is found. -/
theorem entry_none_iff {α : Type} (key : α → Rat) (xs : List α) (s : Rat) :
    entryByS key (addAll key xs) s = none ↔ xs = [] := by
  constructor
  · intro h
    rcases Classical.em (xs = []) with h' | h'
    · exact h'
    · rcases Classical.em (∃ v ∈ xs, key v ≤ s) with h2 | h2
      · obtain ⟨w, hw, _⟩ := entry_in_force key xs s h2
        rw [hw] at h; cases h
      · obtain ⟨w, hw, _⟩ := entry_before_all key xs s h' (fun v hv => by
          rcases Classical.em (s < key v) with h3 | h3
          · exact h3
          · exact absurd ⟨v, hv, by grind⟩ h2)
        rw [hw] at h; cases h
  · rintro rfl; rfl

/-- For entries with different starts the order of insertion does not matter. -/
theorem entry_order_irrelevant {α : Type} (key : α → Rat) (xs ys : List α) (s : Rat)
    (hp : xs.Perm ys) (hd : ∀ a ∈ xs, ∀ b ∈ xs, key a = key b → a = b) :
    entryByS key (addAll key xs) s = entryByS key (addAll key ys) s := by
  rcases Classical.em (xs = []) with rfl | hne
  · have : ys = [] := hp.symm.eq_nil
    subst this; rfl
  · rcases Classical.em (∃ v ∈ xs, key v ≤ s) with h2 | h2
    · obtain ⟨v, hv, hvs⟩ := h2
      obtain ⟨w, hw, ⟨a1, a2, a3⟩, _⟩ := entry_in_force key xs s ⟨v, hv, hvs⟩
      obtain ⟨u, hu, ⟨b1, b2, b3⟩, _⟩ := entry_in_force key ys s ⟨v, hp.mem_iff.mp hv, hvs⟩
      have h1 := a3 u (hp.mem_iff.mpr b1) b2
      have h2 := b3 w (hp.mem_iff.mp a1) a2
      rw [hw, hu, hd w a1 u (hp.mem_iff.mpr b1) (by grind)]
    · have hall : ∀ v ∈ xs, s < key v := fun v hv => by
        rcases Classical.em (s < key v) with h3 | h3
        · exact h3
        · exact absurd ⟨v, hv, by grind⟩ h2
      obtain ⟨w, hw, a1, a2⟩ := entry_before_all key xs s hne hall
      have hne' : ys ≠ [] := fun he => hne (by subst he; exact hp.eq_nil)
      obtain ⟨u, hu, b1, b2⟩ := entry_before_all key ys s hne' (fun v hv => hall v (hp.mem_iff.mpr hv))
      have h1 := a2 u (hp.mem_iff.mpr b1)
      have h2 := b2 w (hp.mem_iff.mp a1)
      rw [hw, hu, hd w a1 u (hp.mem_iff.mpr b1) (by grind)]

example : (∀ a ∈ ([⟨5, 1⟩, ⟨2, 2⟩] : List Material), ∀ b ∈ ([⟨5, 1⟩, ⟨2, 2⟩] : List Material),
    a.off = b.off → a = b) ∧ ([⟨5, 1⟩, ⟨2, 2⟩] : List Material).Perm [⟨2, 2⟩, ⟨5, 1⟩] := by decide +kernel

/-- The width of a lane at `s` is the polynomial of the entry in force, evaluated from its start. -/
theorem width_in_force (xs : List LaneWidth) (s : Rat) (h : ∃ v ∈ xs, v.off ≤ s) :
    ∃ w, InForce LaneWidth.off xs s w ∧
      widthAt (addAll LaneWidth.off xs) s = some (w.poly.eval (s - w.off)) := by
  obtain ⟨w, h1, h2, _⟩ := entry_in_force LaneWidth.off xs s h
  exact ⟨w, h2, by simp [widthAt, h1]⟩

example : widthAt (addAll LaneWidth.off [⟨10, ⟨3, 0, 0, 0, 1⟩⟩, ⟨0, ⟨2, 1/10, 0, 0, 1⟩⟩]) 4 = some (24/10) := by
  decide +kernel

/-! ## Lane offsets -/

theorem offsetLoop_sorted (l : List LaneOffset) (s : Rat)
    (hs : l.Pairwise (fun a b => a.s ≤ b.s)) (hne : l ≠ []) :
    ∃ x, offsetLoop s l = some x ∧ x ∈ l ∧
      ((∃ v ∈ l, v.s ≤ s) → x.s ≤ s ∧ (∀ v ∈ l, v.s ≤ s → v.s ≤ x.s)) ∧
      ((∀ v ∈ l, s < v.s) → ∀ v ∈ l, x.s ≤ v.s) := by
  have : ∀ l : List LaneOffset, offsetLoop s l = entryByS LaneOffset.s l s := by
    intro l
    induction l with
    | nil => rfl
    | cons a r ih => cases r with
      | nil => simp [offsetLoop, entryByS]
      | cons b r => rw [entryByS_cons_cons, offsetLoop, ih]
  rw [this]
  obtain ⟨w, h1, h2, h3, h4⟩ := entryByS_sorted LaneOffset.s l s hs hne
  exact ⟨w, h1, h2, fun h => ⟨(h3 h).1, (h3 h).2.1⟩, h4⟩

theorem foldl_addLaneOffset (xs l : List LaneOffset) (hne : l ≠ []) :
    xs.foldl addLaneOffset l = l ++ xs := by
  induction xs generalizing l with
  | nil => simp
  | cons x xs ih =>
    have : addLaneOffset l x = l ++ [x] := by cases l <;> simp_all [addLaneOffset]
    rw [List.foldl_cons, this, ih (l ++ [x]) (by simp)]; simp

/-- Lane offsets given at increasing `s`: from the first entry on, the lane offset is the polynomial of
the entry in force, evaluated from its start. -/
theorem laneOffset_in_force (xs : List LaneOffset) (s : Rat)
    (hinc : xs.Pairwise (fun a b => a.s ≤ b.s)) (h : ∃ v ∈ xs, v.s ≤ s) :
    ∃ w, InForce LaneOffset.s xs s w ∧
      laneOffset (xs.foldl addLaneOffset []) s = w.poly.eval (s - w.s) := by
  cases xs with
  | nil => obtain ⟨v, hv, _⟩ := h; simp at hv
  | cons x xs =>
    rw [List.foldl_cons]
    by_cases hx : x.s > small
    · have h0 : addLaneOffset [] x = [⟨0, { a := x.poly.a, b := x.poly.b, c := x.poly.c, d := x.poly.d }⟩, x] := by
        simp [addLaneOffset, hx]
      rw [h0, foldl_addLaneOffset _ _ (by simp)]
      have hxs : ∀ v ∈ x :: xs, x.s ≤ v.s := by
        intro v hv
        rcases List.mem_cons.mp hv with rfl | hv
        · exact Rat.le_refl
        · exact (List.pairwise_cons.mp hinc).1 v hv
      obtain ⟨v, hv, hvs⟩ := h
      have hx0 : x.s ≤ s := by have := hxs v hv; grind
      obtain ⟨w, h1, h2, h3, _⟩ := offsetLoop_sorted (x :: xs) s hinc (by simp)
      obtain ⟨g1, g2⟩ := h3 ⟨v, hv, hvs⟩
      refine ⟨w, ⟨h2, g1, g2⟩, ?_⟩
      unfold laneOffset
      have : offsetLoop s ([⟨0, { a := x.poly.a, b := x.poly.b, c := x.poly.c, d := x.poly.d }⟩, x] ++ xs)
          = offsetLoop s (x :: xs) := by
        simp only [List.cons_append, List.nil_append, offsetLoop]
        rw [if_neg (by grind)]
      rw [this, h1]
    · have h0 : addLaneOffset [] x = [x] := by simp [addLaneOffset, hx]
      rw [h0, foldl_addLaneOffset _ _ (by simp)]
      obtain ⟨w, h1, h2, h3, _⟩ := offsetLoop_sorted (x :: xs) s hinc (by simp)
      obtain ⟨g1, g2⟩ := h3 h
      refine ⟨w, ⟨h2, g1, g2⟩, ?_⟩
      simp only [List.singleton_append, laneOffset, h1]

example : laneOffset ([⟨0, ⟨1, 0, 0, 0, 1⟩⟩, ⟨10, ⟨1, 1, 0, 0, 1⟩⟩].foldl addLaneOffset []) 12 = 3 := by
  decide +kernel

/-- A road without lane offsets has offset 0 everywhere. -/
theorem laneOffset_none (s : Rat) : laneOffset ([].foldl addLaneOffset []) s = 0 := rfl

/-- Before the first entry (which starts behind the start of the road) the lane offset is neither 0 nor
the value the first entry starts with: the curve of the first entry is followed from `s = 0`, so that
the lanes jump where the first entry starts. -/
theorem laneOffset_before_first_jumps_witness :
    let l := [(⟨10, ⟨0, 1, 0, 0, 1⟩⟩ : LaneOffset)].foldl addLaneOffset []
    laneOffset l 9 = 9 ∧ laneOffset l 10 = 0 := by
  constructor <;> decide +kernel

/-- What is used before the first entry: its curve, started at `s = 0`. -/
theorem laneOffset_before_first (x : LaneOffset) (xs : List LaneOffset) (s : Rat) (hs : s < x.s)
    (hx : x.s > small) (hsc : x.poly.scale = 1) :
    laneOffset ((x :: xs).foldl addLaneOffset []) s = x.poly.eval s := by
  rw [List.foldl_cons]
  have h0 : addLaneOffset [] x = [⟨0, { a := x.poly.a, b := x.poly.b, c := x.poly.c, d := x.poly.d }⟩, x] := by
    simp [addLaneOffset, hx]
  rw [h0, foldl_addLaneOffset _ _ (by simp)]
  simp only [laneOffset, List.cons_append, offsetLoop, hs, if_true, Poly.eval, hsc]
  grind

example : laneOffset ([⟨10, ⟨1, 1, 0, 0, 1⟩⟩, ⟨20, ⟨5, 0, 0, 0, 1⟩⟩].foldl addLaneOffset []) 4 = 5 := by decide +kernel

/-! ## Elevation and roll: any hint -/

/-- The index found, for any hint: the entry starts before `s + tol`, and the next one after. -/
theorem elevIdx_bounds (L tol s : Rat) (xs : List (Rat × Poly)) (hint : Nat)
    (hinc : xs.Pairwise (fun a b => a.1 < b.1)) (hL : ∀ x ∈ xs, x.1 ≤ L) (hne : xs ≠ []) :
    ∃ i, ∃ h : i < xs.length, elevIdx (elevs L xs) tol s hint = some i ∧
      (i = 0 ∨ xs[i].1 ≤ s ∨ (xs[i].1 - tol < s)) ∧
      (∀ h' : i + 1 < xs.length, s ≤ xs[i + 1].1 - tol ∨ s < xs[i + 1].1) := by
  rw [elevs_eq]
  have hlen := mkElev_length L xs
  have hget := fun i h => mkElev_get L xs i h
  generalize mkElev L xs = l at *
  have hpos : 0 < xs.length := List.length_pos_iff.mpr hne
  unfold elevIdx
  rw [if_neg (by omega)]
  have hgl : ∀ j (hj : j < l.length), l[j] = ⟨(xs[j]'(by omega)).1,
      (if h' : j + 1 < xs.length then xs[j + 1].1 else L) - (xs[j]'(by omega)).1, (xs[j]'(by omega)).2⟩ := by
    intro j hj
    have := hget j (by omega)
    rw [List.getElem?_eq_getElem hj] at this
    exact Option.some.inj this
  generalize hk : (if hint ≥ l.length then 0 else hint) = k
  have hkl : k < l.length := by rw [← hk]; split <;> omega
  simp only [List.getElem?_eq_getElem hkl]
  by_cases h1 : s > l[k].s + l[k].len - tol
  · rw [if_pos h1]
    obtain ⟨f1, f2, f3, f4⟩ := elevFwd_spec l tol s k hkl
    refine ⟨_, by omega, rfl, ?_, ?_⟩
    · by_cases hz : elevFwd l tol s k = k
      · have hge := hgl k hkl
        rw [hge] at h1
        simp only [hz]
        by_cases hk1 : k + 1 < xs.length
        · simp only [hk1, dif_pos] at h1
          have := List.pairwise_iff_getElem.mp hinc k (k + 1) (by omega) hk1 (by omega)
          grind
        · simp only [hk1, dif_neg, not_false_eq_true] at h1
          have := hL xs[k] (List.getElem_mem _)
          grind
      · have hj : elevFwd l tol s k - 1 < l.length := by omega
        have := f4 (elevFwd l tol s k - 1) hj (by omega) (by omega)
        rw [hgl _ hj] at this
        have he : elevFwd l tol s k - 1 + 1 = elevFwd l tol s k := by omega
        have hlt : elevFwd l tol s k - 1 + 1 < xs.length := by omega
        simp only [he] at this hlt
        rw [dif_pos hlt] at this
        grind
    · intro h'
      have := f3 (by omega)
      rw [hgl _ f2] at this
      simp only [h', dif_pos] at this
      left; grind
  · rw [if_neg h1]
    by_cases h2 : s < l[k].s
    · rw [if_pos h2]
      obtain ⟨f1, f2, f3, f4⟩ := elevBwd_spec l s k hkl
      refine ⟨_, by omega, rfl, ?_, ?_⟩
      · by_cases hz : elevBwd l s k = 0
        · exact Or.inl hz
        · have := f3 (by omega)
          rw [hgl _ f2] at this
          right; left; grind
      · intro h'
        right
        by_cases hz : elevBwd l s k = k
        · rw [hgl k hkl] at h2
          have := List.pairwise_iff_getElem.mp hinc k (k + 1) (by omega) (by omega) (by omega)
          simp only [hz]
          grind
        · have := f4 (elevBwd l s k + 1) (by omega) (by omega) (by omega)
          rw [hgl _ (by omega)] at this
          exact this
    · rw [if_neg h2]
      refine ⟨k, by omega, rfl, ?_, ?_⟩
      · rw [hgl k hkl] at h2; right; left; grind
      · intro h'
        rw [hgl k hkl] at h1
        simp only [h', dif_pos] at h1
        left; grind

example : elevIdx (elevs 100 [(0, ⟨0, 1, 0, 0, 1⟩), (10, ⟨10, 0, 0, 0, 1⟩), (40, ⟨3, 0, 0, 0, 1⟩)]) small 12 2 = some 1 := by
  decide +kernel

theorem inForce_of_index (xs : List (Rat × Poly)) (s : Rat) (hinc : xs.Pairwise (fun a b => a.1 < b.1))
    (i : Nat) (h : i < xs.length) (h1 : xs[i].1 ≤ s) (h2 : ∀ h' : i + 1 < xs.length, s < xs[i + 1].1) :
    InForce Prod.fst xs s xs[i] := by
  refine ⟨List.getElem_mem _, h1, ?_⟩
  intro v hv hvs
  obtain ⟨j, hj, rfl⟩ := List.mem_iff_getElem.mp hv
  by_cases hji : j ≤ i
  · by_cases hjeq : j = i
    · subst hjeq; exact Rat.le_refl
    · have := List.pairwise_iff_getElem.mp hinc j i hj h (by omega); grind
  · have g := h2 (by omega)
    by_cases hjeq : j = i + 1
    · subst hjeq; grind
    · have := List.pairwise_iff_getElem.mp hinc (i + 1) j (by omega) hj (by omega); grind

/-- Elevation entries at increasing `s`: for every hint the height is that of the entry in force,
unless `s` lies within 1e-6 below the start of an entry. -/
theorem z_in_force_partial (L s : Rat) (xs : List (Rat × Poly)) (hint : Nat)
    (hinc : xs.Pairwise (fun a b => a.1 < b.1)) (hL : ∀ x ∈ xs, x.1 ≤ L)
    (h : ∃ x ∈ xs, x.1 ≤ s) (hgap : ∀ x ∈ xs, x.1 ≤ s ∨ s ≤ x.1 - small) :
    ∃ x, InForce Prod.fst xs s x ∧ zAt (elevs L xs) s hint = x.2.eval (s - x.1) := by
  obtain ⟨x0, hx0, hx0s⟩ := h
  have hne : xs ≠ [] := List.ne_nil_of_mem hx0
  have hsm : (0 : Rat) < small := by decide +kernel
  obtain ⟨i, hi, h1, h2, h3⟩ := elevIdx_bounds L small s xs hint hinc hL hne
  have g1 : xs[i].1 ≤ s := by
    rcases h2 with rfl | h2 | h2
    · obtain ⟨j, hj, rfl⟩ := List.mem_iff_getElem.mp hx0
      by_cases hj0 : j = 0
      · subst hj0; exact hx0s
      · have := List.pairwise_iff_getElem.mp hinc 0 j (by omega) hj (by omega); grind
    · exact h2
    · have := hgap xs[i] (List.getElem_mem _); grind
  have g2 : ∀ h' : i + 1 < xs.length, s < xs[i + 1].1 := by
    intro h'
    have := h3 h'; grind
  refine ⟨xs[i], inForce_of_index xs s hinc i hi g1 g2, ?_⟩
  unfold zAt
  rw [h1]
  simp only
  rw [elevs_eq, mkElev_get L xs i hi]

example : ([(0, ⟨0, 1, 0, 0, 1⟩), (10, ⟨10, 0, 0, 0, 1⟩)] : List (Rat × Poly)).Pairwise (fun a b => a.1 < b.1) ∧
    (∀ x ∈ ([(0, ⟨0, 1, 0, 0, 1⟩), (10, ⟨10, 0, 0, 0, 1⟩)] : List (Rat × Poly)), x.1 ≤ 100) ∧
    (∀ x ∈ ([(0, ⟨0, 1, 0, 0, 1⟩), (10, ⟨10, 0, 0, 0, 1⟩)] : List (Rat × Poly)), x.1 ≤ 4 ∨ 4 ≤ x.1 - small) := by
  decide +kernel

/-- Super elevation entries at increasing `s`: for every hint the roll is that of the entry in force,
unless an entry starts exactly at `s`. -/
theorem roll_in_force_partial (L s : Rat) (xs : List (Rat × Poly)) (hint : Nat)
    (hinc : xs.Pairwise (fun a b => a.1 < b.1)) (hL : ∀ x ∈ xs, x.1 ≤ L)
    (h : ∃ x ∈ xs, x.1 ≤ s) (hgap : ∀ x ∈ xs, x.1 ≠ s) :
    ∃ x, InForce Prod.fst xs s x ∧ rollAt (elevs L xs) s hint = x.2.eval (s - x.1) := by
  obtain ⟨x0, hx0, hx0s⟩ := h
  have hne : xs ≠ [] := List.ne_nil_of_mem hx0
  obtain ⟨i, hi, h1, h2, h3⟩ := elevIdx_bounds L 0 s xs hint hinc hL hne
  have g1 : xs[i].1 ≤ s := by
    rcases h2 with rfl | h2 | h2
    · obtain ⟨j, hj, rfl⟩ := List.mem_iff_getElem.mp hx0
      by_cases hj0 : j = 0
      · subst hj0; exact hx0s
      · have := List.pairwise_iff_getElem.mp hinc 0 j (by omega) hj (by omega); grind
    · exact h2
    · grind
  have g2 : ∀ h' : i + 1 < xs.length, s < xs[i + 1].1 := by
    intro h'
    have := h3 h'
    have := hgap xs[i + 1] (List.getElem_mem _); grind
  refine ⟨xs[i], inForce_of_index xs s hinc i hi g1 g2, ?_⟩
  unfold rollAt
  rw [h1]
  simp only
  rw [elevs_eq, mkElev_get L xs i hi]

example : zAt (elevs 100 [(0, ⟨0, 1, 0, 0, 1⟩), (10, ⟨10, 0, 0, 0, 1⟩)]) 4 1 = 4 ∧
    rollAt (elevs 100 [(0, ⟨0, 1, 0, 0, 1⟩), (10, ⟨10, 0, 0, 0, 1⟩)]) 14 7 = 10 := by decide +kernel

/-- The roll depends on the hint where an entry starts: coming from the entry before, the old entry is
used, coming from the new one, the new one. -/
theorem roll_hint_independent_fails :
    ¬ ∀ (L s : Rat) (xs : List (Rat × Poly)) (h1 h2 : Nat), xs.Pairwise (fun a b => a.1 < b.1) →
      (∀ x ∈ xs, x.1 ≤ L) → rollAt (elevs L xs) s h1 = rollAt (elevs L xs) s h2 := by
  intro h
  have := h 100 10 [(0, ⟨0, 0, 0, 0, 1⟩), (10, ⟨1, 0, 0, 0, 1⟩)] 0 1 (by simp; decide +kernel)
    (by intro x hx; simp at hx; rcases hx with rfl | rfl <;> decide +kernel)
  revert this; decide +kernel

/-- The height depends on the hint within 1e-6 below the start of an entry. -/
theorem z_hint_independent_fails :
    ¬ ∀ (L s : Rat) (xs : List (Rat × Poly)) (h1 h2 : Nat), xs.Pairwise (fun a b => a.1 < b.1) →
      (∀ x ∈ xs, x.1 ≤ L) → zAt (elevs L xs) s h1 = zAt (elevs L xs) s h2 := by
  intro h
  have := h 100 (10 - 1/2000000) [(0, ⟨0, 0, 0, 0, 1⟩), (10, ⟨1, 0, 0, 0, 1⟩)] 0 1 (by simp; decide +kernel)
    (by intro x hx; simp at hx; rcases hx with rfl | rfl <;> decide +kernel)
  revert this; decide +kernel

/-- Before the first entry the first one is extended backwards, for every hint. -/
theorem z_before_first (L s : Rat) (x : Rat × Poly) (xs : List (Rat × Poly)) (hint : Nat)
    (hinc : (x :: xs).Pairwise (fun a b => a.1 < b.1)) (hL : ∀ y ∈ x :: xs, y.1 ≤ L) (hs : s ≤ x.1 - small) :
    zAt (elevs L (x :: xs)) s hint = x.2.eval (s - x.1) := by
  have hsm : (0 : Rat) < small := by decide +kernel
  obtain ⟨i, hi, h1, h2, h3⟩ := elevIdx_bounds L small s (x :: xs) hint hinc hL (by simp)
  have : i = 0 := by
    rcases h2 with h2 | h2
    · exact h2
    · cases i with
      | zero => rfl
      | succ i =>
        have := List.pairwise_iff_getElem.mp hinc 0 (i + 1) (by omega) hi (by omega)
        simp only [List.getElem_cons_zero] at this
        grind
  subst this
  unfold zAt
  rw [h1]
  simp only
  rw [elevs_eq, mkElev_get L (x :: xs) 0 (by simp)]
  simp

example : zAt (elevs 100 [(5, ⟨0, 1, 0, 0, 1⟩), (10, ⟨10, 0, 0, 0, 1⟩)]) 4 1 = -1 := by decide +kernel

/-! ## Speed limits and road types -/

/-- The value added last for key `k`. -/
def lastFor {α : Type} (xs : List (Rat × α)) (k : Rat) : Option α :=
  ((xs.filter (fun e => decide (e.1 = k))).getLast?).map Prod.snd

theorem addType_spec {α : Type} (l : List (Rat × α)) (s : Rat) (x : α)
    (hs : l.Pairwise (fun a b => a.1 < b.1)) :
    (addType l s x).Pairwise (fun a b => a.1 < b.1) ∧
      ∀ k v, (k, v) ∈ addType l s x ↔ (k = s ∧ v = x) ∨ (k ≠ s ∧ (k, v) ∈ l) := by
  induction l with
  | nil => simp [addType]
  | cons e r ih =>
    obtain ⟨t, y⟩ := e
    rw [List.pairwise_cons] at hs
    obtain ⟨i1, i2⟩ := ih hs.2
    unfold addType
    by_cases h1 : s < t
    · rw [if_pos h1]
      refine ⟨?_, ?_⟩
      · rw [List.pairwise_cons, List.pairwise_cons]
        refine ⟨?_, hs.1, hs.2⟩
        intro a ha
        rcases List.mem_cons.mp ha with rfl | ha
        · exact h1
        · have := hs.1 a ha; grind
      · intro k v
        have hr : (k, v) ∈ r → k ≠ s := by
          intro hm; have := hs.1 _ hm; grind
        simp only [List.mem_cons, Prod.mk.injEq]
        constructor
        · rintro (h | ⟨rfl, rfl⟩ | h)
          · exact Or.inl h
          · exact Or.inr ⟨by grind, Or.inl ⟨rfl, rfl⟩⟩
          · exact Or.inr ⟨hr h, Or.inr h⟩
        · rintro (h | ⟨_, h⟩)
          · exact Or.inl h
          · exact Or.inr h
    · rw [if_neg h1]
      by_cases h2 : t < s
      · rw [if_pos h2]
        refine ⟨?_, ?_⟩
        · rw [List.pairwise_cons]
          refine ⟨?_, i1⟩
          rintro ⟨k, v⟩ ha
          rcases (i2 k v).mp ha with ⟨rfl, _⟩ | ⟨_, h⟩
          · exact h2
          · exact hs.1 _ h
        · intro k v
          simp only [List.mem_cons, Prod.mk.injEq, i2]
          constructor
          · rintro (⟨rfl, rfl⟩ | h | ⟨h, h'⟩)
            · exact Or.inr ⟨by grind, Or.inl ⟨rfl, rfl⟩⟩
            · exact Or.inl h
            · exact Or.inr ⟨h, Or.inr h'⟩
          · rintro (h | ⟨h, h' | h'⟩)
            · exact Or.inr (Or.inl h)
            · exact Or.inl h'
            · exact Or.inr (Or.inr ⟨h, h'⟩)
      · rw [if_neg h2]
        have hts : t = s := by grind
        subst hts
        refine ⟨?_, ?_⟩
        · rw [List.pairwise_cons]; exact ⟨hs.1, hs.2⟩
        · intro k v
          have hr : (k, v) ∈ r → k ≠ t := by
            intro hm; have := hs.1 _ hm; grind
          simp only [List.mem_cons, Prod.mk.injEq]
          constructor
          · rintro (h | h)
            · exact Or.inl h
            · exact Or.inr ⟨hr h, Or.inr h⟩
          · rintro (h | ⟨h, h' | h'⟩)
            · exact Or.inl h
            · exact absurd h'.1 h
            · exact Or.inr h'

theorem addTypes_spec {α : Type} (xs : List (Rat × α)) :
    (addTypes xs).Pairwise (fun a b => a.1 < b.1) ∧
      ∀ k v, (k, v) ∈ addTypes xs ↔ lastFor xs k = some v := by
  have : ∀ (ys pre l : List (Rat × α)), l.Pairwise (fun a b => a.1 < b.1) →
      (∀ k v, (k, v) ∈ l ↔ lastFor pre k = some v) →
      (ys.foldl (fun l x => addType l x.1 x.2) l).Pairwise (fun a b => a.1 < b.1) ∧
      ∀ k v, (k, v) ∈ ys.foldl (fun l x => addType l x.1 x.2) l ↔ lastFor (pre ++ ys) k = some v := by
    intro ys
    induction ys with
    | nil => intro pre l h1 h2; simpa using ⟨h1, h2⟩
    | cons y ys ih =>
      intro pre l h1 h2
      obtain ⟨a1, a2⟩ := addType_spec l y.1 y.2 h1
      rw [List.foldl_cons]
      have := ih (pre ++ [y]) _ a1 (by
        intro k v
        rw [a2]
        unfold lastFor
        rw [List.filter_append]
        by_cases hk : y.1 = k
        · subst hk; simp [eq_comm]
        · have := h2 k v
          unfold lastFor at this
          simp only [List.filter_cons, hk, decide_false, List.filter_nil]
          simp only [Bool.false_eq_true, if_false, List.append_nil, ← this]
          constructor
          · rintro (⟨h, _⟩ | h)
            · exact absurd h.symm hk
            · exact h.2
          · intro h; exact Or.inr ⟨fun he => hk he.symm, h⟩)
      simpa using this
  simpa [addTypes] using this xs [] [] List.Pairwise.nil (by simp [lastFor])

theorem lastFor_isSome {α : Type} (xs : List (Rat × α)) (e : Rat × α) (h : e ∈ xs) :
    ∃ v, lastFor xs e.1 = some v := by
  unfold lastFor
  have hne : xs.filter (fun a => decide (a.1 = e.1)) ≠ [] :=
    List.ne_nil_of_mem (List.mem_filter.mpr ⟨h, by simp⟩)
  rw [List.getLast?_eq_some_getLast hne]
  exact ⟨_, rfl⟩

theorem lastFor_mem {α : Type} (xs : List (Rat × α)) (k : Rat) (v : α) (h : lastFor xs k = some v) :
    (k, v) ∈ xs := by
  unfold lastFor at h
  rw [Option.map_eq_some_iff] at h
  obtain ⟨e, h1, rfl⟩ := h
  have := List.mem_of_getLast? h1
  rw [List.mem_filter] at this
  have h2 : e.1 = k := by simpa using this.2
  rw [← h2]; exact this.1

/-- Speed limit and road type at `s`: the entry in force, whatever the order of the entries; of several
entries at the same `s` the one given last. -/
theorem type_in_force {α : Type} (xs : List (Rat × α)) (s : Rat) (h : ∃ e ∈ xs, e.1 ≤ s) :
    ∃ e, typeByS (addTypes xs) s = some e ∧ InForce Prod.fst xs s e ∧ lastFor xs e.1 = some e.2 := by
  obtain ⟨h1, h2⟩ := addTypes_spec xs
  obtain ⟨e0, he0, he0s⟩ := h
  obtain ⟨v0, hv0⟩ := lastFor_isSome xs e0 he0
  have hmem := (h2 _ _).mpr hv0
  generalize addTypes xs = l at *
  have hpos : 0 < l.length := List.length_pos_of_mem hmem
  unfold typeByS
  rw [if_pos hpos]
  generalize hk : l.findIdx (fun e => decide (s < e.1)) = k
  have hk0 : 0 < k := by
    rcases Nat.eq_zero_or_pos k with h0 | h0
    · subst h0
      have hlt : l.findIdx (fun e => decide (s < e.1)) < l.length := by omega
      have := List.findIdx_getElem (w := hlt)
      simp only [hk, decide_eq_true_eq] at this
      obtain ⟨j, hj, hje⟩ := List.mem_iff_getElem.mp hmem
      by_cases hj0 : j = 0
      · subst hj0; rw [hje] at this; grind
      · have h3 := List.pairwise_iff_getElem.mp h1 0 j (by omega) hj (by omega)
        rw [hje] at h3; grind
    · exact h0
  have hkl : k ≤ l.length := by rw [← hk]; exact List.findIdx_le_length
  have hk1 : k - 1 < l.length := by omega
  rw [List.getElem?_eq_getElem hk1]
  have hle : l[k - 1].1 ≤ s := by
    have := List.not_of_lt_findIdx (p := fun e => decide (s < e.1)) (xs := l) (i := k - 1) (by omega)
    simp at this; grind
  have hm : l[k - 1] ∈ l := List.getElem_mem _
  have hlast := (h2 l[k - 1].1 l[k - 1].2).mp hm
  refine ⟨l[k - 1], rfl, ⟨lastFor_mem xs _ _ hlast, hle, ?_⟩, hlast⟩
  intro v hv hvs
  obtain ⟨u, hu⟩ := lastFor_isSome xs v hv
  have hvm := (h2 _ _).mpr hu
  obtain ⟨j, hj, hje⟩ := List.mem_iff_getElem.mp hvm
  by_cases hjk : j < k
  · by_cases hjeq : j = k - 1
    · subst hjeq; rw [hje]; exact Rat.le_refl
    · have := List.pairwise_iff_getElem.mp h1 j (k - 1) hj hk1 (by omega)
      rw [hje] at this; grind
  · have hlt : l.findIdx (fun e => decide (s < e.1)) < l.length := by omega
    have h3 := List.findIdx_getElem (w := hlt)
    simp only [hk, decide_eq_true_eq] at h3
    by_cases hjeq : j = k
    · subst hjeq; rw [hje] at h3; grind
    · have := List.pairwise_iff_getElem.mp h1 k j (by omega) hj (by omega)
      rw [hje] at this; grind

example : lastFor [((50 : Rat), (2 : Nat)), (0, 1), (50, 3)] 50 = some 3 := by decide +kernel

/-- Before the first entry the earliest one applies. -/
theorem type_before_all {α : Type} (xs : List (Rat × α)) (s : Rat) (hne : xs ≠ [])
    (h : ∀ e ∈ xs, s < e.1) :
    ∃ e, typeByS (addTypes xs) s = some e ∧ Earliest Prod.fst xs e ∧ lastFor xs e.1 = some e.2 := by
  obtain ⟨h1, h2⟩ := addTypes_spec xs
  obtain ⟨e0, he0⟩ := List.exists_mem_of_ne_nil xs hne
  obtain ⟨v0, hv0⟩ := lastFor_isSome xs e0 he0
  have hmem := (h2 _ _).mpr hv0
  generalize addTypes xs = l at *
  have hpos : 0 < l.length := List.length_pos_of_mem hmem
  have hm : l[0] ∈ l := List.getElem_mem _
  have hlast := (h2 l[0].1 l[0].2).mp hm
  have hs0 := h _ (lastFor_mem xs _ _ hlast)
  unfold typeByS
  rw [if_pos hpos]
  have hk : l.findIdx (fun e => decide (s < e.1)) = 0 := by
    cases l with
    | nil => simp at hpos
    | cons a r =>
      simp only [List.getElem_cons_zero] at hs0
      rw [List.findIdx_cons]
      simp [hs0]
  rw [hk, List.getElem?_eq_getElem (show 0 - 1 < l.length by omega)]
  refine ⟨l[0], rfl, ⟨lastFor_mem xs _ _ hlast, ?_⟩, hlast⟩
  intro v hv
  obtain ⟨u, hu⟩ := lastFor_isSome xs v hv
  have hvm := (h2 _ _).mpr hu
  obtain ⟨j, hj, hje⟩ := List.mem_iff_getElem.mp hvm
  by_cases hj0 : j = 0
  · subst hj0; rw [hje]; exact Rat.le_refl
  · have := List.pairwise_iff_getElem.mp h1 0 j (by omega) hj (by omega)
    rw [hje] at this; grind

example : typeByS (addTypes [((50 : Rat), (2 : Nat)), (0, 1), (50, 3)]) 60 = some (50, 3) ∧
    typeByS (addTypes [((50 : Rat), (2 : Nat)), (0, 1), (50, 3)]) 49 = some (0, 1) := by decide +kernel

/-! ## Lane sections -/

theorem cmin_eq_left {a b : Rat} (h : a ≤ b) : cmin a b = a := by
  unfold cmin; split <;> grind

/-- Lane sections at increasing `s` from 0 on: the section found is the one in force at `s`, provided
the hint is no later section, or no section starts exactly at `s`. -/
theorem section_in_force_partial (L s : Rat) (xs : List Rat) (hint : Nat)
    (hinc : xs.Pairwise (· < ·)) (h0 : ∀ x ∈ xs, 0 ≤ x) (hL : ∀ x ∈ xs, x ≤ L)
    (hh : hint < xs.length) (hsL : s ≤ L + small) (hfirst : xs[0] ≤ s)
    (hcase : xs[hint] ≤ s ∨ ∀ x ∈ xs, x ≠ s) :
    ∃ i, ∃ h : i < xs.length, sectionIdx (spans L xs) s hint = some i ∧ InForce id xs s xs[i] := by
  rw [spans_eq]
  have hlen := mkSpans_length L xs
  have hget := fun i h => mkSpans_get L xs i h
  generalize mkSpans L xs = l at *
  have hgl : ∀ j (hj : j < l.length), l[j].s = (xs[j]'(by omega)) ∧
      l[j].s + l[j].len = (if h' : j + 1 < xs.length then xs[j + 1] else L) := by
    intro j hj
    have := hget j (by omega)
    rw [List.getElem?_eq_getElem hj] at this
    have := Option.some.inj this
    rw [this]
    refine ⟨rfl, ?_⟩
    have hx0 := h0 xs[j] (List.getElem_mem _)
    simp only
    by_cases h' : j + 1 < xs.length
    · have h2 := hL xs[j + 1] (List.getElem_mem _)
      simp only [h', dif_pos]
      rw [cmin_eq_left (by grind)]; grind
    · simp only [h', dif_neg, not_false_eq_true]
      rw [cmin_eq_left (by grind)]; grind
  have key : ∀ i (hi : i < xs.length), xs[i] ≤ s → (∀ h' : i + 1 < xs.length, s < xs[i + 1]) →
      InForce id xs s xs[i] := by
    intro i h h1 h2
    refine ⟨List.getElem_mem _, h1, ?_⟩
    intro v hv hvs
    simp only [id] at hvs ⊢
    obtain ⟨j, hj, rfl⟩ := List.mem_iff_getElem.mp hv
    by_cases hji : j ≤ i
    · by_cases hjeq : j = i
      · subst hjeq; exact Rat.le_refl
      · have := List.pairwise_iff_getElem.mp hinc j i hj h (by omega); grind
    · have g := h2 (by omega)
      by_cases hjeq : j = i + 1
      · subst hjeq; grind
      · have := List.pairwise_iff_getElem.mp hinc (i + 1) j (by omega) hj (by omega); grind
  have hhl : hint < l.length := by omega
  unfold sectionIdx
  rw [List.getElem?_eq_getElem hhl]
  simp only
  by_cases hb : s < l[hint].s ∧ hint > 0
  · rw [if_pos hb]
    obtain ⟨f1, f2, f3, f4⟩ := secBwd_spec l s (hint - 1) (by omega)
    have hlt : secBwd l s (hint - 1) < xs.length := by omega
    refine ⟨_, hlt, rfl, key _ hlt ?_ ?_⟩
    · by_cases hz : secBwd l s (hint - 1) = 0
      · simp only [hz]; exact hfirst
      · have := f3 (by omega)
        rw [(hgl _ f2).1] at this; grind
    · intro h'
      have hne : ∀ x ∈ xs, x ≠ s := by
        rcases hcase with hc | hc
        · have := (hgl hint hhl).1; grind
        · exact hc
      by_cases hz : secBwd l s (hint - 1) + 1 = hint
      · have := (hgl hint hhl).1
        simp only [hz]; grind
      · have := f4 (secBwd l s (hint - 1) + 1) (by omega) (by omega) (by omega)
        rw [(hgl _ (by omega)).1] at this
        have := hne xs[secBwd l s (hint - 1) + 1] (List.getElem_mem _)
        grind
  · rw [if_neg hb]
    have hge : xs[hint] ≤ s := by
      have := (hgl hint hhl).1
      by_cases hz : hint = 0
      · simp only [hz]; exact hfirst
      · by_cases h2 : s < l[hint].s
        · exact absurd ⟨h2, by omega⟩ hb
        · grind
    obtain ⟨f1, f2, f3, f4⟩ := secFwd_spec l s hint (by omega)
    generalize secFwd l s hint = i at *
    have hprev : ∀ hi : i < xs.length, xs[i] ≤ s := by
      intro hi
      by_cases hz : i = hint
      · subst hz; exact hge
      · have := f4 (i - 1) (by omega) (by omega) (by omega)
        rw [(hgl _ (by omega)).2] at this
        have he : i - 1 + 1 = i := by omega
        simp only [he] at this
        rw [dif_pos hi] at this
        grind
    by_cases hend : i = l.length
    · rw [if_pos hend]
      have hpos : l.length - 1 < l.length := by omega
      rw [List.getLast?_eq_getElem?, List.getElem?_eq_getElem hpos]
      simp only
      have hlast := (hgl _ hpos).2
      rw [dif_neg (by omega)] at hlast
      rw [if_neg (by grind)]
      have hlt : l.length - 1 < xs.length := by omega
      refine ⟨_, hlt, rfl, key _ hlt ?_ (fun h' => by omega)⟩
      by_cases hz : l.length - 1 = hint
      · simp only [hz]; exact hge
      · have := f4 (l.length - 2) (by omega) (by omega) (by omega)
        rw [(hgl _ (by omega)).2] at this
        have he : l.length - 2 + 1 = l.length - 1 := by omega
        simp only [he] at this
        rw [dif_pos hlt] at this
        grind
    · rw [if_neg hend]
      have hil : i < l.length := by omega
      refine ⟨i, by omega, rfl, key i (by omega) (hprev (by omega)) ?_⟩
      intro h'
      have := f3 hil
      rw [(hgl i hil).2, dif_pos h'] at this
      exact this

example : sectionIdx (spans 100 [0, 20, 50]) 30 2 = some 1 ∧ sectionIdx (spans 100 [0, 20, 50]) 100 0 = some 2 ∧
    sectionIdx (spans 100 [0, 20, 50]) 20 1 = some 1 := by decide +kernel

/-- From the default hint (section 0) the section found is always the one in force. -/
theorem section_from_start (L s : Rat) (xs : List Rat)
    (hinc : xs.Pairwise (· < ·)) (h0 : ∀ x ∈ xs, 0 ≤ x) (hL : ∀ x ∈ xs, x ≤ L)
    (hh : 0 < xs.length) (hsL : s ≤ L + small) (hfirst : xs[0] ≤ s) :
    ∃ i, ∃ h : i < xs.length, sectionIdx (spans L xs) s 0 = some i ∧ InForce id xs s xs[i] :=
  section_in_force_partial L s xs 0 hinc h0 hL hh hsL hfirst (Or.inl hfirst)

example : sectionIdx (spans 100 [0, 20, 50]) 20 0 = some 1 ∧ sectionIdx (spans 100 [0, 20, 50]) 100 0 = some 2 := by
  decide +kernel

/-- The section found depends on the hint: at exactly the start of a section, a look-up from a later
section ends in the section before. -/
theorem section_hint_independent_fails :
    ¬ ∀ (L s : Rat) (xs : List Rat) (h1 h2 : Nat), xs.Pairwise (· < ·) → (∀ x ∈ xs, 0 ≤ x) →
      (∀ x ∈ xs, x ≤ L) → h1 < xs.length → h2 < xs.length → 0 ≤ s → s ≤ L →
      sectionIdx (spans L xs) s h1 = sectionIdx (spans L xs) s h2 := by
  intro h
  have := h 100 20 [0, 20, 50] 0 2 (by simp; decide +kernel)
    (by intro x hx; simp at hx; rcases hx with rfl | rfl | rfl <;> decide +kernel)
    (by intro x hx; simp at hx; rcases hx with rfl | rfl | rfl <;> decide +kernel)
    (by decide) (by decide) (by decide +kernel) (by decide +kernel)
  revert this; decide +kernel

/-- Behind the end of the road there is no section. -/
theorem section_beyond_end (L s : Rat) (xs : List Rat) (hint : Nat)
    (h0 : ∀ x ∈ xs, 0 ≤ x) (hL : ∀ x ∈ xs, x ≤ L) (hs : L + small < s) :
    sectionIdx (spans L xs) s hint = none := by
  rw [spans_eq]
  have hsm : (0 : Rat) < small := by decide +kernel
  have hlen := mkSpans_length L xs
  have hget := fun i h => mkSpans_get L xs i h
  generalize mkSpans L xs = l at *
  have hgl : ∀ j (hj : j < l.length), l[j].s = (xs[j]'(by omega)) ∧
      l[j].s + l[j].len ≤ L := by
    intro j hj
    have := hget j (by omega)
    rw [List.getElem?_eq_getElem hj] at this
    have := Option.some.inj this
    rw [this]
    refine ⟨rfl, ?_⟩
    have hx0 := h0 xs[j] (List.getElem_mem _)
    simp only
    by_cases h' : j + 1 < xs.length
    · have h2 := hL xs[j + 1] (List.getElem_mem _)
      simp only [h', dif_pos]
      rw [cmin_eq_left (by grind)]; grind
    · simp only [h', dif_neg, not_false_eq_true]
      rw [cmin_eq_left (by grind)]; grind
  unfold sectionIdx
  by_cases hh : hint < l.length
  · rw [List.getElem?_eq_getElem hh]
    simp only
    have g := (hgl hint hh).1
    have g2 := hL _ (List.getElem_mem (show hint < xs.length by omega))
    rw [if_neg (by grind)]
    obtain ⟨f1, f2, f3, f4⟩ := secFwd_spec l s hint (by omega)
    have hend : secFwd l s hint = l.length := by
      rcases Nat.lt_or_ge (secFwd l s hint) l.length with hlt | hge
      · have := f3 hlt
        have := (hgl _ hlt).2
        grind
      · omega
    rw [if_pos hend]
    have hpos : l.length - 1 < l.length := by omega
    rw [List.getLast?_eq_getElem?, List.getElem?_eq_getElem hpos]
    simp only
    -- the last section ends at the end of the road
    have := hget (l.length - 1) (by omega)
    rw [List.getElem?_eq_getElem hpos] at this
    have := Option.some.inj this
    have h9 := (hgl _ hpos).2
    rw [if_pos (by grind)]
  · rw [List.getElem?_eq_none (by omega)]

example : sectionIdx (spans 100 [0, 20, 50]) 101 1 = none := by decide +kernel

/-- A hint that is no section of the road gives no section, even where there is one. -/
theorem section_hint_out_of_range (L s : Rat) (xs : List Rat) (hint : Nat) (h : xs.length ≤ hint) :
    sectionIdx (spans L xs) s hint = none := by
  rw [spans_eq]
  unfold sectionIdx
  rw [List.getElem?_eq_none (by rw [mkSpans_length]; exact h)]

example : sectionIdx (spans 100 [0]) 5 1 = none := by decide +kernel

/-! ## Lane height -/

/-- The height entries around `s`. -/
theorem heightIdx_spec (l : List LaneHeight) (s : Rat) (hs : l.Pairwise (fun a b => a.off ≤ b.off))
    (h : ∃ v ∈ l, v.off ≤ s) (hgap : ∀ v ∈ l, v.off ≤ s ∨ s < v.off - small) :
    ∃ hi : heightIdx l s < l.length, InForce LaneHeight.off l s l[heightIdx l s] ∧
      ∀ h' : heightIdx l s + 1 < l.length, s < l[heightIdx l s + 1].off ∧
        ∀ v ∈ l, s < v.off → l[heightIdx l s + 1].off ≤ v.off := by
  have hsm : (0 : Rat) < small := by decide +kernel
  obtain ⟨v0, hv0, hv0s⟩ := h
  unfold heightIdx
  generalize hk : l.findIdx (fun h => decide (s < h.off - small)) = k
  have hkl : k ≤ l.length := by rw [← hk]; exact List.findIdx_le_length
  obtain ⟨j0, hj0, hje0⟩ := List.mem_iff_getElem.mp hv0
  have hat : ∀ hlt : k < l.length, s < l[k].off - small := by
    intro hlt
    have hlt' : l.findIdx (fun h => decide (s < h.off - small)) < l.length := by omega
    have h3 := List.findIdx_getElem (w := hlt')
    simp only [hk, decide_eq_true_eq] at h3
    exact h3
  have hmono : ∀ (i j : Nat) (hi : i < l.length) (hj : j < l.length), i ≤ j → l[i].off ≤ l[j].off := by
    intro i j hi hj hij
    by_cases he : i = j
    · subst he; exact Rat.le_refl
    · exact List.pairwise_iff_getElem.mp hs i j hi hj (by omega)
  have hbefore : ∀ j (hj : j < l.length), j < k → l[j].off ≤ s := by
    intro j hj hjk
    have := List.not_of_lt_findIdx (p := fun h => decide (s < LaneHeight.off h - small)) (xs := l) (i := j) (by omega)
    have h2 := hgap l[j] (List.getElem_mem _)
    simp only [decide_eq_false_iff_not] at this
    grind
  have hk0 : 0 < k := by
    rcases Nat.eq_zero_or_pos k with h0 | h0
    · have h1 := hat (by omega)
      have h2 := hmono 0 j0 (by omega) hj0 (by omega)
      simp only [h0] at h1
      rw [hje0] at h2; grind
    · exact h0
  have hafter : ∀ j (hj : j < l.length), k ≤ j → s < l[j].off := by
    intro j hj hkj
    have h1 := hat (by omega)
    have h2 := hmono k j (by omega) hj hkj
    grind
  have hk1 : k - 1 < l.length := by omega
  refine ⟨hk1, ⟨List.getElem_mem _, hbefore _ hk1 (by omega), ?_⟩, ?_⟩
  · intro v hv hvs
    obtain ⟨j, hj, rfl⟩ := List.mem_iff_getElem.mp hv
    rcases Nat.lt_or_ge j k with hjk | hjk
    · exact hmono j (k - 1) hj hk1 (by omega)
    · have := hafter j hj hjk; grind
  · intro h'
    have he : k - 1 + 1 = k := by omega
    refine ⟨hafter _ h' (by omega), ?_⟩
    intro v hv hvs
    obtain ⟨j, hj, rfl⟩ := List.mem_iff_getElem.mp hv
    rcases Nat.lt_or_ge j k with hjk | hjk
    · have := hbefore j hj hjk; grind
    · exact hmono (k - 1 + 1) j h' hj (by omega)

example : heightIdx [⟨0, 0, 0⟩, ⟨10, 2, 4⟩, ⟨30, 1, 1⟩] 12 = 1 := by decide +kernel

/-- `x` is the height at `s` on the straight line through `(p, a)` and `(q, b)`. -/
def OnLine (p q a b s x : Rat) : Prop := x * (q - p) = a * (q - s) + b * (s - p)

/-- Lane height, for entries added in any order, where the lane has a width and `s` is not within 1e-6
below an entry: at the inner edge it is the line through the inner heights of the entries before and
after `s`, at the outer edge through the outer heights, in the middle of the lane the mean of the two;
behind the last entry the heights of the last entry are kept. -/
theorem height_in_force_partial (id : Int) (ws : List LaneWidth) (hs : List LaneHeight) (s w : Rat)
    (hw : widthAt (addAll LaneWidth.off ws) s = some w) (hw0 : 0 < w)
    (h : ∃ v ∈ hs, v.off ≤ s) (hgap : ∀ v ∈ hs, v.off ≤ s ∨ s < v.off - small) :
    ∃ cur hI hO, InForce LaneHeight.off hs s cur ∧
      heightAt id (addAll LaneWidth.off ws) (addAll LaneHeight.off hs) s (-(sign id) * (w / 2)) = some hI ∧
      heightAt id (addAll LaneWidth.off ws) (addAll LaneHeight.off hs) s (sign id * (w / 2)) = some hO ∧
      heightAt id (addAll LaneWidth.off ws) (addAll LaneHeight.off hs) s 0 = some ((hI + hO) / 2) ∧
      ((∀ v ∈ hs, v.off ≤ s) → hI = cur.inner ∧ hO = cur.outer) ∧
      ((∃ v ∈ hs, s < v.off) → ∃ nxt ∈ hs, s < nxt.off ∧ (∀ v ∈ hs, s < v.off → nxt.off ≤ v.off) ∧
        OnLine cur.off nxt.off cur.inner nxt.inner s hI ∧ OnLine cur.off nxt.off cur.outer nxt.outer s hO) := by
  obtain ⟨s1, s2, _⟩ := addAll_sorted LaneHeight.off hs
  generalize addAll LaneHeight.off hs = l at *
  generalize addAll LaneWidth.off ws = wl at *
  obtain ⟨v0, hv0, hv0s⟩ := h
  obtain ⟨hi, ⟨f1, f2, f3⟩, f4⟩ := heightIdx_spec l s s1 ⟨v0, s2.mem_iff.mpr hv0, hv0s⟩
    (fun v hv => hgap v (s2.mem_iff.mp hv))
  generalize hk : heightIdx l s = k at *
  have hne : l.isEmpty = false := by cases l with
    | nil => simp at hi
    | cons _ _ => rfl
  have hsign : ((sign id : Int) : Rat) * ((sign id : Int) : Rat) = 1 := by
    unfold sign; split <;> decide +kernel
  have hcl0 : clamp ((-(sign id : Rat) * (w / 2) * (sign id : Rat) + 1 / 2 * w) / w) 0 1 = 0 := by
    have : -(sign id : Rat) * (w / 2) * (sign id : Rat) + 1 / 2 * w = 0 := by grind
    rw [this]; have : (0 : Rat) / w = 0 := by grind
    rw [this]; decide +kernel
  have hcl1 : clamp (((sign id : Rat) * (w / 2) * (sign id : Rat) + 1 / 2 * w) / w) 0 1 = 1 := by
    have : (sign id : Rat) * (w / 2) * (sign id : Rat) + 1 / 2 * w = w := by grind
    rw [this]; have : w / w = 1 := by grind
    rw [this]; decide +kernel
  have hcl2 : clamp (((0 : Rat) * (sign id : Rat) + 1 / 2 * w) / w) 0 1 = 1 / 2 := by
    have : ((0 : Rat) * (sign id : Rat) + 1 / 2 * w) / w = 1 / 2 := by grind
    rw [this]; decide +kernel
  have hwn : w ≠ 0 := by grind
  by_cases hl : k + 1 < l.length
  · obtain ⟨n1, n2⟩ := f4 hl
    have hd : l[k + 1].off - l[k].off ≠ 0 := by grind
    refine ⟨l[k], l[k].inner + (s - l[k].off) / (l[k + 1].off - l[k].off) * (l[k + 1].inner - l[k].inner),
      l[k].outer + (s - l[k].off) / (l[k + 1].off - l[k].off) * (l[k + 1].outer - l[k].outer),
      ⟨s2.mem_iff.mp f1, f2, fun v hv => f3 v (s2.mem_iff.mpr hv)⟩, ?_, ?_, ?_, ?_, ?_⟩
    · simp only [heightAt, heightEdges, hne, hk, hw, List.getElem?_eq_getElem hi, List.getElem?_eq_getElem hl, hd, hwn, if_false]
      rw [hcl0]; simp only [Bool.false_eq_true, if_false]; congr 1; grind
    · simp only [heightAt, heightEdges, hne, hk, hw, List.getElem?_eq_getElem hi, List.getElem?_eq_getElem hl, hd, hwn, if_false]
      rw [hcl1]; simp only [Bool.false_eq_true, if_false]; congr 1; grind
    · simp only [heightAt, heightEdges, hne, hk, hw, List.getElem?_eq_getElem hi, List.getElem?_eq_getElem hl, hd, hwn, if_false]
      rw [hcl2]; simp only [Bool.false_eq_true, if_false]; congr 1; grind
    · intro hall
      have := hall _ (s2.mem_iff.mp (List.getElem_mem hl))
      grind
    · intro _
      refine ⟨l[k + 1], s2.mem_iff.mp (List.getElem_mem hl), n1,
        fun v hv hvs => n2 v (s2.mem_iff.mpr hv) hvs, ?_, ?_⟩
      · unfold OnLine; grind
      · unfold OnLine; grind
  · have hnone : l[k + 1]? = none := List.getElem?_eq_none (by omega)
    refine ⟨l[k], l[k].inner, l[k].outer,
      ⟨s2.mem_iff.mp f1, f2, fun v hv => f3 v (s2.mem_iff.mpr hv)⟩, ?_, ?_, ?_, ?_, ?_⟩
    · simp only [heightAt, heightEdges, hne, hk, hw, List.getElem?_eq_getElem hi, hnone, hwn, if_false]
      rw [hcl0]; simp only [Bool.false_eq_true, if_false]; congr 1; grind
    · simp only [heightAt, heightEdges, hne, hk, hw, List.getElem?_eq_getElem hi, hnone, hwn, if_false]
      rw [hcl1]; simp only [Bool.false_eq_true, if_false]; congr 1; grind
    · simp only [heightAt, heightEdges, hne, hk, hw, List.getElem?_eq_getElem hi, hnone, hwn, if_false]
      rw [hcl2]; simp only [Bool.false_eq_true, if_false]; congr 1; grind
    · intro _; exact ⟨rfl, rfl⟩
    · rintro ⟨v, hv, hvs⟩
      obtain ⟨j, hj, rfl⟩ := List.mem_iff_getElem.mp (s2.mem_iff.mpr hv)
      have : l[j].off ≤ l[k].off := by
        by_cases he : j = k
        · subst he; exact Rat.le_refl
        · exact List.pairwise_iff_getElem.mp s1 j k hj hi (by omega)
      grind

example : widthAt (addAll LaneWidth.off [⟨0, ⟨4, 0, 0, 0, 1⟩⟩]) 5 = some 4 ∧
    (∀ v ∈ ([⟨10, 2, 4⟩, ⟨0, 0, 0⟩] : List LaneHeight), v.off ≤ 5 ∨ 5 < v.off - small) := by decide +kernel

/-- Across the lane the height stays between the heights of the two edges: it is a mean of the two with
weights that depend on the lateral place only. -/
theorem height_between_edges (id : Int) (ws : List LaneWidth) (hs : List LaneHeight) (s w o x : Rat)
    (hw : widthAt ws s = some w) (hne : hs ≠ []) (h : heightAt id ws hs s o = some x) :
    ∃ g hI hO, 0 ≤ g ∧ g ≤ 1 ∧ x = (1 - g) * hI + g * hO ∧
      heightAt id ws hs s (-(sign id) * (w / 2)) = some hI ∧ heightAt id ws hs s (sign id * (w / 2)) = some hO := by
  have hsign : ((sign id : Int) : Rat) * ((sign id : Int) : Rat) = 1 := by
    unfold sign; split <;> decide +kernel
  have he : hs.isEmpty = false := by cases hs with
    | nil => exact absurd rfl hne
    | cons _ _ => rfl
  unfold heightAt at h
  simp only [he, Bool.false_eq_true, if_false, hw] at h
  cases hcur : hs[heightIdx hs s]? with
  | none => simp [hcur] at h
  | some cur =>
    simp only [hcur] at h
    have hgen : ∀ o', heightAt id ws hs s o' =
        (match heightEdges cur hs[heightIdx hs s + 1]? s with
        | some (hi, ho) => if w = 0 then none else
          some (hi + clamp ((o' * sign id + 1 / 2 * w) / w) 0 1 * (ho - hi))
        | none => none) := by
      intro o'
      simp only [heightAt, he, Bool.false_eq_true, if_false, hw, hcur]
      rfl
    rw [hgen, hgen]
    revert h
    generalize hed : heightEdges cur hs[heightIdx hs s + 1]? s = ed
    intro h
    cases ed with
    | none => simp at h
    | some p =>
      obtain ⟨hi, ho⟩ := p
      simp only at h ⊢
      by_cases hw0 : w = 0
      · simp [hw0] at h
      · simp only [hw0, if_false, Option.some.injEq] at h ⊢
        have hcl0 : clamp ((-(sign id : Rat) * (w / 2) * (sign id : Rat) + 1 / 2 * w) / w) 0 1 = 0 := by
          have : -(sign id : Rat) * (w / 2) * (sign id : Rat) + 1 / 2 * w = 0 := by grind
          rw [this]; have : (0 : Rat) / w = 0 := by grind
          rw [this]; decide +kernel
        have hcl1 : clamp (((sign id : Rat) * (w / 2) * (sign id : Rat) + 1 / 2 * w) / w) 0 1 = 1 := by
          have : (sign id : Rat) * (w / 2) * (sign id : Rat) + 1 / 2 * w = w := by grind
          rw [this]; have : w / w = 1 := by grind
          rw [this]; decide +kernel
        rw [hcl0, hcl1]
        refine ⟨clamp ((o * sign id + 1 / 2 * w) / w) 0 1, _, _, ?_, ?_, ?_, rfl, rfl⟩
        · unfold clamp cmin cmax; grind
        · unfold clamp cmin cmax; grind
        · rw [← h]; grind

example : heightAt (-1) [⟨0, ⟨4, 0, 0, 0, 1⟩⟩] (addAll LaneHeight.off [⟨10, 2, 4⟩, ⟨0, 0, 0⟩]) 5 (-2) = some 2 ∧
    heightAt (-1) [⟨0, ⟨4, 0, 0, 0, 1⟩⟩] (addAll LaneHeight.off [⟨10, 2, 4⟩, ⟨0, 0, 0⟩]) 5 2 = some 1 := by
  decide +kernel

/-- Before the first height entry the height is no height of the file: the line through the first two
entries is extended backwards, below all heights given. -/
theorem height_before_first_fails :
    ¬ ∀ (id : Int) (ws : List LaneWidth) (hs : List LaneHeight) (s o x : Rat), 0 ≤ s → hs ≠ [] →
      (∀ v ∈ hs, 0 ≤ v.inner ∧ 0 ≤ v.outer) →
      heightAt id (addAll LaneWidth.off ws) (addAll LaneHeight.off hs) s o = some x → 0 ≤ x := by
  intro h
  have := h 1 [⟨0, ⟨4, 0, 0, 0, 1⟩⟩] [⟨10, 1, 1⟩, ⟨11, 2, 2⟩] 0 0 (-9) (by decide +kernel) (by simp)
    (by intro v hv; simp at hv; rcases hv with rfl | rfl <;> decide +kernel) (by decide +kernel)
  revert this; decide +kernel

/-- A lane with a height but without width makes the height look-up use a null pointer. -/
theorem height_without_width (id : Int) (hs : List LaneHeight) (s o : Rat) (hne : hs ≠ []) :
    heightAt id (addAll LaneWidth.off []) hs s o = none := by
  have he : hs.isEmpty = false := by cases hs with
    | nil => exact absurd rfl hne
    | cons _ _ => rfl
  unfold heightAt
  simp only [he, addAll, List.foldl_nil, widthAt, entryByS, Option.map_none]
  simp only [Bool.false_eq_true, if_false]
  cases hs[heightIdx hs s]? <;> rfl

example : heightAt 1 (addAll LaneWidth.off []) [⟨0, 1, 1⟩] 3 0 = none := by decide +kernel

/-- Where the width of the lane is zero the look-up divides by zero. -/
theorem height_zero_width (id : Int) (ws : List LaneWidth) (hs : List LaneHeight) (s o : Rat) (hne : hs ≠ [])
    (hw : widthAt ws s = some 0) : heightAt id ws hs s o = none := by
  have he : hs.isEmpty = false := by cases hs with
    | nil => exact absurd rfl hne
    | cons _ _ => rfl
  unfold heightAt
  simp only [he, hw, Bool.false_eq_true, if_false]
  cases hs[heightIdx hs s]? with
  | none => rfl
  | some cur =>
    simp only
    split <;> rfl

example : widthAt (addAll LaneWidth.off [⟨0, ⟨4, -1, 0, 0, 1⟩⟩]) 4 = some 0 := by decide +kernel

/-! ## Materials -/

/-- `a` and `b` start at least 1e-6 apart. -/
def Apart (a b : Material) : Prop := a.off + small ≤ b.off ∨ b.off + small ≤ a.off

theorem insertMaterial_eq (x : Material) (l : List Material) (h : ∀ y ∈ l, Apart y x) :
    insertMaterial x l = insertFirst Material.off x l := by
  induction l with
  | nil => rfl
  | cons y ys ih =>
    have hsm : (0 : Rat) < small := by decide +kernel
    have hy := h y (by simp)
    unfold Apart at hy
    rw [insertMaterial, insertFirst, ih (fun z hz => h z (List.mem_cons_of_mem _ hz)), if_neg]
    split <;> grind

theorem addMaterial_eq (x : Material) (l : List Material) (h : ∀ y ∈ l, Apart y x) :
    addMaterial l x = addEntry Material.off l x := by
  have hsm : (0 : Rat) < small := by decide +kernel
  unfold addMaterial addEntry
  rw [insertMaterial_eq x l h]
  cases hl : l.getLast? with
  | none => rfl
  | some b =>
    have hb := h b (List.mem_of_getLast? hl)
    unfold Apart at hb
    simp only
    by_cases hc : x.off < b.off
    · rw [if_pos hc, if_pos (by grind)]
    · rw [if_neg hc, if_neg (by grind)]

/-- Materials that start at least 1e-6 apart, added in any order: the material found is the one in
force. -/
theorem material_in_force_partial (xs : List Material) (s : Rat) (hap : xs.Pairwise Apart)
    (h : ∃ v ∈ xs, v.off ≤ s) :
    ∃ w, entryByS Material.off (xs.foldl addMaterial []) s = some w ∧ InForce Material.off xs s w := by
  have : ∀ (ys l pre : List Material), l.Perm pre → (pre ++ ys).Pairwise Apart →
      l.Pairwise (fun a b => a.off ≤ b.off) →
      ys.foldl addMaterial l = ys.foldl (addEntry Material.off) l := by
    intro ys
    induction ys with
    | nil => intros; rfl
    | cons y ys ih =>
      intro l pre hp hpw hso
      have hy : ∀ z ∈ l, Apart z y := by
        intro z hz
        rw [List.pairwise_append] at hpw
        exact hpw.2.2 z (hp.mem_iff.mp hz) y (by simp)
      rw [List.foldl_cons, List.foldl_cons, addMaterial_eq y l hy]
      obtain ⟨a1, a2, _⟩ := addEntry_spec Material.off l y hso
      refine ih _ (pre ++ [y]) (a2.trans ?_) (by simpa using hpw) a1
      exact (List.Perm.cons y hp).trans (List.perm_append_singleton y pre).symm
  have he : xs.foldl addMaterial [] = addAll Material.off xs :=
    this xs [] [] (List.Perm.refl _) (by simpa using hap) List.Pairwise.nil
  rw [he]
  obtain ⟨w, h1, h2, _⟩ := entry_in_force Material.off xs s h
  exact ⟨w, h1, h2⟩

example : entryByS Material.off ([⟨10, 1⟩, ⟨0, 2⟩].foldl addMaterial []) 5 = some ⟨0, 2⟩ := by decide +kernel

/-- An entry at (nearly) the same place replaces the one before: the list stays as it is but for that
entry. -/
theorem material_replaced (l r : List Material) (x y : Material)
    (hap : ∀ z ∈ l ++ r, Apart z x) (hs : (l ++ y :: r).Pairwise (fun a b => a.off ≤ b.off))
    (hy : -small < x.off - y.off ∧ x.off - y.off < small) :
    addMaterial (l ++ y :: r) x = l ++ x :: r := by
  have hsm : (0 : Rat) < small := by decide +kernel
  have hins : ∀ l : List Material, (∀ z ∈ l, Apart z x) → (∀ z ∈ l, z.off ≤ y.off) →
      insertMaterial x (l ++ y :: r) = some (l ++ x :: r) := by
    intro l
    induction l with
    | nil =>
      intro _ _
      simp only [List.nil_append, insertMaterial]
      rw [if_pos]; split <;> grind
    | cons z zs ih =>
      intro h1 h2
      have hz := h1 z (by simp)
      have hz2 := h2 z (by simp)
      unfold Apart at hz
      rw [List.cons_append, insertMaterial, if_neg (by split <;> grind), if_neg (by grind),
        ih (fun w hw => h1 w (List.mem_cons_of_mem _ hw)) (fun w hw => h2 w (List.mem_cons_of_mem _ hw))]
      rfl
  have hle : ∀ z ∈ l, z.off ≤ y.off := fun z hz => (List.pairwise_append.mp hs).2.2 z hz y (by simp)
  have hins := hins l (fun z hz => hap z (by simp [hz])) hle
  unfold addMaterial
  cases hl : (l ++ y :: r).getLast? with
  | none => simp at hl
  | some b =>
    have hb : y.off ≤ b.off := by
      have hb : (y :: r).getLast? = some b := by
        rw [List.getLast?_append] at hl
        cases hr : (y :: r).getLast? with
        | none => simp at hr
        | some c => rw [hr] at hl; simpa using hl
      rcases List.mem_cons.mp (List.mem_of_getLast? hb) with rfl | hbm
      · grind
      · exact (List.pairwise_cons.mp (List.pairwise_append.mp hs).2.1).1 b hbm
    simp only
    rw [if_pos (by grind), hins]
    rfl

/-- An entry at (nearly) the same place replaces the one before. -/
example : ([⟨0, 1⟩, ⟨10, 2⟩, ⟨0, 3⟩].foldl addMaterial [] : List Material) = [⟨0, 3⟩, ⟨10, 2⟩] := by
  decide +kernel

/-- Materials closer than 1e-6 replace each other so that the list may end out of order. -/
theorem addMaterial_sorted_fails :
    ¬ ∀ xs : List Material, (xs.foldl addMaterial []).Pairwise (fun a b => a.off ≤ b.off) := by
  intro h
  have h1 := h [⟨0, 1⟩, ⟨12/10000000, 2⟩, ⟨9/10000000, 3⟩, ⟨15/10000000, 4⟩]
  have h2 : ([⟨0, 1⟩, ⟨12/10000000, 2⟩, ⟨9/10000000, 3⟩, ⟨15/10000000, 4⟩].foldl addMaterial [] : List Material)
      = [⟨15/10000000, 4⟩, ⟨12/10000000, 2⟩] := by decide +kernel
  rw [h2] at h1
  have := (List.pairwise_cons.mp h1).1 ⟨12/10000000, 2⟩ (by simp)
  revert this; decide +kernel

end Verif.Road
