import Verif.Road.LaneModel
import Verif.Road.ProfileTheorems
/-
Theorems on the lanes of a section (C35), on finding the lane at a lateral place (C69), on the width of
a road (C70) and on the lane links along a road (C71).
-/
namespace Verif.Road

/-! ## Specification -/

/-- `f 1 + … + f n`. -/
def sumTo (f : Nat → Rat) : Nat → Rat
  | 0 => 0
  | n + 1 => sumTo f n + f (n + 1)

/-- Lateral place (left positive) of the right edge of lane `id`. -/
def rightEdge (sec : Section) (s : Rat) (id : Int) : Rat :=
  if id > 0 then sec.inner s id else -(sec.outer s id)

/-- Lateral place (left positive) of the left edge of lane `id`. -/
def leftEdge (sec : Section) (s : Rat) (id : Int) : Rat :=
  if id > 0 then sec.outer s id else -(sec.inner s id)

/-- Every lane has a non-negative width at `s`. -/
def Wide (sec : Section) (s : Rat) : Prop := ∀ id, 0 ≤ sec.width s id

/-- No two lanes with the same id. -/
def Distinct (l : List Lane) : Prop := l.Pairwise (fun a b => a.id ≠ b.id)

/-! ## Lane boundaries -/

theorem outer_zero (sec : Section) (s : Rat) : sec.outer s 0 = 0 := by
  rw [Section.outer]; simp

theorem inner_zero (sec : Section) (s : Rat) : sec.inner s 0 = 0 := by simp [Section.inner]

/-- The inner edge of a lane is the outer edge of the neighbour towards the centre. -/
theorem inner_eq_outer_neighbour (sec : Section) (s : Rat) (id : Int) (h : id ≠ 0) :
    sec.inner s id = sec.outer s (if id < 0 then id + 1 else id - 1) := by
  unfold Section.inner
  rw [if_neg h]
  by_cases h1 : id.natAbs = 1
  · rw [if_pos h1]
    have : (if id < 0 then id + 1 else id - 1) = 0 := by split <;> omega
    rw [this, outer_zero]
  · rw [if_neg h1]
    by_cases h2 : id < 0
    · simp [h2]
    · simp [h2]; rfl

/-- A lane reaches from its inner to its outer edge: they are one width apart. -/
theorem outer_sub_inner (sec : Section) (s : Rat) (id : Int) :
    sec.outer s id - sec.inner s id = sec.width s id := by
  by_cases h : id = 0
  · subst h; rw [outer_zero, inner_zero]; simp [Section.width]; grind
  · unfold Section.inner
    rw [Section.outer]
    simp only [h, if_false]
    by_cases h1 : id.natAbs = 1
    · simp only [h1, if_true]; grind
    · simp only [h1, if_false]; grind

/-- The centre of a lane lies midway between its edges. -/
theorem center_midway (sec : Section) (s : Rat) (id : Int) :
    2 * sec.center s id = sec.inner s id + sec.outer s id := by
  have h := outer_sub_inner sec s id
  unfold Section.center
  by_cases h0 : id = 0
  · subst h0; simp [outer_zero, inner_zero]; grind
  · rw [if_neg h0]; grind

/-- The outer edge of a lane is at the sum of the widths of the lanes up to it. -/
theorem outer_eq_sum (sec : Section) (s : Rat) (n : Nat) :
    sec.outer s n = sumTo (fun k => sec.width s k) n ∧
      sec.outer s (-n) = sumTo (fun k => sec.width s (-(k : Int))) n := by
  induction n with
  | zero => simp [sumTo, outer_zero]
  | succ n ih =>
    have h1 := outer_sub_inner sec s ((n + 1 : Nat) : Int)
    have h2 := outer_sub_inner sec s (-((n + 1 : Nat) : Int))
    rw [inner_eq_outer_neighbour _ _ _ (by omega)] at h1 h2
    rw [if_neg (by omega)] at h1
    rw [if_pos (by omega)] at h2
    have e1 : ((n + 1 : Nat) : Int) - 1 = (n : Int) := by omega
    have e2 : -((n + 1 : Nat) : Int) + 1 = -(n : Int) := by omega
    rw [e1, ih.1] at h1
    rw [e2, ih.2] at h2
    constructor
    · simp only [sumTo]; grind
    · simp only [sumTo]; grind

theorem outer_mono_left (sec : Section) (s : Rat) (hw : Wide sec s) (m n : Nat) (h : m ≤ n) :
    sec.outer s m ≤ sec.outer s n := by
  rw [(outer_eq_sum sec s m).1, (outer_eq_sum sec s n).1]
  induction n with
  | zero => have : m = 0 := by omega
            subst this; exact Rat.le_refl
  | succ n ih =>
    by_cases he : m = n + 1
    · subst he; exact Rat.le_refl
    · have := ih (by omega)
      have := hw ((n + 1 : Nat) : Int)
      simp only [sumTo]; grind

theorem outer_mono_right (sec : Section) (s : Rat) (hw : Wide sec s) (m n : Nat) (h : m ≤ n) :
    sec.outer s (-(m : Int)) ≤ sec.outer s (-(n : Int)) := by
  rw [(outer_eq_sum sec s m).2, (outer_eq_sum sec s n).2]
  induction n with
  | zero => have : m = 0 := by omega
            subst this; exact Rat.le_refl
  | succ n ih =>
    by_cases he : m = n + 1
    · subst he; exact Rat.le_refl
    · have := ih (by omega)
      have := hw (-((n + 1 : Nat) : Int))
      simp only [sumTo]; grind

/-- For non-negative widths offsets grow outwards, on both sides. -/
theorem outer_grows (sec : Section) (s : Rat) (hw : Wide sec s) (a b : Int)
    (hab : a.natAbs ≤ b.natAbs) (hside : (0 ≤ a ∧ 0 ≤ b) ∨ (a ≤ 0 ∧ b ≤ 0)) :
    0 ≤ sec.outer s a ∧ sec.outer s a ≤ sec.outer s b := by
  rcases hside with ⟨h1, h2⟩ | ⟨h1, h2⟩
  · obtain ⟨m, rfl⟩ := Int.eq_ofNat_of_zero_le h1
    obtain ⟨n, rfl⟩ := Int.eq_ofNat_of_zero_le h2
    have h0 := outer_mono_left sec s hw 0 m (by omega)
    have e0 : sec.outer s ((0 : Nat) : Int) = 0 := outer_zero sec s
    rw [e0] at h0
    exact ⟨h0, outer_mono_left sec s hw m n (by omega)⟩
  · obtain ⟨m, hm⟩ := Int.eq_ofNat_of_zero_le (show 0 ≤ -a by omega)
    obtain ⟨n, hn⟩ := Int.eq_ofNat_of_zero_le (show 0 ≤ -b by omega)
    have ea : a = -(m : Int) := by omega
    have eb : b = -(n : Int) := by omega
    subst ea; subst eb
    have h0 := outer_mono_right sec s hw 0 m (by omega)
    have e0 : sec.outer s (-((0 : Nat) : Int)) = 0 := outer_zero sec s
    rw [e0] at h0
    exact ⟨h0, outer_mono_right sec s hw m n (by omega)⟩

/-- For non-negative widths the lanes lie beside each other without overlap, in the order of their ids:
the left edge of a lane is not to the left of the right edge of any lane with a larger id. -/
theorem lanes_beside (sec : Section) (s : Rat) (hw : Wide sec s) (a b : Int) (hab : a < b)
    (ha : a ≠ 0) (hb : b ≠ 0) : leftEdge sec s a ≤ rightEdge sec s b := by
  unfold leftEdge rightEdge
  have inner_of : ∀ id : Int, id ≠ 0 → 0 ≤ sec.inner s id := by
    intro id hid
    rw [inner_eq_outer_neighbour _ _ _ hid]
    rcases Classical.em (id < 0) with h | h
    · rw [if_pos h]; exact (outer_grows sec s hw _ _ (Nat.le_refl _) (Or.inr ⟨by omega, by omega⟩)).1
    · rw [if_neg h]; exact (outer_grows sec s hw _ _ (Nat.le_refl _) (Or.inl ⟨by omega, by omega⟩)).1
  by_cases h1 : a > 0
  · rw [if_pos h1, if_pos (by omega), inner_eq_outer_neighbour _ _ b hb, if_neg (by omega)]
    exact (outer_grows sec s hw a (b - 1) (by omega) (Or.inl ⟨by omega, by omega⟩)).2
  · rw [if_neg h1]
    by_cases h2 : b > 0
    · rw [if_pos h2]
      have := inner_of a ha
      have := inner_of b hb
      grind
    · rw [if_neg h2, inner_eq_outer_neighbour _ _ a ha, if_pos (by omega)]
      have := (outer_grows sec s hw b (a + 1) (by omega) (Or.inr ⟨by omega, by omega⟩)).2
      grind

/-- Two lanes on the right (3 and 4 wide), one on the left (2 wide). -/
def demo : Section := ⟨0, 100, [
  ⟨1, 1, [⟨0, ⟨2, 0, 0, 0, 1⟩⟩], none, none⟩, ⟨0, 1, [], none, none⟩,
  ⟨-1, 1, [⟨0, ⟨3, 0, 0, 0, 1⟩⟩], none, none⟩, ⟨-2, 2, [⟨0, ⟨4, 0, 0, 0, 1⟩⟩], none, none⟩]⟩

example : demo.outer 10 (-2) = 7 ∧ demo.inner 10 (-2) = 3 ∧ demo.center 10 (-2) = 5 := by
  refine ⟨?_, ?_, ?_⟩ <;> decide +kernel

theorem demo_width (id : Int) : demo.width 10 id =
    if id = 1 then 2 else if id = -1 then 3 else if id = -2 then 4 else 0 := by
  by_cases h1 : id = 1
  · subst h1; decide +kernel
  by_cases h2 : id = -1
  · subst h2; decide +kernel
  by_cases h3 : id = -2
  · subst h3; decide +kernel
  by_cases h4 : id = 0
  · subst h4; decide +kernel
  · have : demo.laneById id = none := by
      unfold Section.laneById demo
      rw [List.find?_eq_none]
      intro x hx
      simp at hx
      rcases hx with rfl | rfl | rfl | rfl <;> simp <;> omega
    simp [Section.width, this, h1, h2, h3]

example : Wide demo 10 := by
  intro id; rw [demo_width]; split; decide +kernel; split; decide +kernel; split <;> decide +kernel

/-! ## Order of the lanes -/

theorem insertLane_some (x : Lane) (l : List Lane) (hs : l.Pairwise (fun a b => a.id ≥ b.id))
    (b : Lane) (hb : b ∈ l) (hx : x.id > b.id) :
    ∃ r, insertLane x l = some r ∧ r.Pairwise (fun a b => a.id ≥ b.id) ∧ r.Perm (x :: l) := by
  induction l with
  | nil => simp at hb
  | cons y ys ih =>
    rw [List.pairwise_cons] at hs
    unfold insertLane
    by_cases hc : x.id > y.id
    · rw [if_pos hc]
      refine ⟨_, rfl, ?_, List.Perm.refl _⟩
      rw [List.pairwise_cons, List.pairwise_cons]
      refine ⟨?_, hs.1, hs.2⟩
      intro z hz
      rcases List.mem_cons.mp hz with rfl | hz
      · omega
      · have := hs.1 z hz; omega
    · rw [if_neg hc]
      have hb' : b ∈ ys := by
        rcases List.mem_cons.mp hb with rfl | h
        · exact absurd hx hc
        · exact h
      obtain ⟨r, h1, h2, h3⟩ := ih hs.2 hb'
      refine ⟨y :: r, by rw [h1]; rfl, ?_, (List.Perm.cons y h3).trans (List.Perm.swap x y ys)⟩
      rw [List.pairwise_cons]
      refine ⟨?_, h2⟩
      intro z hz
      rcases List.mem_cons.mp (h3.mem_iff.mp hz) with rfl | hz
      · omega
      · exact hs.1 z hz

theorem addLane_spec (l : List Lane) (x : Lane) (hs : l.Pairwise (fun a b => a.id ≥ b.id)) :
    (addLane l x).Pairwise (fun a b => a.id ≥ b.id) ∧ (addLane l x).Perm (x :: l) := by
  unfold addLane
  cases hl : l.getLast? with
  | none =>
    rw [List.getLast?_eq_none_iff] at hl; subst hl; simp
  | some b =>
    simp only
    by_cases hc : x.id > b.id
    · rw [if_pos hc]
      obtain ⟨r, h1, h2, h3⟩ := insertLane_some x l hs b (List.mem_of_getLast? hl) hc
      rw [h1]; exact ⟨h2, h3⟩
    · rw [if_neg hc]
      refine ⟨?_, List.perm_append_singleton x l⟩
      obtain ⟨l', rfl⟩ := List.getLast?_eq_some_iff.mp hl
      rw [List.pairwise_append]
      refine ⟨hs, List.pairwise_singleton _ _, ?_⟩
      intro a ha c hcm
      rw [List.mem_singleton] at hcm; subst hcm
      rw [List.pairwise_append] at hs
      rcases List.mem_append.mp ha with h | h
      · have := hs.2.2 a h b (by simp); omega
      · rw [List.mem_singleton] at h; subst h; omega

/-- Lanes added in any order are kept sorted from left to right, and none is lost or doubled. -/
theorem lanes_sorted (xs : List Lane) :
    (xs.foldl addLane []).Pairwise (fun a b => a.id ≥ b.id) ∧ (xs.foldl addLane []).Perm xs := by
  have : ∀ (ys l : List Lane), l.Pairwise (fun a b => a.id ≥ b.id) →
      (ys.foldl addLane l).Pairwise (fun a b => a.id ≥ b.id) ∧ (ys.foldl addLane l).Perm (l ++ ys) := by
    intro ys
    induction ys with
    | nil => intro l hl; simpa using hl
    | cons y ys ih =>
      intro l hl
      obtain ⟨h1, h2⟩ := addLane_spec l y hl
      obtain ⟨i1, i2⟩ := ih _ h1
      exact ⟨i1, i2.trans ((h2.append_right ys).trans List.perm_middle.symm)⟩
  simpa using this xs [] List.Pairwise.nil

example : ([⟨-1, 1, [], none, none⟩, ⟨2, 1, [], none, none⟩, ⟨0, 1, [], none, none⟩, ⟨1, 1, [], none, none⟩,
    ⟨-2, 1, [], none, none⟩].foldl addLane [] : List Lane).map Lane.id = [2, 1, 0, -1, -2] := by decide +kernel

theorem laneById_of_distinct (sec : Section) (l : Lane) (hd : Distinct sec.lanes) (hl : l ∈ sec.lanes) :
    sec.laneById l.id = some l := by
  unfold Section.laneById Distinct at *
  generalize sec.lanes = ls at *
  induction ls with
  | nil => simp at hl
  | cons y ys ih =>
    rw [List.pairwise_cons] at hd
    rcases List.mem_cons.mp hl with rfl | h
    · simp
    · have := hd.1 l h
      rw [List.find?_cons_of_neg (by simpa using this)]
      exact ih hd.2 h

/-- The width of a lane within its section is that of its own width entries: of the entry in force at
the distance from the start of the section, or of the first one. -/
theorem lane_width (sec : Section) (l : Lane) (ws : List LaneWidth) (s : Rat) (hd : Distinct sec.lanes)
    (hl : l ∈ sec.lanes) (h0 : l.id ≠ 0) (hw : l.widths = addAll LaneWidth.off ws)
    (hs : sec.s ≤ s ∧ s ≤ sec.s + sec.len) :
    (ws = [] → sec.width s l.id = 0) ∧
    ((∃ v ∈ ws, v.off ≤ s - sec.s) →
      ∃ w, InForce LaneWidth.off ws (s - sec.s) w ∧ sec.width s l.id = w.poly.eval (s - (sec.s + w.off))) ∧
    (ws ≠ [] → (∀ v ∈ ws, s - sec.s < v.off) →
      ∃ w, Earliest LaneWidth.off ws w ∧ sec.width s l.id = w.poly.eval (s - (sec.s + w.off))) := by
  have hc : clamp s sec.s (sec.s + sec.len) = s := by
    unfold clamp cmin cmax; grind
  have he : sec.width s l.id = match entryByS LaneWidth.off l.widths (s - sec.s) with
      | none => 0
      | some w => w.poly.eval (s - (sec.s + w.off)) := by
    unfold Section.width
    simp only [h0, if_false, hc, laneById_of_distinct sec l hd hl]
    cases entryByS LaneWidth.off l.widths (s - sec.s) <;> rfl
  refine ⟨?_, ?_, ?_⟩
  · intro h
    rw [he, hw, (entry_none_iff LaneWidth.off ws _).mpr h]
  · intro h
    obtain ⟨w, h1, h2, _⟩ := entry_in_force LaneWidth.off ws _ h
    exact ⟨w, h2, by rw [he, hw, h1]⟩
  · intro hne h
    obtain ⟨w, h1, h2⟩ := entry_before_all LaneWidth.off ws _ hne h
    exact ⟨w, h2, by rw [he, hw, h1]⟩

example : (⟨50, 100, [⟨-1, 1, addAll LaneWidth.off [⟨10, ⟨3, 0, 0, 0, 1⟩⟩, ⟨0, ⟨2, 1/10, 0, 0, 1⟩⟩], none, none⟩]⟩
    : Section).width 54 (-1) = 24/10 := by decide +kernel

/-- With different ids, every lane is found by its id whatever the order the lanes were added in. -/
theorem lane_found (xs : List Lane) (s len : Rat) (hd : Distinct xs) (l : Lane) (hl : l ∈ xs) :
    (⟨s, len, xs.foldl addLane []⟩ : Section).laneById l.id = some l := by
  obtain ⟨_, h2⟩ := lanes_sorted xs
  refine laneById_of_distinct _ l ?_ (h2.mem_iff.mpr hl)
  exact (h2.pairwise_iff (fun h => h.symm)).mpr hd

example : (⟨0, 100, [⟨-1, 7, [], none, none⟩, ⟨2, 1, [], none, none⟩].foldl addLane []⟩ : Section).laneById (-1) =
    some ⟨-1, 7, [], none, none⟩ := by decide +kernel

theorem order_irrelevant_width (xs ys : List Lane) (s0 len s : Rat) (hp : xs.Perm ys) (hd : Distinct xs) (id : Int) :
    (⟨s0, len, xs.foldl addLane []⟩ : Section).width s id = (⟨s0, len, ys.foldl addLane []⟩ : Section).width s id := by
  have hd' : Distinct ys := (hp.pairwise_iff (fun h => h.symm)).mp hd
  have : (⟨s0, len, xs.foldl addLane []⟩ : Section).laneById id =
      (⟨s0, len, ys.foldl addLane []⟩ : Section).laneById id := by
    by_cases h : ∃ l ∈ xs, l.id = id
    · obtain ⟨l, hl, rfl⟩ := h
      rw [lane_found xs s0 len hd l hl, lane_found ys s0 len hd' l (hp.mem_iff.mp hl)]
    · have hn : ∀ zs : List Lane, (∀ l ∈ zs, l.id ≠ id) →
          (⟨s0, len, zs.foldl addLane []⟩ : Section).laneById id = none := by
        intro zs hz
        unfold Section.laneById
        rw [List.find?_eq_none]
        intro l hl
        have := hz l ((lanes_sorted zs).2.mem_iff.mp hl)
        simpa using this
      rw [hn xs (fun l hl he => h ⟨l, hl, he⟩), hn ys (fun l hl he => h ⟨l, hp.mem_iff.mpr hl, he⟩)]
  unfold Section.width
  rw [this]

/-- The order in which lanes are added changes no width and no lane boundary. -/
theorem order_irrelevant (xs ys : List Lane) (s0 len s : Rat) (hp : xs.Perm ys) (hd : Distinct xs) (id : Int) :
    (⟨s0, len, xs.foldl addLane []⟩ : Section).width s id = (⟨s0, len, ys.foldl addLane []⟩ : Section).width s id ∧
    (⟨s0, len, xs.foldl addLane []⟩ : Section).outer s id = (⟨s0, len, ys.foldl addLane []⟩ : Section).outer s id ∧
    (⟨s0, len, xs.foldl addLane []⟩ : Section).inner s id = (⟨s0, len, ys.foldl addLane []⟩ : Section).inner s id := by
  have hw := order_irrelevant_width xs ys s0 len s hp hd
  generalize (⟨s0, len, xs.foldl addLane []⟩ : Section) = A at *
  generalize (⟨s0, len, ys.foldl addLane []⟩ : Section) = B at *
  have ho : ∀ n : Nat, A.outer s n = B.outer s n ∧ A.outer s (-(n : Int)) = B.outer s (-(n : Int)) := by
    intro n
    have h1 := outer_eq_sum A s n
    have h2 := outer_eq_sum B s n
    simp only [hw] at h1
    exact ⟨h1.1.trans h2.1.symm, h1.2.trans h2.2.symm⟩
  have hout : A.outer s id = B.outer s id := by
    rcases Int.le_total 0 id with h | h
    · obtain ⟨n, rfl⟩ := Int.eq_ofNat_of_zero_le h; exact (ho n).1
    · obtain ⟨n, hn⟩ := Int.eq_ofNat_of_zero_le (show 0 ≤ -id by omega)
      have e : id = -(n : Int) := by omega
      subst e; exact (ho n).2
  refine ⟨hw id, hout, ?_⟩
  have h1 := outer_sub_inner A s id
  have h2 := outer_sub_inner B s id
  have := hw id
  grind

example : Distinct [⟨1, 1, [⟨0, ⟨2, 0, 0, 0, 1⟩⟩], none, none⟩, ⟨0, 1, [], none, none⟩, ⟨-1, 1, [], none, none⟩] := by
  unfold Distinct; decide +kernel

/-! ## Slope of a lane boundary -/

/-- Slope of the width of lane `id` at `s`: the derivative `b + 2 c p + 3 d p²` of its polynomial. -/
def slope (sec : Section) (s : Rat) (id : Int) : Option Rat :=
  match sec.laneById id with
  | none => none
  | some l => (entryByS LaneWidth.off l.widths (s - sec.s)).map (fun w =>
      let p := (s - (sec.s + w.off)) * w.poly.scale
      w.poly.b + 2 * p * w.poly.c + 3 * p * p * w.poly.d)

theorem primLoop_pos (sec : Section) (s : Rat) (n : Nat) (acc : Rat) (f : Nat → Rat)
    (h : ∀ k, 1 ≤ k → k ≤ n → slope sec s k = some (f k)) :
    sec.primLoop s n false acc = some (acc + sumTo f n) := by
  induction n generalizing acc with
  | zero => rw [Section.primLoop]; simp [sumTo]; grind
  | succ n ih =>
    have hs := h (n + 1) (by omega) (by omega)
    rw [Section.primLoop, if_neg (by omega)]
    unfold slope at hs
    cases hl : sec.laneById ((n + 1 : Nat) : Int) with
    | none => rw [hl] at hs; simp at hs
    | some l =>
      rw [hl] at hs
      simp only at hs
      cases he : entryByS LaneWidth.off l.widths (s - sec.s) with
      | none => rw [he] at hs; simp at hs
      | some w =>
        rw [he] at hs
        simp only [Option.map_some, Option.some.injEq] at hs
        simp only
        rw [he]
        simp only
        have e : ((n + 1 : Nat) : Int) - sign ((n + 1 : Nat) : Int) = (n : Int) := by
          unfold sign; split <;> omega
        rw [e, ih _ (fun k h1 h2 => h k h1 (by omega))]
        simp only [Poly.prim, sumTo, Bool.false_eq_true, if_false]
        congr 1; grind

theorem primLoop_neg (sec : Section) (s : Rat) (n : Nat) (acc : Rat) (f : Nat → Rat)
    (h : ∀ k : Nat, 1 ≤ k → k ≤ n → slope sec s (-(k : Int)) = some (f k)) :
    sec.primLoop s (-(n : Int)) false acc = some (acc + sumTo f n) := by
  induction n generalizing acc with
  | zero => rw [Section.primLoop]; simp [sumTo]; grind
  | succ n ih =>
    have hs := h (n + 1) (by omega) (by omega)
    rw [Section.primLoop, if_neg (by omega)]
    unfold slope at hs
    cases hl : sec.laneById (-((n + 1 : Nat) : Int)) with
    | none => rw [hl] at hs; simp at hs
    | some l =>
      rw [hl] at hs
      simp only at hs
      cases he : entryByS LaneWidth.off l.widths (s - sec.s) with
      | none => rw [he] at hs; simp at hs
      | some w =>
        rw [he] at hs
        simp only [Option.map_some, Option.some.injEq] at hs
        simp only
        rw [he]
        simp only
        have e : -((n + 1 : Nat) : Int) - sign (-((n + 1 : Nat) : Int)) = -(n : Int) := by
          unfold sign; split <;> omega
        rw [e, ih _ (fun k h1 h2 => h k h1 (by omega))]
        simp only [Poly.prim, sumTo, Bool.false_eq_true, if_false]
        congr 1; grind

/-- Where all lanes up to lane `±(n+1)` exist and have widths, the slope of the outer edge of that lane
is the sum of the slopes of their widths, and the slope of its centre counts its own width half. -/
theorem totalPrim_eq_partial (sec : Section) (s : Rat) (n : Nat) (left : Bool) (f : Nat → Rat)
    (h : ∀ k : Nat, 1 ≤ k → k ≤ n + 1 → slope sec s (if left then (k : Int) else -(k : Int)) = some (f k)) :
    sec.totalPrim s (if left then ((n + 1 : Nat) : Int) else -((n + 1 : Nat) : Int)) false = sumTo f (n + 1) ∧
    sec.totalPrim s (if left then ((n + 1 : Nat) : Int) else -((n + 1 : Nat) : Int)) true
      = sumTo f n + f (n + 1) / 2 := by
  cases left with
  | true =>
    simp only [if_true] at *
    constructor
    · unfold Section.totalPrim
      rw [if_neg (by omega), primLoop_pos sec s (n + 1) 0 f h]
      simp only [Option.getD_some]; grind
    · unfold Section.totalPrim
      rw [if_neg (by omega)]
      have hs := h (n + 1) (by omega) (by omega)
      rw [Section.primLoop, if_neg (by omega)]
      unfold slope at hs
      cases hl : sec.laneById ((n + 1 : Nat) : Int) with
      | none => rw [hl] at hs; simp at hs
      | some l =>
        rw [hl] at hs
        simp only at hs
        cases he : entryByS LaneWidth.off l.widths (s - sec.s) with
        | none => rw [he] at hs; simp at hs
        | some w =>
          rw [he] at hs
          simp only [Option.map_some, Option.some.injEq] at hs
          simp only
          rw [he]
          simp only
          have e : ((n + 1 : Nat) : Int) - sign ((n + 1 : Nat) : Int) = (n : Int) := by
            unfold sign; split <;> omega
          rw [e, primLoop_pos sec s n _ f (fun k h1 h2 => h k h1 (by omega))]
          simp only [Poly.prim, if_true, Option.getD_some]
          grind
  | false =>
    simp only [Bool.false_eq_true, if_false] at *
    constructor
    · unfold Section.totalPrim
      rw [if_neg (by omega), primLoop_neg sec s (n + 1) 0 f h]
      simp only [Option.getD_some]; grind
    · unfold Section.totalPrim
      rw [if_neg (by omega)]
      have hs := h (n + 1) (by omega) (by omega)
      rw [Section.primLoop, if_neg (by omega)]
      unfold slope at hs
      cases hl : sec.laneById (-((n + 1 : Nat) : Int)) with
      | none => rw [hl] at hs; simp at hs
      | some l =>
        rw [hl] at hs
        simp only at hs
        cases he : entryByS LaneWidth.off l.widths (s - sec.s) with
        | none => rw [he] at hs; simp at hs
        | some w =>
          rw [he] at hs
          simp only [Option.map_some, Option.some.injEq] at hs
          simp only
          rw [he]
          simp only
          have e : -((n + 1 : Nat) : Int) - sign (-((n + 1 : Nat) : Int)) = -(n : Int) := by
            unfold sign; split <;> omega
          rw [e, primLoop_neg sec s n _ f (fun k h1 h2 => h k h1 (by omega))]
          simp only [Poly.prim, if_true, Option.getD_some]
          grind

example : (⟨0, 100, [⟨-1, 1, [⟨0, ⟨3, 1, 0, 0, 1⟩⟩], none, none⟩, ⟨-2, 1, [⟨0, ⟨3, 2, 0, 0, 1⟩⟩], none, none⟩]⟩
    : Section).totalPrim 10 (-2) true = 2 := by decide +kernel

/-- A lane without width entries takes away the slope of all lanes: the outer edge moves by 1 per
metre, the slope reported is 0. -/
theorem totalPrim_fails_witness :
    let sec : Section := ⟨0, 100, [⟨0, 1, [], none, none⟩, ⟨-1, 1, [], none, none⟩,
      ⟨-2, 1, [⟨0, ⟨3, 1, 0, 0, 1⟩⟩], none, none⟩]⟩
    sec.outer 11 (-2) - sec.outer 10 (-2) = 1 ∧ sec.totalPrim 10 (-2) false = 0 := by
  constructor <;> decide +kernel

/-! ## Offset between lanes -/

/-- The offset from lane to lane adds up and changes sign with the direction; moving by it to the other
lane keeps the offset from the lane centre. -/
theorem offsetBetween_consistent (sec : Section) (s laneOff o : Rat) (a b c : Int) :
    sec.offsetBetween a b s + sec.offsetBetween b c s = sec.offsetBetween a c s ∧
    sec.offsetBetween b a s = -(sec.offsetBetween a b s) ∧
    lane2track sec laneOff s o b = lane2track sec laneOff s o a + sec.offsetBetween a b s := by
  unfold Section.offsetBetween lane2track sign
  refine ⟨by grind, by grind, ?_⟩
  split <;> split <;> grind

example : demo.offsetBetween (-1) 1 10 = 5/2 := by decide +kernel

end Verif.Road
