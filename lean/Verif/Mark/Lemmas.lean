import Verif.Mark.Model
import Verif.Mark.Spec

/-!
# Points of road marks: the search
-/

namespace Verif.Mark

open Spec

/-- Two neighbouring points: the requirement holds or they are close. -/
def Pair (R : Shape) (a b : Rat) : Prop :=
  requirement R a b = true ∨ b - a < 1 / 5 + 1 / 1000000

/-- What holds before each round. -/
structure Inv (R : Shape) (sMax : Rat) (w : Scan) : Prop where
  last : w.last = w.pivot
  room : w.pivot < sMax - 1 / 2000000
  ok : w.lastOk = w.pivot ∨ (w.pivot + 1 / 10 ≤ w.lastOk ∧ requirement R w.pivot w.lastOk = true ∧
    w.lastOk ≤ sMax - 2 / 1000000)
  move : w.cand + w.step = w.lastOk + absR w.step
  le : absR w.step ≤ 1
  ins : w.insert = true → w.lastOk + 2 * absR w.step ≤ sMax - 1 / 2000000 ∧ 1 / 10 ≤ absR w.step
  out : w.insert = false → w.cand = w.lastOk ∧ 0 < w.step ∧
    (1 / 10 ≤ w.step ∨ sMax - 1 / 2000000 ≤ w.cand + w.step)

/-- The candidate of a round. -/
theorem advance_spec {R sMax w} (h : Inv R sMax w) :
    let a := advance sMax w
    a.pivot = w.pivot ∧ a.lastOk = w.lastOk ∧ a.insert = w.insert ∧ a.pts = w.pts ∧ a.last = w.last ∧
    a.cand = w.lastOk + absR a.step ∧ 0 < absR a.step ∧ absR a.step ≤ 1 ∧
    a.cand ≤ sMax - 1 / 2000000 ∧ (1 / 10 ≤ absR a.step ∨ a.cand = sMax - 1 / 2000000) ∧
    (w.insert = true → absR a.step = absR w.step ∧ w.lastOk + 2 * absR a.step ≤ sMax - 1 / 2000000) := by
  obtain ⟨h1, h2, h3, h4, h5, h6, h7⟩ := h
  refine ⟨rfl, rfl, rfl, rfl, rfl, ?_⟩
  have hs : small / 2 = 1 / 2000000 := by decide +kernel
  cases hi : w.insert
  · obtain ⟨g1, g2, g3⟩ := h7 hi
    have e : absR w.step = w.step := by unfold absR; grind
    by_cases c : w.cand + w.step > sMax - 1 / 2000000
    · have ea : (advance sMax w).step = sMax - 1 / 2000000 - w.cand := by simp only [advance, hs, c, if_true, if_false]
      have ec : (advance sMax w).cand = sMax - 1 / 2000000 := by simp only [advance, hs, c, if_true, if_false]; grind
      have lt : w.cand < sMax - 1 / 2000000 := by grind
      have e2 : absR (advance sMax w).step = sMax - 1 / 2000000 - w.cand := by
        rw [ea]; unfold absR; grind
      grind
    · have ea : (advance sMax w).step = w.step := by simp only [advance, hs, c, if_true, if_false]
      have ec : (advance sMax w).cand = w.cand + w.step := by simp only [advance, hs, c, if_true, if_false]
      grind
  · obtain ⟨g1, g2⟩ := h6 hi
    have c : ¬ w.cand + w.step > sMax - 1 / 2000000 := by grind
    have ea : (advance sMax w).step = w.step := by simp only [advance, hs, c, if_true, if_false]
    have ec : (advance sMax w).cand = w.cand + w.step := by simp only [advance, hs, c, if_true, if_false]
    grind

/-- The measure of a round that adds no point. -/
def Shrinks (w w' : Scan) : Prop :=
  (w.insert = false ∧ w'.insert = true) ∨
  (w.insert = true ∧ w'.insert = true ∧ absR w'.step + 1 / 10 ≤ absR w.step) ∨
  (w.insert = false ∧ w'.insert = false ∧ w.lastOk + 1 / 5 ≤ w'.lastOk)

/-- The outcomes of a round. -/
inductive Round (R : Shape) (sMax : Rat) (w : Scan) : Scan × Status → Prop
  | done (w' : Scan) (pts : w'.pts = w.pts ++ [w'.cand]) (pair : Pair R w.pivot w'.cand)
      (lt : w.pivot < w'.cand) (lo : sMax - 2 / 1000000 < w'.cand) (hi : w'.cand ≤ sMax - 1 / 2000000) :
      Round R sMax w (w', .done)
  | added (w' : Scan) (pts : w'.pts = w.pts ++ [w'.pivot]) (pair : Pair R w.pivot w'.pivot)
      (far : w.pivot + 1 / 10 ≤ w'.pivot) (inv : Inv R sMax { w' with cand := w'.pivot }) :
      Round R sMax w (w', .added)
  | more (w' : Scan) (pts : w'.pts = w.pts) (pivot : w'.pivot = w.pivot) (inv : Inv R sMax w')
      (shr : Shrinks w w') : Round R sMax w (w', .more)

theorem absR_pos {x : Rat} (h : 0 ≤ x) : absR x = x := by unfold absR; grind

theorem absR_neg_half {x : Rat} (h : 0 ≤ x) : absR (-x / 2) = x / 2 := by unfold absR; grind

theorem minR_cases (a b : Rat) : (minR a b = a ∧ a ≤ b) ∨ (minR a b = b ∧ b ≤ a) := by
  unfold minR; grind

theorem next_step {p s q : Rat} (h : p ≤ s - 2 / 1000000) (g : q + 1 / 10 ≤ p) :
    let t := absR (minR (minR 1 (s - p)) (2 * (p - q)))
    0 < t ∧ t ≤ 1 ∧ (1 / 10 ≤ t ∨ s - 1 / 2000000 ≤ p + t) := by
  obtain ⟨a, b⟩ | ⟨a, b⟩ := minR_cases 1 (s - p)
  all_goals
    obtain ⟨c, d⟩ | ⟨c, d⟩ := minR_cases (minR 1 (s - p)) (2 * (p - q))
    all_goals
      simp only [c]
      rw [absR_pos (by grind)]
      grind

theorem round (R : Shape) (sMax : Rat) (w : Scan) (h : Inv R sMax w) :
    Round R sMax w (checkAndAdd R sMax (advance sMax w)) := by
  obtain ⟨e1, e2, e3, e4, e5, k1, k2, k3, k4, k5, k6⟩ := advance_spec h
  have hs : small = 1 / 1000000 := rfl
  have hm : minSeg = 1 / 5 := rfl
  generalize ha : advance sMax w = a at *
  obtain ⟨h1, h2, h3, h4, h5, h6, h7⟩ := h
  have hl : a.last = w.pivot := by rw [e5, h1]
  unfold checkAndAdd
  simp only [hs, hm]
  by_cases hq : requirement R a.pivot a.cand = true
  · simp only [hq, true_and, Bool.true_eq_false, false_and, if_false]
    rw [e1] at hq
    split
    · rename_i c
      split
      · rename_i d
        exact .done _ (by simp [e4]) (.inl hq) (by simp only; grind) (by simp only; grind) k4
      · rename_i d
        have far : w.pivot + 1 / 10 ≤ a.cand := by grind
        obtain ⟨t1, t2, t3⟩ := next_step (p := a.cand) (s := sMax) (q := a.pivot) (by grind) (by grind)
        refine .added _ (by simp [e4]) (.inl hq) far ⟨rfl, ?_, .inl rfl, ?_, ?_, ?_, ?_⟩
        · simp only; grind
        · simp only; rw [absR_pos (x := absR _) (by grind)]
        · simp only; rw [absR_pos (x := absR _) (by grind)]; exact t2
        · simp
        · intro _; exact ⟨rfl, t1, t3⟩
    · rename_i c
      have d5 : 1 / 5 ≤ absR a.step := by grind
      cases hi : w.insert
      · rw [hi] at e3
        simp only [e3, Bool.false_eq_true, if_false]
        refine .more _ (by simp [e4]) e1 ⟨by simp [hl, e1], by simp [e1, h2], .inr ?_, ?_, ?_, ?_, ?_⟩
          (.inr (.inr ⟨hi, rfl, ?_⟩))
        · refine ⟨?_, by simpa [e1] using hq, ?_⟩
          · simp only; grind
          · simp only; grind
        · simp only; rw [absR_pos (by grind)]
        · simp only; rw [absR_pos (by grind)]; grind
        · simp
        · intro _; exact ⟨rfl, by simp only; grind, .inl (by simp only; grind)⟩
        · simp only; grind
      · rw [hi] at e3
        simp only [e3, if_true]
        obtain ⟨g1, g2⟩ := k6 hi
        have ah : absR (absR a.step / 2) = absR a.step / 2 := absR_pos (by grind)
        refine .more _ (by simp [e4]) e1 ⟨by simp [hl, e1], by simp [e1, h2], .inr ?_, ?_, ?_, ?_, ?_⟩
          (.inr (.inl ⟨hi, rfl, ?_⟩))
        · refine ⟨?_, by simpa [e1] using hq, ?_⟩
          · simp only; grind
          · simp only; grind
        · simp only; rw [ah]
        · simp only; rw [ah]; grind
        · intro _; simp only; rw [ah]; grind
        · simp
        · simp only; rw [ah]; grind
  · have hq' : requirement R a.pivot a.cand = false := by simpa using hq
    simp only [hq', Bool.false_eq_true, false_and, false_or, or_false, true_and, if_true]
    split
    · rename_i c
      by_cases cl : a.lastOk > a.last + 1 / 1000000
      · have ok : w.pivot + 1 / 10 ≤ w.lastOk ∧ requirement R w.pivot w.lastOk = true ∧
            w.lastOk ≤ sMax - 2 / 1000000 := by
          rcases h3 with g | g
          · grind
          · exact g
        have nd : ¬ a.lastOk + 1 / 1000000 > sMax - 1 / 1000000 := by grind
        simp only [c, cl, and_self, if_true, nd, if_false]
        obtain ⟨t1, t2, t3⟩ := next_step (p := a.lastOk) (s := sMax) (q := a.pivot) (by grind) (by grind)
        refine .added _ (by simp [e4]) (.inl (by simpa [e2] using ok.2.1)) (by simp only; grind)
          ⟨rfl, ?_, .inl rfl, ?_, ?_, ?_, ?_⟩
        · simp only; grind
        · simp only; rw [absR_pos (x := absR _) (by grind)]
        · simp only; rw [absR_pos (x := absR _) (by grind)]; exact t2
        · simp
        · intro _; exact ⟨rfl, t1, t3⟩
      · have ep : w.lastOk = w.pivot := by
          rcases h3 with g | g
          · exact g
          · grind
        simp only [cl, and_false, if_false]
        have pr : Pair R w.pivot a.cand := .inr (by grind)
        split
        · rename_i d
          exact .done _ (by simp [e4]) pr (by simp only; grind) (by simp only; grind) k4
        · rename_i d
          have far : w.pivot + 1 / 10 ≤ a.cand := by grind
          obtain ⟨t1, t2, t3⟩ := next_step (p := a.cand) (s := sMax) (q := a.pivot) (by grind) (by grind)
          refine .added _ (by simp [e4]) pr far ⟨rfl, ?_, .inl rfl, ?_, ?_, ?_, ?_⟩
          · simp only; grind
          · simp only; rw [absR_pos (x := absR _) (by grind)]
          · simp only; rw [absR_pos (x := absR _) (by grind)]; exact t2
          · simp
          · intro _; exact ⟨rfl, t1, t3⟩
    · rename_i c
      have ah := absR_neg_half (x := absR a.step) (by grind)
      have d5 : 1 / 5 ≤ absR a.step := by grind
      refine .more _ (by simp [e4]) e1 ⟨by simp [hl, e1], by simp [e1, h2], ?_, ?_, ?_, ?_, ?_⟩ ?_
      · simpa [e1, e2] using h3
      · simp only; rw [ah]; grind
      · simp only; rw [ah]; grind
      · intro _; simp only; rw [ah]; grind
      · simp
      · cases hi : w.insert
        · exact .inl ⟨hi, rfl⟩
        · refine .inr (.inl ⟨hi, rfl, ?_⟩)
          simp only; rw [ah]
          have := (k6 hi).1
          grind

/-! ## Termination -/

theorem nat_above (x : Rat) : ∃ n : Nat, x ≤ n :=
  ⟨x.ceil.toNat, by
    have h := Rat.le_ceil (x := x)
    have g : (x.ceil : Rat) ≤ (x.ceil.toNat : Rat) := by
      have : x.ceil ≤ (x.ceil.toNat : Int) := Int.self_le_toNat _
      have h2 : ((x.ceil : Int) : Rat) ≤ ((x.ceil.toNat : Int) : Rat) := by exact_mod_cast this
      exact h2
    grind⟩

/-- The search ends. -/
def Ends (R : Shape) (sMax : Rat) (w : Scan) : Prop := ∃ n r, search R sMax n w = some r

theorem ends_of_round {R sMax w} (h : Inv R sMax w)
    (add : ∀ w' : Scan, Inv R sMax { w' with cand := w'.pivot } → w.pivot + 1 / 10 ≤ w'.pivot →
      Ends R sMax { w' with cand := w'.pivot })
    (more : ∀ w', Inv R sMax w' → w'.pivot = w.pivot → Shrinks w w' → Ends R sMax w') :
    Ends R sMax w := by
  have hr := round R sMax w h
  generalize he : checkAndAdd R sMax (advance sMax w) = x at hr
  cases hr with
  | done w' => exact ⟨1, w', by simp [search, he]⟩
  | added w' _ _ far inv =>
    obtain ⟨n, r, e⟩ := add w' inv far
    exact ⟨n + 1, r, by simp [search, he, e]⟩
  | more w' _ pv inv shr =>
    obtain ⟨n, r, e⟩ := more w' inv pv shr
    exact ⟨n + 1, r, by simp [search, he, e]⟩

theorem ends_insert {R sMax} {p : Rat}
    (add : ∀ w' : Scan, Inv R sMax { w' with cand := w'.pivot } → p + 1 / 10 ≤ w'.pivot →
      Ends R sMax { w' with cand := w'.pivot }) :
    ∀ (c : Nat) (w : Scan), Inv R sMax w → w.insert = true → w.pivot = p → absR w.step * 10 ≤ c →
      Ends R sMax w := by
  intro c
  induction c with
  | zero =>
    intro w h hi hp hc
    have := (h.ins hi).2
    simp at hc
    grind
  | succ c ih =>
    intro w h hi hp hc
    refine ends_of_round h (fun w' i f => add w' i (by grind)) (fun w' i pv sh => ?_)
    rcases sh with ⟨g, _⟩ | ⟨_, g2, g3⟩ | ⟨g, _⟩
    · simp [hi] at g
    · refine ih w' i g2 (by grind) ?_
      simp at hc
      grind
    · simp [hi] at g

theorem ends_out {R sMax} {p : Rat}
    (add : ∀ w' : Scan, Inv R sMax { w' with cand := w'.pivot } → p + 1 / 10 ≤ w'.pivot →
      Ends R sMax { w' with cand := w'.pivot }) :
    ∀ (c : Nat) (w : Scan), Inv R sMax w → w.pivot = p → (sMax - w.lastOk) * 5 ≤ c →
      Ends R sMax w := by
  have ins : ∀ w, Inv R sMax w → w.insert = true → w.pivot = p → Ends R sMax w := by
    intro w h hi hp
    obtain ⟨c, hc⟩ := nat_above (absR w.step * 10)
    exact ends_insert add c w h hi hp hc
  intro c
  induction c with
  | zero =>
    intro w h hp hc
    simp at hc
    have h2 := h.room
    rcases h.ok with g | g
    · grind
    · grind
  | succ c ih =>
    intro w h hp hc
    by_cases hi : w.insert = true
    · exact ins w h hi hp
    refine ends_of_round h (fun w' i f => add w' i (by grind)) (fun w' i pv sh => ?_)
    rcases sh with ⟨_, g⟩ | ⟨g, _⟩ | ⟨_, _, g⟩
    · exact ins w' i g (by grind)
    · exact absurd g hi
    · refine ih w' i (by grind) ?_
      simp at hc
      grind

theorem ends_all {R sMax} :
    ∀ (c : Nat) (w : Scan), Inv R sMax w → (sMax - w.pivot) * 10 ≤ c → Ends R sMax w := by
  intro c
  induction c with
  | zero =>
    intro w h hc
    simp at hc
    have h2 := h.room
    grind
  | succ c ih =>
    intro w h hc
    obtain ⟨k, hk⟩ := nat_above ((sMax - w.lastOk) * 5)
    refine ends_out (p := w.pivot) (fun w' i f => ih _ i ?_) k w h rfl hk
    simp at hc
    simp only
    grind

theorem ends {R sMax w} (h : Inv R sMax w) : Ends R sMax w := by
  obtain ⟨c, hc⟩ := nat_above ((sMax - w.pivot) * 10)
  exact ends_all c w h hc

theorem search_mono {R sMax} : ∀ {n : Nat} {w r}, search R sMax n w = some r →
    ∀ m, n ≤ m → search R sMax m w = some r := by
  intro n
  induction n with
  | zero => intro w r h; simp [search] at h
  | succ n ih =>
    intro w r h m hm
    obtain ⟨m, rfl⟩ : ∃ k, m = k + 1 := ⟨m - 1, by omega⟩
    simp only [search] at h ⊢
    split at h
    · exact h
    · exact ih h m (by omega)
    · exact ih h m (by omega)

/-! ## The points found -/

theorem steps_append {P : Rat → Rat → Prop} {b : Rat} : ∀ {l : List Rat} {a : Rat},
    l.getLast? = some a → Steps P l → P a b → Steps P (l ++ [b])
  | [], _, h, _, _ => by simp at h
  | [x], a, h, _, p => by
    simp at h; subst h; exact ⟨p, trivial⟩
  | x :: y :: t, a, h, s, p => by
    obtain ⟨s1, s2⟩ := s
    refine ⟨s1, ?_⟩
    have h' : (y :: t).getLast? = some a := by simpa [List.getLast?_cons_cons] using h
    exact steps_append h' s2 p

theorem steps_dropLast_append {P : Rat → Rat → Prop} {b : Rat} {l : List Rat}
    (h : Steps P l) : Steps P ((l ++ [b]).dropLast) := by
  simpa using h

/-- What the search keeps of the points and what it finally has. -/
theorem search_spec {R sMax} : ∀ {n : Nat} {w r}, search R sMax n w = some r → Inv R sMax w →
    w.pts.getLast? = some w.pivot → Steps (· < ·) w.pts → Steps (Pair R) w.pts →
    Steps (fun a b => a + 1 / 10 ≤ b) w.pts →
    r.pts.head? = w.pts.head? ∧ Steps (· < ·) r.pts ∧ Steps (Pair R) r.pts ∧
    Steps (fun a b => a + 1 / 10 ≤ b) r.pts.dropLast ∧ r.pts.getLast? = some r.cand ∧
    sMax - 2 / 1000000 < r.cand ∧ r.cand ≤ sMax - 1 / 2000000 := by
  intro n
  induction n with
  | zero => intro w r h; simp [search] at h
  | succ n ih =>
    intro w r h inv hl s1 s2 s3
    have hr := round R sMax w inv
    simp only [search] at h
    generalize he : checkAndAdd R sMax (advance sMax w) = x at hr h
    have hh : ∀ c, (w.pts ++ [c]).head? = w.pts.head? := by
      intro c; cases hp : w.pts with
      | nil => simp [hp] at hl
      | cons => rfl
    cases hr with
    | done w' pts pair lt lo hi =>
      simp at h
      subst h
      refine ⟨by rw [pts, hh], ?_, ?_, ?_, by simp [pts], lo, hi⟩
      · rw [pts]; exact steps_append hl s1 lt
      · rw [pts]; exact steps_append hl s2 pair
      · rw [pts]; exact steps_dropLast_append s3
    | added w' pts pair far inv' =>
      simp only at h
      obtain ⟨g1, g⟩ := ih h inv' (by simp [pts]) (by simp only; rw [pts]; exact steps_append hl s1 (by grind))
        (by simp only; rw [pts]; exact steps_append hl s2 pair)
        (by simp only; rw [pts]; exact steps_append hl s3 far)
      exact ⟨by rw [g1]; simp only; rw [pts, hh], g⟩
    | more w' pts pv inv' shr =>
      simp only at h
      obtain ⟨g1, g⟩ := ih h inv' (by rw [pts, pv]; exact hl) (by rw [pts]; exact s1)
        (by rw [pts]; exact s2) (by rw [pts]; exact s3)
      exact ⟨by rw [g1, pts], g⟩

/-- A dash can be started. -/
theorem inv_begin {R : Shape} {sMax s len : Rat} (room : s < sMax - 1 / 2000000) (pos : 0 < len)
    (long : 1 / 10 ≤ len ∨ sMax ≤ s + len) : Inv R sMax (begin s len) := by
  have hm : minR 1 len ≤ 1 ∧ 0 < minR 1 len ∧ (1 / 10 ≤ minR 1 len ∨ sMax ≤ s + minR 1 len) := by
    unfold minR; grind
  refine ⟨rfl, room, .inl rfl, ?_, ?_, by simp [begin], fun _ => ⟨rfl, hm.2.1, ?_⟩⟩
  · simp only [begin]; rw [absR_pos (by grind)]
  · simp only [begin]; rw [absR_pos (by grind)]; exact hm.1
  · simp only [begin]; grind

end Verif.Mark
