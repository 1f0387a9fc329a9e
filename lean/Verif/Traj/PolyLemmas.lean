import Verif.Traj.PolyModel
import Mathlib.Algebra.Order.Field.Rat
import Mathlib.Algebra.Order.Field.Basic
import Mathlib.Tactic.Linarith
import Mathlib.Tactic.Ring
import Mathlib.Tactic.FieldSimp
import Mathlib.Tactic.Positivity
import Mathlib.Tactic.NormNum
/-
Lemmas on the searches along a trajectory.
-/
namespace Verif.Traj

theorem small_pos : (0 : Rat) < small := by unfold small; norm_num

theorem rmax_eq (x y : Rat) : rmax x y = max x y := by
  unfold rmax
  by_cases h : y > x
  · rw [if_pos h, max_eq_right (le_of_lt h)]
  · rw [if_neg h, max_eq_left (not_lt.mp h)]

theorem rmin_eq (x y : Rat) : rmin x y = min x y := by
  unfold rmin
  by_cases h : y < x
  · rw [if_pos h, min_eq_right (le_of_lt h)]
  · rw [if_neg h, min_eq_left (not_lt.mp h)]

theorem clamp_eq (x lo hi : Rat) : clamp x lo hi = min hi (max lo x) := by
  unfold clamp; rw [rmax_eq, rmin_eq]

/-- Spec: the distances along the trajectory never decrease. -/
def SortedS (vs : List Vtx) : Prop := vs.Pairwise fun p q => p.s ≤ q.s

theorem sAt_eq {vs : List Vtx} {i : Nat} {p : Vtx} (h : vs[i]? = some p) : sAt vs i = p.s := by
  simp [sAt, h]

theorem timeAt_eq {vs : List Vtx} {i : Nat} {p : Vtx} (h : vs[i]? = some p) : timeAt vs i = p.time := by
  simp [timeAt, h]

theorem sAt_lt {vs : List Vtx} {i : Nat} (h : i < vs.length) : sAt vs i = (vs[i]).s := by
  simp [sAt, h]

theorem sAt_mono {vs : List Vtx} (hs : SortedS vs) {i j : Nat} (hij : i ≤ j) (hj : j < vs.length) :
    sAt vs i ≤ sAt vs j := by
  rcases Nat.eq_or_lt_of_le hij with rfl | hlt
  · exact le_refl _
  · have hi : i < vs.length := by omega
    rw [sAt_lt hi, sAt_lt hj]
    exact List.pairwise_iff_getElem.mp hs i j hi hj hlt

theorem sAt_last {vs : List Vtx} {l : Vtx} (h : vs.getLast? = some l) :
    sAt vs (vs.length - 1) = l.s ∧ 0 < vs.length := by
  have hne : vs ≠ [] := by rintro rfl; simp at h
  have hlen : 0 < vs.length := List.length_pos_iff.mpr hne
  refine ⟨?_, hlen⟩
  rw [List.getLast?_eq_getElem?] at h
  exact sAt_eq h

theorem forwardS_spec (vs : List Vtx) (s : Rat) (hend : s ≤ sAt vs (vs.length - 1) + small) :
    ∀ (fuel i : Nat), i < vs.length - 1 → vs.length ≤ fuel + i → s > sAt vs i + small →
      i ≤ forwardS vs s fuel i ∧ forwardS vs s fuel i < vs.length - 1 ∧
      sAt vs (forwardS vs s fuel i) + small < s ∧ s ≤ sAt vs (forwardS vs s fuel i + 1) + small := by
  intro fuel
  induction fuel with
  | zero => intro i hi hf; omega
  | succ fuel ih =>
    intro i hi hf hs
    unfold forwardS
    by_cases hc : i < vs.length - 1 ∧ s > sAt vs (i + 1) + small
    · rw [if_pos hc]
      have hne : i + 1 ≠ vs.length - 1 := by
        intro he
        have h2 := hc.2
        rw [he] at h2
        linarith
      obtain ⟨h1, h2⟩ := ih (i + 1) (by omega) (by omega) hc.2
      exact ⟨by omega, h2⟩
    · rw [if_neg hc]
      refine ⟨le_refl _, hi, hs, ?_⟩
      by_contra hh
      exact hc ⟨hi, not_le.mp hh⟩

theorem backwardS_spec (vs : List Vtx) (s : Rat) :
    ∀ i : Nat, s < sAt vs i + small →
      backwardS vs s i ≤ i ∧ (backwardS vs s i = 0 ∨ sAt vs (backwardS vs s i) + small ≤ s) ∧
      (backwardS vs s i < i → s < sAt vs (backwardS vs s i + 1) + small) ∧ (i ≠ 0 → backwardS vs s i < i) := by
  intro i
  induction i with
  | zero => intro _; simp [backwardS]
  | succ i ih =>
    intro hs
    unfold backwardS
    rw [if_pos hs]
    by_cases hc : s < sAt vs i + small
    · obtain ⟨h1, h2, h3, h4⟩ := ih hc
      refine ⟨by omega, h2, ?_, fun _ => by omega⟩
      intro _
      by_cases h0 : i = 0
      · subst h0
        have : backwardS vs s 0 = 0 := rfl
        rw [this]; exact hs
      · exact h3 (h4 h0)
    · have hst : backwardS vs s i = i := by
        cases i with
        | zero => rfl
        | succ k => unfold backwardS; rw [if_neg hc]
      rw [hst]
      exact ⟨by omega, Or.inr (not_lt.mp hc), fun _ => hs, fun _ => by omega⟩

/-- The index chosen by `evaluate` inside the trajectory. -/
def pick (vs : List Vtx) (s : Rat) (start : Nat) : Nat :=
  let i := min start (vs.length - 1)
  if s > sAt vs i + small then forwardS vs s vs.length i
  else if s < sAt vs i + small then backwardS vs s i
  else i

theorem pick_spec (vs : List Vtx) (s : Rat) (start : Nat) (h2 : 2 ≤ vs.length) (hs : SortedS vs)
    (hend : s ≤ sAt vs (vs.length - 1) - small) :
    pick vs s start + 1 < vs.length ∧ (pick vs s start = 0 ∨ sAt vs (pick vs s start) + small ≤ s) ∧
    s ≤ sAt vs (pick vs s start + 1) + small := by
  have hsm := small_pos
  unfold pick
  simp only
  by_cases h1 : s > sAt vs (min start (vs.length - 1)) + small
  · rw [if_pos h1]
    have hlt : min start (vs.length - 1) < vs.length - 1 := by
      rcases Nat.lt_or_ge (min start (vs.length - 1)) (vs.length - 1) with h | h
      · exact h
      · have : min start (vs.length - 1) = vs.length - 1 := by omega
        rw [this] at h1; linarith
    obtain ⟨_, hb, hc, hd⟩ := forwardS_spec vs s (by linarith) vs.length _ hlt (by omega) h1
    exact ⟨by omega, Or.inr (le_of_lt hc), hd⟩
  · rw [if_neg h1]
    by_cases h3 : s < sAt vs (min start (vs.length - 1)) + small
    · rw [if_pos h3]
      obtain ⟨ha, hb, hc, hd⟩ := backwardS_spec vs s _ h3
      by_cases h0 : min start (vs.length - 1) = 0
      · rw [h0] at h3 ⊢
        have : backwardS vs s 0 = 0 := rfl
        rw [this]
        have := sAt_mono hs (show 0 ≤ 0 + 1 by omega) (by omega)
        exact ⟨by omega, Or.inl rfl, by linarith⟩
      · have hlt := hd h0
        exact ⟨by omega, hb, le_of_lt (hc hlt)⟩
    · rw [if_neg h3]
      have heq : s = sAt vs (min start (vs.length - 1)) + small := le_antisymm (not_lt.mp h1) (not_lt.mp h3)
      have hlt : min start (vs.length - 1) < vs.length - 1 := by
        rcases Nat.lt_or_ge (min start (vs.length - 1)) (vs.length - 1) with h | h
        · exact h
        · have : min start (vs.length - 1) = vs.length - 1 := by omega
          rw [this] at heq; linarith
      have := sAt_mono hs (show min start (vs.length - 1) ≤ min start (vs.length - 1) + 1 by omega) (by omega)
      exact ⟨by omega, Or.inr (le_of_eq heq.symm), by linarith⟩

theorem evaluate_inside (vs : List Vtx) (length s : Rat) (start : Nat) {l : Vtx}
    (hl : vs.getLast? = some l) (hin : ¬ s > l.s - small) :
    evaluate vs length s start =
      (match evalSeg vs (pick vs s start) (s - sAt vs (pick vs s start)) with
        | none => none
        | some pos => some (pick vs s start, { pos with s := s })) := by
  unfold evaluate pick
  simp only [hl, if_neg hin]
  by_cases h1 : s > sAt vs (min start (vs.length - 1)) + small
  · simp only [if_pos h1]; rfl
  · simp only [if_neg h1]
    by_cases h3 : s < sAt vs (min start (vs.length - 1)) + small
    · simp only [if_pos h3]; rfl
    · simp only [if_neg h3]; rfl

theorem evalSeg_mid {vs : List Vtx} {i : Nat} {p q : Vtx} (hp : vs[i]? = some p) (hq : vs[i + 1]? = some q)
    (l : Rat) :
    evalSeg vs i l = some (mix (clamp l 0 (rmax (q.s - p.s) small) / rmax (q.s - p.s) small) p q) := by
  have hi : i + 1 < vs.length := by
    rw [List.getElem?_eq_some_iff] at hq
    exact hq.1
  unfold evalSeg
  simp only [hp, hq, if_neg (show ¬ i ≥ vs.length - 1 by omega)]

theorem clamp_div (l L : Rat) (hL : 0 < L) : 0 ≤ clamp l 0 L / L ∧ clamp l 0 L / L ≤ 1 := by
  have hc : 0 ≤ clamp l 0 L ∧ clamp l 0 L ≤ L := by
    rw [clamp_eq]
    exact ⟨le_min (le_of_lt hL) (le_max_left _ _), min_le_left _ _⟩
  exact ⟨div_nonneg hc.1 (le_of_lt hL), (div_le_one hL).mpr hc.2⟩

theorem near_aux (p q s : Rat) (hpq : p ≤ q) (h0 : p ≤ s) (h1 : s ≤ q + small) :
    |(1 - clamp (s - p) 0 (rmax (q - p) small) / rmax (q - p) small) * p +
      clamp (s - p) 0 (rmax (q - p) small) / rmax (q - p) small * q - s| ≤ small := by
  have hsm := small_pos
  rw [rmax_eq, clamp_eq]
  have hl : max 0 (s - p) = s - p := max_eq_right (by linarith)
  rw [hl]
  by_cases hD : small ≤ q - p
  · rw [max_eq_left hD]
    have hDp : 0 < q - p := by linarith
    by_cases hin : s - p ≤ q - p
    · rw [min_eq_right hin]
      have : (1 - (s - p) / (q - p)) * p + (s - p) / (q - p) * q - s = 0 := by field_simp; ring
      rw [this]; simp; linarith
    · rw [min_eq_left (le_of_lt (not_le.mp hin)), div_self (ne_of_gt hDp)]
      rw [abs_le]; constructor <;> linarith
  · have hD' : q - p < small := not_le.mp hD
    rw [max_eq_right (le_of_lt hD')]
    by_cases hin : s - p ≤ small
    · rw [min_eq_right hin]
      have hw : 0 ≤ (s - p) / small ∧ (s - p) / small ≤ 1 :=
        ⟨div_nonneg (by linarith) (le_of_lt hsm), (div_le_one hsm).mpr hin⟩
      have e : (1 - (s - p) / small) * p + (s - p) / small * q - s =
          (s - p) / small * (q - p) - (s - p) := by ring
      rw [e]
      have hb : 0 ≤ (s - p) / small * (q - p) := mul_nonneg hw.1 (by linarith)
      have hc : (s - p) / small * (q - p) ≤ 1 * (q - p) := mul_le_mul_of_nonneg_right hw.2 (by linarith)
      rw [abs_le]; constructor <;> linarith
    · rw [min_eq_left (le_of_lt (not_le.mp hin)), div_self (ne_of_gt hsm)]
      rw [abs_le]; constructor <;> linarith

theorem forwardT_spec (vs : List Vtx) (t : Rat) :
    ∀ (fuel i : Nat), i ≤ vs.length - 1 → vs.length ≤ fuel + i → 0 < vs.length → timeAt vs i - small ≤ t →
      forwardT vs t fuel i ≤ vs.length - 1 ∧ timeAt vs (forwardT vs t fuel i) - small ≤ t ∧
      (forwardT vs t fuel i < vs.length - 1 → t < timeAt vs (forwardT vs t fuel i + 1) - small) := by
  intro fuel
  induction fuel with
  | zero => intro i hi hf h0; omega
  | succ fuel ih =>
    intro i hi hf h0 ht
    unfold forwardT
    by_cases hc : i < vs.length - 1
    · rw [if_pos hc]
      by_cases h1 : t < timeAt vs (i + 1) - small
      · rw [if_pos h1]
        exact ⟨hi, ht, fun _ => h1⟩
      · rw [if_neg h1]
        exact ih (i + 1) (by omega) (by omega) h0 (not_lt.mp h1)
    · rw [if_neg hc]
      exact ⟨hi, ht, fun h => absurd h hc⟩

theorem backwardT_spec (vs : List Vtx) (t : Rat) :
    ∀ i : Nat, t ≤ timeAt vs (i + 1) - small →
      backwardT vs t i ≤ i ∧ (backwardT vs t i = 0 ∨ timeAt vs (backwardT vs t i) - small < t) ∧
      t ≤ timeAt vs (backwardT vs t i + 1) - small := by
  intro i
  induction i with
  | zero => intro h; exact ⟨le_refl _, Or.inl rfl, h⟩
  | succ i ih =>
    intro h
    unfold backwardT
    by_cases hc : t > timeAt vs (i + 1) - small
    · rw [if_pos hc]
      exact ⟨le_refl _, Or.inr hc, h⟩
    · rw [if_neg hc]
      obtain ⟨h1, h2, h3⟩ := ih (not_lt.mp hc)
      exact ⟨by omega, h2, h3⟩

/-- The index found by `time2s` inside the time range. -/
def pickT (vs : List Vtx) (t : Rat) (start : Nat) : Nat :=
  if t < timeAt vs start - small then backwardT vs t (start - 1) else forwardT vs t vs.length start

theorem pickT_spec (vs : List Vtx) (t : Rat) (start : Nat) (h2 : 2 ≤ vs.length) (hst : start < vs.length)
    (h0 : timeAt vs 0 + small ≤ t) (h1 : t < timeAt vs (vs.length - 1) - small) :
    pickT vs t start + 1 < vs.length ∧ timeAt vs (pickT vs t start) - small ≤ t ∧
    t ≤ timeAt vs (pickT vs t start + 1) - small ∧
    timeAt vs (pickT vs t start) < timeAt vs (pickT vs t start + 1) := by
  have hsm := small_pos
  unfold pickT
  by_cases hc : t < timeAt vs start - small
  · rw [if_pos hc]
    have hs0 : start ≠ 0 := by rintro rfl; linarith
    have he : start - 1 + 1 = start := by omega
    obtain ⟨ha, hb, hd⟩ := backwardT_spec vs t (start - 1) (by rw [he]; exact le_of_lt hc)
    rcases hb with hb | hb
    · rw [hb] at hd ⊢; exact ⟨by omega, by linarith, hd, by linarith⟩
    · exact ⟨by omega, le_of_lt hb, hd, by linarith⟩
  · rw [if_neg hc]
    obtain ⟨ha, hb, hd⟩ := forwardT_spec vs t vs.length start (by omega) (by omega) (by omega) (not_lt.mp hc)
    have hlt : forwardT vs t vs.length start < vs.length - 1 := by
      rcases Nat.lt_or_ge (forwardT vs t vs.length start) (vs.length - 1) with h | h
      · exact h
      · have he : forwardT vs t vs.length start = vs.length - 1 := by omega
        rw [he] at hb; linarith
    exact ⟨by omega, hb, le_of_lt (hd hlt), by linarith [hd hlt]⟩

end Verif.Traj
