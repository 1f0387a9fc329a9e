import Verif.Traj.PolyLemmas
/-
Positions along a trajectory by distance and by time.
-/
namespace Verif.Traj

/-! Spec -/

/-- The vertex lies on the trajectory, with its distance, time and speed interpolated likewise: it is a
mix of two neighbouring vertices. -/
def OnLine (vs : List Vtx) (u : Vtx) : Prop :=
  ∃ (i : Nat) (p q : Vtx) (a : Rat), vs[i]? = some p ∧ vs[i + 1]? = some q ∧ 0 ≤ a ∧ a ≤ 1 ∧ u = mix a p q

/-- A trajectory used in the examples: 0 to 10 m in 1 s, then 10 m more in 4 s. -/
def demo : List Vtx :=
  [⟨0, 0, 0, 0, 0, 10, 0, 0⟩, ⟨10, 10, 0, 0, 1, 5/2, 0, 0⟩, ⟨20, 10, 10, 0, 5, 0, 0, 0⟩]

theorem demo_sorted : SortedS demo := by unfold SortedS demo; decide +kernel

/-- Evaluating a trajectory at a distance s between its ends gives a point of the trajectory whose
distance from the start is s up to the tolerance, whatever vertex the search starts from; the distance
reported is s itself. -/
theorem evaluate_on_line (vs : List Vtx) (s : Rat) (start : Nat) (l : Vtx) (h2 : 2 ≤ vs.length)
    (hs : SortedS vs) (hl : vs.getLast? = some l) (h0 : sAt vs 0 ≤ s) (h1 : s ≤ l.s - small) :
    ∃ (i : Nat) (u : Vtx), evaluate vs l.s s start = some (i, { u with s := s }) ∧ OnLine vs u ∧
      |u.s - s| ≤ small := by
  have hsm := small_pos
  have hlast := (sAt_last hl).1
  rw [evaluate_inside vs l.s s start hl (not_lt.mpr h1)]
  obtain ⟨ha, hb, hc⟩ := pick_spec vs s start h2 hs (by rw [hlast]; exact h1)
  generalize pick vs s start = i at ha hb hc
  have hi : i < vs.length := by omega
  have hp : vs[i]? = some vs[i] := List.getElem?_eq_getElem hi
  have hq : vs[i + 1]? = some vs[i + 1] := List.getElem?_eq_getElem ha
  rw [evalSeg_mid hp hq]
  refine ⟨i, _, rfl, ⟨i, _, _, _, hp, hq, ?_, ?_, rfl⟩, ?_⟩
  · exact (clamp_div _ _ (by rw [rmax_eq]; exact lt_of_lt_of_le hsm (le_max_right _ _))).1
  · exact (clamp_div _ _ (by rw [rmax_eq]; exact lt_of_lt_of_le hsm (le_max_right _ _))).2
  · have hpq : (vs[i]).s ≤ (vs[i + 1]).s := List.pairwise_iff_getElem.mp hs i (i + 1) hi ha (by omega)
    rw [sAt_lt hi] at hb ⊢
    rw [sAt_lt ha] at hc
    have hps : (vs[i]).s ≤ s := by
      rcases hb with rfl | hb
      · rw [sAt_lt hi] at h0; exact h0
      · linarith
    exact near_aux _ _ s hpq hps hc

example : ∃ (i : Nat) (u : Vtx), evaluate demo 20 15 0 = some (i, { u with s := 15 }) ∧ OnLine demo u ∧
    |u.s - 15| ≤ small :=
  evaluate_on_line demo 15 0 ⟨20, 10, 10, 0, 5, 0, 0, 0⟩ (by decide) demo_sorted rfl (by decide +kernel)
    (by decide +kernel)

/-- Away from the tolerance the interpolation is exact: at a distance at least the tolerance from every
vertex the point found has exactly the distance asked for. -/
theorem evaluate_exact (vs : List Vtx) (s : Rat) (start : Nat) (l : Vtx) (h2 : 2 ≤ vs.length)
    (hs : SortedS vs) (hl : vs.getLast? = some l) (h0 : sAt vs 0 ≤ s) (h1 : s ≤ l.s - small)
    (hgap : ∀ v ∈ vs, s ≤ v.s - small ∨ v.s + small < s ∨ s = v.s ∧ v.s = sAt vs 0) :
    ∃ (i : Nat) (u : Vtx), evaluate vs l.s s start = some (i, u) ∧ OnLine vs u ∧ u.s = s := by
  have hsm := small_pos
  have hlast := (sAt_last hl).1
  rw [evaluate_inside vs l.s s start hl (not_lt.mpr h1)]
  obtain ⟨ha, hb, hc⟩ := pick_spec vs s start h2 hs (by rw [hlast]; exact h1)
  generalize pick vs s start = i at ha hb hc
  have hi : i < vs.length := by omega
  have hp : vs[i]? = some vs[i] := List.getElem?_eq_getElem hi
  have hq : vs[i + 1]? = some vs[i + 1] := List.getElem?_eq_getElem ha
  rw [evalSeg_mid hp hq]
  have hpq : (vs[i]).s ≤ (vs[i + 1]).s := List.pairwise_iff_getElem.mp hs i (i + 1) hi ha (by omega)
  rw [sAt_lt hi] at hb ⊢
  rw [sAt_lt ha] at hc
  have h0i : sAt vs 0 ≤ (vs[i + 1]).s := by
    have := sAt_mono hs (Nat.zero_le (i + 1)) ha
    rwa [sAt_lt ha] at this
  have hps : (vs[i]).s ≤ s := by
    rcases hb with rfl | hb
    · rw [sAt_lt hi] at h0; exact h0
    · linarith
  have hle : s ≤ (vs[i + 1]).s := by
    rcases hgap _ (List.getElem_mem ha) with h | h | h
    · linarith
    · linarith
    · linarith [h.1]
  have hbig : small ≤ (vs[i + 1]).s - (vs[i]).s ∨ (s = (vs[i]).s ∧ (vs[i + 1]).s = s) := by
    rcases hgap _ (List.getElem_mem ha) with h | h | h
    · left; linarith
    · linarith
    · right
      have : (vs[i]).s ≥ sAt vs 0 := by
        have := sAt_mono hs (Nat.zero_le i) hi
        rwa [sAt_lt hi] at this
      exact ⟨le_antisymm (by linarith [h.1, h.2]) hps, h.1.symm⟩
  set L := rmax ((vs[i + 1]).s - (vs[i]).s) small with hL
  have hLpos : 0 < L := by rw [hL, rmax_eq]; exact lt_of_lt_of_le hsm (le_max_right _ _)
  have hus : (mix (clamp (s - (vs[i]).s) 0 L / L) vs[i] vs[i + 1]).s = s := by
    simp only [mix]
    rcases hbig with hbig | ⟨he1, he2⟩
    · have hLe : L = (vs[i + 1]).s - (vs[i]).s := by rw [hL, rmax_eq, max_eq_left hbig]
      have hcl : clamp (s - (vs[i]).s) 0 L = s - (vs[i]).s := by
        rw [clamp_eq, max_eq_right (by linarith), min_eq_right (by linarith)]
      rw [hcl, hLe]
      have hne : (vs[i + 1]).s - (vs[i]).s ≠ 0 := by linarith
      field_simp
      ring
    · rw [he2, ← he1]; ring
  refine ⟨i, _, rfl, ⟨i, _, _, clamp (s - (vs[i]).s) 0 L / L, hp, hq, (clamp_div _ _ hLpos).1,
    (clamp_div _ _ hLpos).2, ?_⟩, rfl⟩
  have : ∀ u : Vtx, u.s = s → { u with s := s } = u := by rintro ⟨⟩ h; simp_all
  exact this _ hus

example : ∃ (i : Nat) (u : Vtx), evaluate demo 20 15 0 = some (i, u) ∧ OnLine demo u ∧ u.s = 15 := by
  refine evaluate_exact demo 15 0 ⟨20, 10, 10, 0, 5, 0, 0, 0⟩ (by decide) demo_sorted rfl (by decide +kernel)
    (by decide +kernel) ?_
  decide +kernel

/-- The result does not depend on where the search starts (the index remembered from the last call),
except at distances exactly one tolerance past a vertex. -/
theorem evaluate_start_irrelevant (vs : List Vtx) (s : Rat) (a b : Nat) (l : Vtx) (h2 : 2 ≤ vs.length)
    (hs : SortedS vs) (hl : vs.getLast? = some l) (hne : ∀ v ∈ vs, s ≠ v.s + small) :
    evaluate vs l.s s a = evaluate vs l.s s b := by
  have hsm := small_pos
  by_cases h1 : s > l.s - small
  · unfold evaluate
    simp only [hl, if_pos h1]
  · have hlast := (sAt_last hl).1
    have h1' : s ≤ sAt vs (vs.length - 1) - small := by rw [hlast]; exact not_lt.mp h1
    obtain ⟨ha1, ha2, ha3⟩ := pick_spec vs s a h2 hs h1'
    obtain ⟨hb1, hb2, hb3⟩ := pick_spec vs s b h2 hs h1'
    have key : ∀ i j : Nat, i + 1 < vs.length → j + 1 < vs.length →
        s ≤ sAt vs (i + 1) + small → (j = 0 ∨ sAt vs j + small ≤ s) → ¬ i < j := by
      intro i j hi hj h3 h4 hlt
      rcases h4 with rfl | h4
      · omega
      · have hm := sAt_mono hs (show i + 1 ≤ j by omega) (by omega)
        have hj' : j < vs.length := by omega
        have := hne vs[j] (List.getElem_mem hj')
        rw [sAt_lt hj'] at h4 hm
        exact this (le_antisymm (by linarith) h4)
    have heq : pick vs s a = pick vs s b := by
      have k1 := key _ _ ha1 hb1 ha3 hb2
      have k2 := key _ _ hb1 ha1 hb3 ha2
      omega
    rw [evaluate_inside vs l.s s a hl h1, evaluate_inside vs l.s s b hl h1, heq]

example : evaluate demo 20 15 0 = evaluate demo 20 15 2 :=
  evaluate_start_irrelevant demo 15 0 2 ⟨20, 10, 10, 0, 5, 0, 0, 0⟩ (by decide) demo_sorted rfl
    (by decide +kernel)

/-- Past the end (or within the tolerance of it) the result is the last vertex, before the start the
first. -/
theorem evaluate_outside (vs : List Vtx) (s : Rat) (start : Nat) (f l : Vtx) (h2 : 2 ≤ vs.length)
    (hs : SortedS vs) (hf : vs[0]? = some f) (hl : vs.getLast? = some l) :
    (s > l.s - small → evaluate vs l.s s start = some (vs.length - 1, l)) ∧
    (s ≤ l.s - small → s ≤ f.s → ∃ u, evaluate vs l.s s start = some (0, { u with s := s }) ∧ u = f) := by
  have hsm := small_pos
  constructor
  · intro h
    have hlast := (sAt_last hl).2
    have hg : vs[vs.length - 1]? = some l := by rw [← List.getLast?_eq_getElem?]; exact hl
    unfold evaluate
    simp only [hl, if_pos h]
    unfold evalSeg
    simp only [hg, ge_iff_le, le_refl, if_true]
  · intro h h0
    have hlast := (sAt_last hl).1
    obtain ⟨ha, hb, hc⟩ := pick_spec vs s start h2 hs (by rw [hlast]; exact h)
    have hz : pick vs s start = 0 := by
      rcases hb with hb | hb
      · exact hb
      · have := sAt_mono hs (Nat.zero_le (pick vs s start)) (by omega)
        rw [sAt_eq hf] at this
        linarith
    rw [evaluate_inside vs l.s s start hl (not_lt.mpr h), hz]
    have hq : vs[0 + 1]? = some vs[0 + 1] := List.getElem?_eq_getElem (by omega)
    rw [evalSeg_mid hf hq, sAt_eq hf]
    refine ⟨_, rfl, ?_⟩
    have hcl : ∀ L : Rat, 0 < L → clamp (s - f.s) 0 L = 0 := by
      intro L hL
      rw [clamp_eq, max_eq_left (by linarith), min_eq_right (le_of_lt hL)]
    rw [hcl _ (by rw [rmax_eq]; exact lt_of_lt_of_le hsm (le_max_right _ _)), zero_div]
    cases f
    simp [mix]

example : evaluate demo 20 25 0 = some (2, ⟨20, 10, 10, 0, 5, 0, 0, 0⟩) :=
  (evaluate_outside demo 25 0 _ ⟨20, 10, 10, 0, 5, 0, 0, 0⟩ (by decide) demo_sorted rfl rfl).1 (by decide +kernel)

/-- But before the start the distance reported is the one asked for, not that of the first vertex: it is
negative. -/
theorem evaluate_reports_negative_fails :
    ∃ (vs : List Vtx) (s : Rat) (i : Nat) (u : Vtx), SortedS vs ∧ evaluate vs 20 s 0 = some (i, u) ∧
      u.s < 0 ∧ u.x = sAt vs 0 ∧ sAt vs 0 = 0 :=
  ⟨demo, -5, 0, ⟨-5, 0, 0, 0, 0, 10, 0, 0⟩, demo_sorted, by decide +kernel, by decide +kernel,
    by decide +kernel, by decide +kernel⟩

/-- Adding vertices whose distance is measured keeps the distances in order and ending at the length. -/
theorem addVertex_sorted (vs : List Vtx) (d : Rat) (v : Vtx) (hs : SortedS vs) (hd : 0 ≤ d) :
    SortedS (addVertex vs d v).1 ∧
      ∃ l, (addVertex vs d v).1.getLast? = some l ∧ l.s = (addVertex vs d v).2 ∧ l.x = v.x := by
  unfold addVertex
  cases hl : vs.getLast? with
  | none =>
    have : vs = [] := List.getLast?_eq_none_iff.mp hl
    subst this
    exact ⟨by simp [SortedS], _, rfl, rfl, rfl⟩
  | some l =>
    refine ⟨?_, _, List.getLast?_concat, rfl, rfl⟩
    unfold SortedS
    rw [List.pairwise_append]
    refine ⟨hs, by simp, ?_⟩
    intro a ha b hb
    have hb' : b = { v with s := l.s + d } := by simpa using hb
    subst hb'
    obtain ⟨i, hi, hia⟩ := List.getElem_of_mem ha
    have hlast := sAt_last hl
    have := sAt_mono hs (show i ≤ vs.length - 1 by omega) (by omega)
    rw [hlast.1, sAt_lt hi, hia] at this
    simp only
    linarith

example : SortedS (addVertex demo 3 ⟨0, 10, 13, 0, 6, 0, 0, 0⟩).1 :=
  (addVertex_sorted demo 3 _ demo_sorted (by decide +kernel)).1

/-! Position by time -/

/-- The middle part of `time2s`. -/
theorem time2s_mid (vs : List Vtx) (t : Rat) (start : Nat) (h2 : 2 ≤ vs.length)
    (h0 : timeAt vs 0 + small ≤ t) (h1 : t ≤ timeAt vs (vs.length - 1) - small) :
    time2s vs t start =
      (match vs[pickT vs t start]?, vs[pickT vs t start + 1]? with
        | some p, some q =>
          if q.time - p.time = 0 then none
          else some (.ok, rmax 0 (p.s + (t - p.time) / (q.time - p.time) * (q.s - p.s)), some (pickT vs t start))
        | _, _ => none) := by
  match vs, h2 with
  | v0 :: v1 :: rest, _ =>
    have e0 : timeAt (v0 :: v1 :: rest) 0 = v0.time := rfl
    have e1 : timeAt (v0 :: v1 :: rest) ((v0 :: v1 :: rest).length - 1) = ((v1 :: rest).getLast (by simp)).time := by
      apply timeAt_eq
      rw [← List.getLast?_eq_getElem?]
      simp [List.getLast?_cons_cons, List.getLast?_eq_some_getLast]
    rw [e0] at h0
    rw [e1] at h1
    unfold time2s
    simp only [if_neg (not_lt.mpr h0), if_neg (show ¬ t > _ from not_lt.mpr h1)]
    unfold pickT
    rfl

/-- Within the time range of a trajectory, the distance at time t is that of the segment containing t, at
the point where the time interpolated along the segment is t; the division never fails. -/
theorem time2s_inside (vs : List Vtx) (t : Rat) (start : Nat) (h2 : 2 ≤ vs.length) (hst : start < vs.length)
    (h0 : timeAt vs 0 + small ≤ t) (h1 : t < timeAt vs (vs.length - 1) - small) :
    ∃ (i : Nat) (p q : Vtx) (w : Rat), vs[i]? = some p ∧ vs[i + 1]? = some q ∧ p.time < q.time ∧
      p.time - small ≤ t ∧ t ≤ q.time - small ∧ w < 1 ∧ (mix w p q).time = t ∧
      time2s vs t start = some (.ok, max 0 (mix w p q).s, some i) := by
  have hsm := small_pos
  obtain ⟨ha, hb, hc, hz⟩ := pickT_spec vs t start h2 hst h0 h1
  rw [time2s_mid vs t start h2 h0 (le_of_lt h1)]
  generalize pickT vs t start = i at ha hb hc hz
  have hi : i < vs.length := by omega
  have hp : vs[i]? = some vs[i] := List.getElem?_eq_getElem hi
  have hq : vs[i + 1]? = some vs[i + 1] := List.getElem?_eq_getElem ha
  rw [timeAt_eq hp] at hb hz
  rw [timeAt_eq hq] at hc hz
  have hpos : 0 < (vs[i + 1]).time - (vs[i]).time := by linarith
  refine ⟨i, _, _, (t - (vs[i]).time) / ((vs[i + 1]).time - (vs[i]).time), hp, hq, hz, hb, hc, ?_, ?_, ?_⟩
  · rw [div_lt_one hpos]; linarith
  · simp only [mix]
    have := ne_of_gt hpos
    field_simp
    ring
  · simp only [hp, hq, if_neg (ne_of_gt hpos), rmax_eq]
    congr 4
    simp only [mix]
    ring

example : ∃ (i : Nat) (p q : Vtx) (w : Rat), demo[i]? = some p ∧ demo[i + 1]? = some q ∧ p.time < q.time ∧
      p.time - small ≤ 3 ∧ 3 ≤ q.time - small ∧ w < 1 ∧ (mix w p q).time = 3 ∧
      time2s demo 3 2 = some (.ok, max 0 (mix w p q).s, some i) :=
  time2s_inside demo 3 2 (by decide) (by decide) (by decide +kernel) (by decide +kernel)

/-- Spec: the time stamps never decrease. -/
def SortedT (vs : List Vtx) : Prop := vs.Pairwise fun p q => p.time ≤ q.time

theorem timeAt_mono {vs : List Vtx} (hs : SortedT vs) {i j : Nat} (hij : i ≤ j) (hj : j < vs.length) :
    timeAt vs i ≤ timeAt vs j := by
  rcases Nat.eq_or_lt_of_le hij with rfl | hlt
  · exact le_refl _
  · have hi : i < vs.length := by omega
    rw [timeAt_eq (List.getElem?_eq_getElem hi), timeAt_eq (List.getElem?_eq_getElem hj)]
    exact List.pairwise_iff_getElem.mp hs i j hi hj hlt

/-- The result of a look-up by time does not depend on the index the search starts from (the one given
or the one remembered), except exactly one tolerance before a time stamp. -/
theorem time2s_start_irrelevant (vs : List Vtx) (t : Rat) (a b : Nat) (h2 : 2 ≤ vs.length)
    (ha : a < vs.length) (hb : b < vs.length) (hs : SortedT vs) (hne : ∀ v ∈ vs, t ≠ v.time - small) :
    time2s vs t a = time2s vs t b := by
  have hsm := small_pos
  by_cases h0 : timeAt vs 0 + small ≤ t
  · by_cases h1 : t ≤ timeAt vs (vs.length - 1) - small
    · have hl : vs.length - 1 < vs.length := by omega
      have h1' : t < timeAt vs (vs.length - 1) - small := by
        refine lt_of_le_of_ne h1 ?_
        rw [timeAt_eq (List.getElem?_eq_getElem hl)]
        exact hne _ (List.getElem_mem hl)
      obtain ⟨a1, a2, a3, _⟩ := pickT_spec vs t a h2 ha h0 h1'
      obtain ⟨b1, b2, b3, _⟩ := pickT_spec vs t b h2 hb h0 h1'
      have key : ∀ i j : Nat, i + 1 < vs.length → j + 1 < vs.length →
          t ≤ timeAt vs (i + 1) - small → timeAt vs j - small ≤ t → ¬ i < j := by
        intro i j hi hj h3 h4 hlt
        have hm := timeAt_mono hs (show i + 1 ≤ j by omega) (by omega)
        have hj' : j < vs.length := by omega
        have := hne vs[j] (List.getElem_mem hj')
        rw [timeAt_eq (List.getElem?_eq_getElem hj')] at h4 hm
        exact this (le_antisymm (by linarith) h4)
      have heq : pickT vs t a = pickT vs t b := by
        have k1 := key _ _ a1 b1 a3 b2
        have k2 := key _ _ b1 a1 b3 a2
        omega
      rw [time2s_mid vs t a h2 h0 h1, time2s_mid vs t b h2 h0 h1, heq]
    · match vs, h2 with
      | v0 :: v1 :: rest, _ =>
        have e1 : timeAt (v0 :: v1 :: rest) ((v0 :: v1 :: rest).length - 1) =
            ((v1 :: rest).getLast (by simp)).time := by
          apply timeAt_eq
          rw [← List.getLast?_eq_getElem?]
          simp [List.getLast?_cons_cons, List.getLast?_eq_some_getLast]
        rw [e1] at h1
        have h0' : ¬ t < v0.time + small := not_lt.mpr h0
        unfold time2s
        simp only [if_neg h0', if_pos (show t > _ from not_le.mp h1)]
  · match vs, h2 with
    | v0 :: v1 :: rest, _ =>
      have h0' : t < v0.time + small := not_le.mp h0
      unfold time2s
      simp only [if_pos h0']

example : time2s demo 3 0 = time2s demo 3 2 :=
  time2s_start_irrelevant demo 3 0 2 (by decide) (by decide) (by decide)
    (by unfold SortedT demo; decide +kernel) (by decide +kernel)

/-- Outside its time range a trajectory reports the end passed, with a code telling so unless the time is
within the tolerance. -/
theorem time2s_outside (v0 v1 : Vtx) (rest : List Vtx) (t : Rat) (start : Nat) (l : Vtx)
    (hl : (v0 :: v1 :: rest).getLast? = some l) :
    (t ≤ v0.time - small → time2s (v0 :: v1 :: rest) t start = some (.timePrior, 0, some 0)) ∧
    (v0.time - small < t → t < v0.time + small →
      time2s (v0 :: v1 :: rest) t start = some (.ok, 0, some 0)) ∧
    (v0.time + small ≤ t → l.time - small < t → t < l.time + small →
      time2s (v0 :: v1 :: rest) t start = some (.ok, l.s, some (rest.length + 1))) ∧
    (v0.time + small ≤ t → l.time + small ≤ t →
      time2s (v0 :: v1 :: rest) t start = some (.timePast, l.s, some (rest.length + 1))) := by
  have hsm := small_pos
  have hlast : (v1 :: rest).getLast (by simp) = l := by
    simpa [List.getLast?_cons_cons, List.getLast?_eq_some_getLast] using hl
  refine ⟨?_, ?_, ?_, ?_⟩
  · intro h
    unfold time2s
    simp only [if_pos (show t < v0.time + small by linarith), if_neg (show ¬ t > v0.time - small by linarith)]
  · intro h h'
    unfold time2s
    simp only [if_pos h', if_pos (show t > v0.time - small from h)]
  · intro h h' h''
    unfold time2s
    simp only [if_neg (not_lt.mpr h), hlast, if_pos (show t > l.time - small from h'), if_pos h'']
  · intro h h'
    unfold time2s
    simp only [if_neg (not_lt.mpr h), hlast, if_pos (show t > l.time - small by linarith), if_neg (not_lt.mpr h')]

example : time2s demo 7 0 = some (.timePast, 20, some 2) :=
  (time2s_outside _ _ _ 7 0 ⟨20, 10, 10, 0, 5, 0, 0, 0⟩ rfl).2.2.2 (by decide +kernel) (by decide +kernel)

/-- Exactly one tolerance before the last time stamp the look-up reads past the end of the vertices. -/
theorem time2s_reads_past_end_fails :
    ∃ (vs : List Vtx) (t : Rat) (start : Nat), SortedS vs ∧ SortedT vs ∧ start < vs.length ∧
      timeAt vs 0 < t ∧ t < timeAt vs (vs.length - 1) ∧ time2s vs t start = none :=
  ⟨demo, 5 - small, 0, demo_sorted, by unfold SortedT demo; decide +kernel, by decide, by decide +kernel,
    by decide +kernel, by decide +kernel⟩

/-- Looking ahead reports reaching past the end exactly when it does (up to the tolerance). -/
theorem ahead_code (vs : List Vtx) (l : Vtx) (s0 d : Rat) (start : Nat) :
    (findAhead vs l.s s0 d start).1 = .distPast ↔ s0 + d > l.s + small := by
  unfold findAhead
  by_cases h : s0 + d > l.s + small <;> simp [h]

example : (findAhead demo 20 15 10 0).1 = .distPast :=
  (ahead_code demo ⟨20, 10, 10, 0, 5, 0, 0, 0⟩ 15 10 0).mpr (by decide +kernel)

end Verif.Traj
