import Verif.Traj.ShapeModel
import Verif.Traj.PolyLemmas
/-
Clothoids and clothoid splines with time stamps, and their sampling to a polyline.
-/
namespace Verif.Traj

/-- A clothoid that starts at time zero is passed at constant pace. -/
theorem clothoid_from_zero (len tEnd p : Rat) (h0 : 0 ≤ p) (h1 : p ≤ tEnd) :
    clothoidTimeS len 0 tEnd p = len * p / tEnd := by
  simp [clothoidTimeS, h0, h1]

example : clothoidTimeS 100 0 10 5 = 50 := by rw [clothoid_from_zero 100 10 5 (by norm_num) (by norm_num)]; norm_num

/-- A clothoid with any other start time never ends where it should: at its start it is off by
`len * tStart / (tEnd - tStart)`, and as much at its end. -/
theorem clothoid_start_time_fails (len tStart tEnd : Rat) (hl : 0 < len) (hs : tStart ≠ 0) (h : tStart < tEnd) :
    clothoidTimeS len tStart tEnd tStart ≠ 0 ∧ clothoidTimeS len tStart tEnd tEnd ≠ len := by
  have hd : tEnd - tStart ≠ 0 := by linarith
  constructor
  · simp only [clothoidTimeS, ge_iff_le, le_refl, h.le, and_self, if_true, sub_self, zero_sub]
    refine div_ne_zero (mul_ne_zero hl.ne' (neg_ne_zero.mpr hs)) hd
  · simp only [clothoidTimeS, ge_iff_le, le_refl, h.le, and_self, if_true]
    intro e
    rw [div_eq_iff hd] at e
    have := mul_left_cancel₀ hl.ne' e
    apply hs; linarith

example : clothoidTimeS 100 5 15 5 = -50 := by decide +kernel

/-- Outside the time span the end of the clothoid is used, also before the start. -/
theorem clothoid_outside (len tStart tEnd p : Rat) (h : p < tStart ∨ tEnd < p) :
    clothoidTimeS len tStart tEnd p = len := by
  simp only [clothoidTimeS]
  rw [if_neg]
  rintro ⟨h1, h2⟩
  rcases h with h | h <;> linarith

example : clothoidTimeS 100 5 15 4 = 100 := clothoid_outside _ _ _ _ (Or.inl (by norm_num))

/-! Splines -/

/-- Start time of the segment after, or the end time. -/
def nextTime (tEnd : Rat) (post : List Seg) : Rat := ((post.head?).map Seg.time).getD tEnd

theorem splineSeg_at (tEnd p : Rat) : ∀ (pre : List Seg) (g : Seg) (post : List Seg) (s : Rat),
    (pre ++ g :: post).Pairwise (fun a b => a.time ≤ b.time) → g.time ≤ p →
    (post ≠ [] → p ≤ nextTime tEnd post - small) →
    splineSeg tEnd p s (pre ++ g :: post) =
      some (s + totalLen pre + (p - g.time) / (nextTime tEnd post - g.time) * g.len) := by
  intro pre
  induction pre with
  | nil =>
    intro g post s _ _ hn
    cases post with
    | nil => simp [splineSeg, nextTime, totalLen]
    | cons g' rest =>
      have := hn (by simp)
      simp only [nextTime, List.head?_cons, Option.map_some, Option.getD_some] at this ⊢
      simp only [List.nil_append, splineSeg]
      rw [if_neg (not_lt.mpr this)]
      simp [totalLen]
  | cons a pre ih =>
    intro g post s hp h0 hn
    obtain ⟨b, rest, hb⟩ : ∃ b rest, pre ++ g :: post = b :: rest := by
      cases pre with
      | nil => exact ⟨_, _, rfl⟩
      | cons c cs => exact ⟨_, _, rfl⟩
    have hp' : (pre ++ g :: post).Pairwise (fun a b => a.time ≤ b.time) := by
      rw [List.cons_append, List.pairwise_cons] at hp; exact hp.2
    have hbg : b.time ≤ g.time := by
      have hm : g ∈ b :: rest := by rw [← hb]; simp
      rw [hb] at hp'
      rcases List.mem_cons.mp hm with e | e
      · rw [e]
      · exact (List.pairwise_cons.mp hp').1 g e
    have hi := ih g post (s + a.len) hp' h0 hn
    rw [List.cons_append, hb]
    simp only [splineSeg]
    have hsm := small_pos
    rw [if_pos (by linarith), ← hb, hi]
    simp only [totalLen, List.map_cons, List.sum_cons]
    congr 1; ring

/-- Within a segment of a clothoid spline, the place is the length of the segments before plus the share of
the time of the segment that has passed, as a share of its length. -/
theorem spline_time (pre : List Seg) (g : Seg) (post : List Seg) (tEnd p : Rat)
    (hs : (pre ++ g :: post).Pairwise (fun a b => a.time ≤ b.time)) (h0 : g.time ≤ p) (h1 : p ≤ tEnd)
    (hn : post ≠ [] → p ≤ nextTime tEnd post - small) :
    splineTimeS (pre ++ g :: post) tEnd p =
      some (totalLen pre + (p - g.time) / (nextTime tEnd post - g.time) * g.len) := by
  have key := splineSeg_at tEnd p pre g post 0 hs h0 hn
  rw [zero_add] at key
  cases pre with
  | nil =>
    simp only [List.nil_append, splineTimeS] at key ⊢
    rw [if_pos ⟨h0, h1⟩, key]
  | cons a pre =>
    have ha : a.time ≤ p := by
      rw [List.cons_append, List.pairwise_cons] at hs
      have := hs.1 g (by simp)
      linarith
    simp only [List.cons_append, splineTimeS] at key ⊢
    rw [if_pos ⟨ha, h1⟩, key]

example : splineTimeS [⟨10, 2⟩, ⟨20, 4⟩, ⟨5, 8⟩] 9 5 = some 15 := by
  have := spline_time [⟨10, 2⟩] ⟨20, 4⟩ [⟨5, 8⟩] 9 5 (by norm_num) (by norm_num) (by norm_num)
    (by intro _; norm_num [nextTime, small])
  norm_num [totalLen, nextTime] at this
  simpa using this

/-- A copy of a clothoid spline loses its end time: any time asked for gives the end of the spline. -/
theorem spline_copy_fails (gs : List Seg) (g : Seg) (rest : List Seg) (tEnd p : Rat) (hgs : gs = g :: rest)
    (hp : 0 < p) :
    splineTimeS (splineCopy gs tEnd).1 (splineCopy gs tEnd).2 p = some (totalLen gs) := by
  subst hgs
  show splineTimeS (g :: rest) 0 p = _
  simp only [splineTimeS]
  rw [if_neg]
  rintro ⟨_, h⟩; linarith

example : splineTimeS [⟨10, 2⟩, ⟨20, 4⟩] 9 5 = some 14 ∧
    splineTimeS (splineCopy [⟨10, 2⟩, ⟨20, 4⟩] 9).1 (splineCopy [⟨10, 2⟩, ⟨20, 4⟩] 9).2 5 = some 30 := by
  decide +kernel

/-! Sampling -/

/-- Length of the segments before segment `j`. -/
def lenBefore (gs : List Seg) (j : Nat) : Rat := totalLen (gs.take j)

theorem lenBefore_succ (gs : List Seg) (j : Nat) (g : Seg) (h : gs[j]? = some g) :
    lenBefore gs (j + 1) = lenBefore gs j + g.len := by
  simp [lenBefore, totalLen, List.take_add_one, h]

theorem lenBefore_all (gs : List Seg) : lenBefore gs gs.length = totalLen gs := by
  simp [lenBefore]

theorem lenBefore_mono (gs : List Seg) (h1 : ∀ g ∈ gs, 1 ≤ g.len) (j k : Nat) (hjk : j ≤ k) :
    lenBefore gs j ≤ lenBefore gs k := by
  induction k, hjk using Nat.le_induction with
  | base => exact le_refl _
  | succ k _ ih =>
    cases h : gs[k]? with
    | none =>
      have : lenBefore gs (k + 1) = lenBefore gs k := by simp [lenBefore, totalLen, List.take_add_one, h]
      rw [this]; exact ih
    | some g =>
      rw [lenBefore_succ gs k g h]
      have := h1 g (List.mem_of_getElem? h)
      linarith

/-- Spec: vertex `i` of the polyline is taken from the place at distance `i` along the spline. -/
def Placed (gs : List Seg) (i : Nat) (v : Nat × Rat) : Prop :=
  ∃ g, gs[v.1]? = some g ∧ lenBefore gs v.1 + v.2 = i ∧ -small < v.2 ∧ v.2 ≤ g.len

theorem splineVerts_placed (gs : List Seg) (steps : Nat) (h1 : ∀ g ∈ gs, 1 ≤ g.len)
    (hst : (steps : Rat) ≤ totalLen gs) :
    ∀ (fuel i j : Nat) (g : Seg), steps + 1 ≤ fuel + i → i ≤ steps → gs[j]? = some g →
      -small < (i : Rat) - lenBefore gs j → (i : Rat) ≤ lenBefore gs j + g.len - small + 1 →
      ∃ r, splineVerts gs (totalLen gs) steps fuel i j (lenBefore gs j) = some r ∧
        r.length + i = steps + 1 ∧
        (∀ k v, r[k]? = some v → k + i < steps → Placed gs (k + i) v) ∧
        (∀ v, r[steps - i]? = some v → v.1 = gs.length - 1 ∧
          ∃ m, v.2 = totalLen gs - lenBefore gs m ∧
            (i < steps → ∃ gm, gs[m]? = some gm ∧ (steps : Rat) - 1 ≤ lenBefore gs m + gm.len - small) ∧
            (i = steps → m = j)) := by
  have hsm := small_pos
  intro fuel
  induction fuel with
  | zero => intro i j g hf hi; omega
  | succ n ih =>
    intro i j g hf hi hg hlo hhi
    by_cases hc : i < steps
    · -- the segment used for this vertex
      have hnext : ∃ (j' : Nat) (g' : Seg), gs[j']? = some g' ∧
          (if (i : Rat) > lenBefore gs j + g.len - small then (j + 1, lenBefore gs j + g.len)
            else (j, lenBefore gs j)) = (j', lenBefore gs j') ∧
          -small < (i : Rat) - lenBefore gs j' ∧ (i : Rat) ≤ lenBefore gs j' + g'.len - small := by
        by_cases hs : (i : Rat) > lenBefore gs j + g.len - small
        · rw [if_pos hs]
          have hlb := lenBefore_succ gs j g hg
          have hin : (i : Rat) ≤ totalLen gs - 1 := by
            have : ((i + 1 : Nat) : Rat) ≤ (steps : Rat) := by exact_mod_cast hc
            push_cast at this
            linarith
          cases hg' : gs[j + 1]? with
          | none =>
            exfalso
            have hjl : gs.length ≤ j + 1 := by rwa [List.getElem?_eq_none_iff] at hg'
            have hjl' : j < gs.length := by rw [List.getElem?_eq_some_iff] at hg; exact hg.1
            have : j + 1 = gs.length := by omega
            rw [this, lenBefore_all] at hlb
            have : small < 1 := by norm_num [small]
            linarith
          | some g' =>
            have hg1 := h1 g' (List.mem_of_getElem? hg')
            refine ⟨j + 1, g', hg', by rw [hlb], by rw [hlb]; linarith, by rw [hlb]; linarith⟩
        · rw [if_neg hs]
          exact ⟨j, g, hg, rfl, hlo, not_lt.mp hs⟩
      obtain ⟨j', g', hg', he, hlo', hhi'⟩ := hnext
      obtain ⟨r, hr, hlen, hpl, hend⟩ := ih (i + 1) j' g' (by omega) (by omega) hg' (by push_cast; linarith)
        (by push_cast; linarith)
      refine ⟨(j', (i : Rat) - lenBefore gs j') :: r, ?_, by simp; omega, ?_, ?_⟩
      · simp only [splineVerts]
        rw [if_pos hc]
        simp only [hg, he, hr]
        rfl
      · intro k v hk hkl
        cases k with
        | zero =>
          simp only [List.getElem?_cons_zero, Option.some.injEq] at hk
          subst hk
          exact ⟨g', hg', by simp, hlo', by simp only; linarith⟩
        | succ k =>
          simp only [List.getElem?_cons_succ] at hk
          have := hpl k v hk (by omega)
          have e : k + 1 + i = k + (i + 1) := by omega
          rw [e]; exact this
      · intro v hv
        have e : steps - i = (steps - (i + 1)) + 1 := by omega
        rw [e, List.getElem?_cons_succ] at hv
        obtain ⟨a1, m, a2, a3, a4⟩ := hend v hv
        refine ⟨a1, m, a2, fun _ => ?_, fun h => by omega⟩
        by_cases hc' : i + 1 < steps
        · exact a3 hc'
        · have hm := a4 (by omega)
          subst hm
          refine ⟨g', hg', ?_⟩
          have : (steps : Rat) = i + 1 := by
            have : steps = i + 1 := by omega
            rw [this]; push_cast; ring
          linarith
    · have hi' : i = steps := by omega
      refine ⟨[(gs.length - 1, totalLen gs - lenBefore gs j)], ?_, by simp; omega, ?_, ?_⟩
      · simp only [splineVerts]
        rw [if_neg hc]
      · intro k v _ hk; omega
      · intro v hv
        have e : steps - i = 0 := by omega
        rw [e] at hv
        simp only [List.getElem?_cons_zero, Option.some.injEq] at hv
        subst hv
        exact ⟨rfl, j, rfl, fun h => by omega, fun _ => rfl⟩

/-- With segments of at least one metre, every vertex of the sampled spline but the last is taken from the
place its distance says, and none is read from outside the segments. -/
theorem spline_sampling_partial (gs : List Seg) (steps : Nat) (hne : gs ≠ []) (h1 : ∀ g ∈ gs, 1 ≤ g.len)
    (hst : (steps : Rat) ≤ totalLen gs) :
    ∃ r, splinePoly gs steps = some r ∧ r.length = steps + 1 ∧
      ∀ i v, r[i]? = some v → i < steps → Placed gs i v := by
  have hsm := small_pos
  cases gs with
  | nil => exact absurd rfl hne
  | cons g rest =>
    have hl := h1 g (by simp)
    have h0 : lenBefore (g :: rest) 0 = 0 := by simp [lenBefore, totalLen]
    have := splineVerts_placed (g :: rest) steps h1 hst (steps + 1) 0 0 g (by omega) (by omega) rfl
      (by rw [h0]; push_cast; linarith) (by rw [h0]; push_cast; have : small < 1 := by norm_num [small]
                                            linarith)
    obtain ⟨r, a1, a2, a3, _⟩ := this
    rw [h0] at a1
    exact ⟨r, a1, by omega, fun i v hv hi => a3 i v hv hi⟩

example : ∃ r, splinePoly [⟨5/2, 0⟩, ⟨3/2, 0⟩] 4 = some r ∧ r.length = 5 ∧
    ∀ i v, r[i]? = some v → i < 4 → Placed [⟨5/2, 0⟩, ⟨3/2, 0⟩] i v :=
  spline_sampling_partial _ 4 (by simp) (by norm_num) (by norm_num [totalLen])

/-- If the length of the spline is a whole number of metres the last vertex is the end of the spline, too. -/
theorem spline_sampling_end (gs : List Seg) (steps : Nat) (hne : gs ≠ []) (h1 : ∀ g ∈ gs, 1 ≤ g.len)
    (hst : (steps : Rat) = totalLen gs) :
    ∃ r, splinePoly gs steps = some r ∧ r[steps]? = some (gs.length - 1, totalLen gs - lenBefore gs (gs.length - 1)) := by
  have hsm := small_pos
  cases gs with
  | nil => exact absurd rfl hne
  | cons g rest =>
    have hl := h1 g (by simp)
    have h0 : lenBefore (g :: rest) 0 = 0 := by simp [lenBefore, totalLen]
    have := splineVerts_placed (g :: rest) steps h1 hst.le (steps + 1) 0 0 g (by omega) (by omega) rfl
      (by rw [h0]; push_cast; linarith) (by rw [h0]; push_cast; have : small < 1 := by norm_num [small]
                                            linarith)
    obtain ⟨r, a1, a2, _, a4⟩ := this
    rw [h0] at a1
    refine ⟨r, a1, ?_⟩
    have hstep : 0 < steps := by
      rcases Nat.eq_zero_or_pos steps with e | e
      · exfalso
        have hm := lenBefore_mono (g :: rest) h1 1 (g :: rest).length (by simp)
        rw [lenBefore_all, lenBefore_succ (g :: rest) 0 g rfl, h0, ← hst, e] at hm
        push_cast at hm; linarith
      · exact e
    obtain ⟨v, hv⟩ : ∃ v, r[steps]? = some v := ⟨_, List.getElem?_eq_getElem (by omega)⟩
    obtain ⟨b1, m, b2, b3, _⟩ := a4 v hv
    obtain ⟨gm, hgm, hle⟩ := b3 hstep
    have hml : m < (g :: rest).length := by rw [List.getElem?_eq_some_iff] at hgm; exact hgm.1
    have hm : m = (g :: rest).length - 1 := by
      by_contra hn
      have hlt : m + 1 ≤ (g :: rest).length - 1 := by omega
      have q1 := lenBefore_mono (g :: rest) h1 (m + 1) ((g :: rest).length - 1) hlt
      rw [lenBefore_succ _ m gm hgm] at q1
      obtain ⟨gl, hgl⟩ : ∃ x, (g :: rest)[(g :: rest).length - 1]? = some x :=
        ⟨_, List.getElem?_eq_getElem (by simp)⟩
      have q2 := lenBefore_succ _ _ gl hgl
      have e : (g :: rest).length - 1 + 1 = (g :: rest).length := by simp
      rw [e, lenBefore_all] at q2
      have q3 := h1 gl (List.mem_of_getElem? hgl)
      linarith
    rw [hv, ← hm]
    congr 1
    exact Prod.ext (b1.trans hm.symm) b2

example : ∃ r, splinePoly [⟨5/2, 0⟩, ⟨3/2, 0⟩] 4 = some r ∧ r[4]? = some (1, 3/2) := by
  obtain ⟨r, h1, h2⟩ := spline_sampling_end [⟨5/2, 0⟩, ⟨3/2, 0⟩] 4 (by simp) (by norm_num) (by norm_num [totalLen])
  refine ⟨r, h1, ?_⟩
  norm_num [totalLen, lenBefore] at h2
  rw [h2]

/-- Otherwise the last vertex, which gets the whole number of metres as its distance, is taken from the end
of the spline or even from beyond it; and a segment shorter than a metre can make a vertex lie outside its
segment. -/
theorem spline_sampling_fails :
    splinePoly [⟨19/10, 0⟩] 1 = some [(0, 0), (0, 19/10)] ∧
    splinePoly [⟨5/2, 0⟩, ⟨1, 0⟩] 3 = some [(0, 0), (0, 1), (0, 2), (1, 7/2)] ∧
    splinePoly [⟨1/4, 0⟩, ⟨1/4, 0⟩, ⟨5, 0⟩] 5 = some [(0, 0), (1, 3/4), (2, 3/2), (2, 5/2), (2, 7/2), (2, 5)] := by
  decide +kernel

end Verif.Traj
