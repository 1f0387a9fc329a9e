import Verif.Profile.Model
import Mathlib.Analysis.Real.Sqrt
import Mathlib.Tactic.Linarith
import Mathlib.Tactic.Ring
import Mathlib.Tactic.FieldSimp
import Mathlib.Tactic.Positivity
import Mathlib.Tactic.NormNum
import Mathlib.Tactic.LinearCombination
/-
The speed profile action.

Spec: `lineAt` is the speed profile as specified by the user, piecewise linear over the entries, with the time
of an entry extended if the limits on acceleration require it; `Joint` says that two segments meet without a
jump of the speed.
-/
namespace Verif.Profile

section
variable {K : Type} [Field K] [LinearOrder K] [IsStrictOrderedRing K]

theorem sm_pos : (0 : K) < sm := by unfold sm; positivity

theorem ab_eq (x : K) : ab x = |x| := by
  unfold ab
  split
  · next h => rw [abs_of_neg h]
  · next h => rw [abs_of_nonneg (not_lt.mp h)]

/-! Position mode -/

/-- Spec: the slope asked for by an entry. -/
def want (off v : K) (e : Entry K) : K := (e.speed + off - v) / e.time

/-- Spec: within the limits. -/
def InBounds (dyn : Dyn K) (off v : K) (e : Entry K) : Prop :=
  -dyn.maxDec ≤ want off v e ∧ want off v e ≤ dyn.maxAcc

instance (dyn : Dyn K) (off v : K) (e : Entry K) : Decidable (InBounds dyn off v e) := by
  unfold InBounds; infer_instance

/-- Spec: the time an entry takes: as specified, or as long as the limits require. -/
def dur (dyn : Dyn K) (off v : K) (e : Entry K) : K :=
  if InBounds dyn off v e then e.time
  else if e.speed + off < v then (v - (e.speed + off)) / dyn.maxDec
  else (e.speed + off - v) / dyn.maxAcc

/-- Spec: the speed at time `t` of the profile that starts at `t0` with `v0`. -/
def lineAt (dyn : Dyn K) (off : K) : K → K → List (Entry K) → K → K
  | _, v0, [], _ => v0
  | t0, v0, e :: es, t =>
    if t < t0 + dur dyn off v0 e then v0 + (t - t0) * ((e.speed + off - v0) / dur dyn off v0 e)
    else lineAt dyn off (t0 + dur dyn off v0 e) (e.speed + off) es t

/-- Spec: the times at which entries are reached. -/
def knots (dyn : Dyn K) (off : K) : K → K → List (Entry K) → List K
  | _, _, [] => []
  | t0, v0, e :: es =>
    (t0 + dur dyn off v0 e) :: knots dyn off (t0 + dur dyn off v0 e) (e.speed + off) es

/-- Spec: when the profile is over and the speed it ends with. -/
def endOf (dyn : Dyn K) (off : K) : K → K → List (Entry K) → K × K
  | t0, v0, [] => (t0, v0)
  | t0, v0, e :: es => endOf dyn off (t0 + dur dyn off v0 e) (e.speed + off) es

/-- Spec: entries with time stamps whose slopes differ from the third on (`i` is the index of the first,
`pk` the slope before). -/
def Reg (dyn : Dyn K) (off : K) : Nat → Option K → K → List (Entry K) → Prop
  | _, _, _, [] => True
  | i, pk, v, e :: es =>
    sm < e.time ∧ (InBounds dyn off v e ∨ sm ≤ |e.speed + off - v|) ∧
    (1 < i → ∃ p, pk = some p ∧ sm ≤ |(e.speed + off - v) / dur dyn off v e - p|) ∧
    Reg dyn off (i + 1) (some ((e.speed + off - v) / dur dyn off v e)) (e.speed + off) es

/-- The vertices of the profile. -/
def poly (dyn : Dyn K) (off : K) : K → K → List (Entry K) → List (EV K)
  | t0, v0, [] => [EV.mk3 t0 v0 0]
  | t0, v0, e :: es =>
    (EV.mk2 t0 v0).setK ((e.speed + off - v0) / dur dyn off v0 e) ::
      poly dyn off (t0 + dur dyn off v0 e) (e.speed + off) es

theorem slope_eq (dyn : Dyn K) (off v : K) (e : Entry K) (ha : 0 < dyn.maxAcc) (hd : 0 < dyn.maxDec)
    (ht : sm < e.time) (hb : InBounds dyn off v e ∨ sm ≤ |e.speed + off - v|) :
    slope dyn v e off = some ((e.speed + off - v) / dur dyn off v e, dur dyn off v e) ∧
      0 < dur dyn off v e := by
  have hsm := sm_pos (K := K)
  have h0 : 0 < e.time := by linarith
  have hn : ¬ e.time < -sm := by linarith
  have hz : e.time ≠ 0 := h0.ne'
  by_cases hi : InBounds dyn off v e
  · have hdur : dur dyn off v e = e.time := by simp [dur, hi]
    rw [hdur]
    refine ⟨?_, h0⟩
    obtain ⟨h1, h2⟩ := hi
    unfold want at h1 h2
    simp only [slope, hn, if_neg hz, false_or]
    rw [if_neg]
    rintro (h | h) <;> linarith
  · have hdv : sm ≤ |e.speed + off - v| := by
      rcases hb with h | h
      · exact absurd h hi
      · exact h
    have hout : want off v e < -dyn.maxDec ∨ want off v e > dyn.maxAcc := by
      by_contra hcon
      push Not at hcon
      exact hi ⟨hcon.1, hcon.2⟩
    unfold want at hout
    simp only [slope, hn, if_neg hz, false_or, if_pos hout, ab_eq, if_neg (not_lt.mpr hdv)]
    by_cases hneg : e.speed + off - v < 0
    · have hk : (e.speed + off - v) / e.time < 0 := div_neg_of_neg_of_pos hneg h0
      have hdur : dur dyn off v e = (v - (e.speed + off)) / dyn.maxDec := by
        simp only [dur, if_neg hi]; rw [if_pos (by linarith)]
      have hlt : (e.speed + off - v) / e.time < -dyn.maxDec := by
        rcases hout with h | h
        · exact h
        · linarith
      rw [hdur]
      refine ⟨?_, div_pos (by linarith) hd⟩
      simp only [if_false, if_pos hk, max_eq_right hlt.le]
      have h2 : v - (e.speed + off) ≠ 0 := by linarith
      have h3 : dyn.maxDec ≠ 0 := hd.ne'
      congr 1
      ext
      · simp only
        rw [div_div_eq_mul_div, eq_div_iff h2]; ring
      · simp only
        rw [div_neg, ← neg_div]; congr 1; ring
    · have hpos : 0 < e.speed + off - v := by
        rcases (not_lt.mp hneg).lt_or_eq with h | h
        · exact h
        · rw [← h, abs_zero] at hdv; linarith
      have hk : ¬ (e.speed + off - v) / e.time < 0 := not_lt.mpr (div_pos hpos h0).le
      have hdur : dur dyn off v e = (e.speed + off - v) / dyn.maxAcc := by
        simp only [dur, if_neg hi]; rw [if_neg (by linarith)]
      have hgt : (e.speed + off - v) / e.time > dyn.maxAcc := by
        rcases hout with h | h
        · have := div_pos hpos h0; linarith
        · exact h
      rw [hdur]
      refine ⟨?_, div_pos hpos ha⟩
      simp only [if_false, if_neg hk, min_eq_right hgt.le]
      have h2 : e.speed + off - v ≠ 0 := hpos.ne'
      have h3 : dyn.maxAcc ≠ 0 := ha.ne'
      congr 1
      ext
      · simp only
        rw [div_div_eq_mul_div, eq_div_iff h2]; ring
      · rfl

theorem entryLoop_poly (dyn : Dyn K) (off ia : K) (n : Nat) (ha : 0 < dyn.maxAcc) (hd : 0 < dyn.maxDec) :
    ∀ (es : List (Entry K)) (i : Nat) (t v : K) (before : List (EV K)), es ≠ [] → i + es.length = n →
      Reg dyn off i (before.head?.map EV.k) v es →
      ∃ b bf, entryLoop dyn off ia n i es t (EV.mk2 t v) before = some (b, bf) ∧
        (b :: bf).reverse = before.reverse ++ poly dyn off t v es := by
  have hsm := sm_pos (K := K)
  intro es
  induction es with
  | nil => intro i t v before h; exact absurd rfl h
  | cons e rest ih =>
    intro i t v before _ hlen hreg
    obtain ⟨h1, h2, h3, h4⟩ := hreg
    obtain ⟨hsl, hdp⟩ := slope_eq dyn off v e ha hd h1 h2
    have hnt : ¬ (i < n - 1 ∧ e.time < sm) := by rintro ⟨_, h⟩; linarith
    have hlast : (i = n - 1) ↔ rest = [] := by
      rw [← List.length_eq_zero_iff]
      simp only [List.length_cons] at hlen
      omega
    set kk := (e.speed + off - v) / dur dyn off v e with hkk
    have hback : ∀ (p : Prop) (_ : Decidable p),
        (if p then (⟨t, v, (EV.mk2 t v).k, (EV.mk2 t v).m⟩ : EV K) else EV.mk2 t v) = EV.mk2 t v := by
      intro p _; split <;> rfl
    have hstep : entryStep dyn off ia n i e t (EV.mk2 t v) before =
        some (t + dur dyn off v e,
          (if rest = [] then EV.mk3 (t + dur dyn off v e) (e.speed + off) 0
            else EV.mk2 (t + dur dyn off v e) (e.speed + off)),
          (EV.mk2 t v).setK kk :: before) := by
      unfold entryStep
      have hv : (EV.mk2 t v).v = v := rfl
      rw [hv, hsl]
      simp only [hback]
      rw [if_neg hnt]
      by_cases hi : 1 < i
      · obtain ⟨p, hp, hdiff⟩ := h3 hi
        cases hb : before with
        | nil => rw [hb] at hp; simp at hp
        | cons s bs =>
          rw [hb] at hp
          simp only [List.head?_cons, Option.map_some, Option.some.injEq] at hp
          have hk : ¬ ab (((EV.mk2 t v).setK kk).k - s.k) < sm := by
            rw [ab_eq, hp]; exact not_lt.mpr hdiff
          rw [if_pos hi]
          simp only
          rw [if_neg hk]
          by_cases hl : rest = []
          · rw [if_pos (hlast.mpr hl), if_pos hl]
          · rw [if_neg (fun h => hl (hlast.mp h)), if_neg hl]
      · rw [if_neg hi]
        by_cases hl : rest = []
        · rw [if_pos (hlast.mpr hl), if_pos hl]
        · rw [if_neg (fun h => hl (hlast.mp h)), if_neg hl]
    simp only [entryLoop, hstep]
    by_cases hl : rest = []
    · subst hl
      refine ⟨_, _, rfl, ?_⟩
      simp [poly, hkk]
    · rw [if_neg hl]
      obtain ⟨b, bf, g1, g2⟩ := ih (i + 1) (t + dur dyn off v e) (e.speed + off)
        ((EV.mk2 t v).setK kk :: before) hl (by simp only [List.length_cons] at hlen; omega)
        (by simpa [EV.setK] using h4)
      refine ⟨b, bf, g1, ?_⟩
      rw [g2]
      simp [poly, hkk]

/-- The segment made of a vertex in position mode. -/
def toSg (e : EV K) : Sg K := ⟨e.t, e.v, e.k, 0⟩

theorem poly_ne (dyn : Dyn K) (off : K) (t v : K) (e : Entry K) (es : List (Entry K)) :
    ∃ a b l, poly dyn off t v (e :: es) = a :: b :: l := by
  cases es <;> exact ⟨_, _, _, rfl⟩

theorem start_position (sq : K → K) (dyn : Dyn K) (off ia t0 v0 : K) (e : Entry K) (es : List (Entry K))
    (ha : 0 < dyn.maxAcc) (hd : 0 < dyn.maxDec) (hreg : Reg dyn off 0 none v0 (e :: es)) :
    start sq false dyn off ia t0 v0 (e :: es) = some ((poly dyn off t0 v0 (e :: es)).map toSg) := by
  obtain ⟨b, bf, g1, g2⟩ := entryLoop_poly dyn off ia (e :: es).length ha hd (e :: es) 0 t0 v0 [] (by simp)
    (by omega) (by simpa using hreg)
  have hv : vertices false dyn off ia t0 v0 (e :: es) = some (poly dyn off t0 v0 (e :: es)) := by
    simp only [vertices]
    rw [if_pos hreg.1, g1]
    simpa using g2
  obtain ⟨a, b, l, h⟩ := poly_ne dyn off t0 v0 e es
  unfold start
  rw [hv, h]
  simp [toSg]

/-- The times of the vertices after the first. -/
theorem poly_head (dyn : Dyn K) (off : K) (t v : K) (es : List (Entry K)) :
    ∃ a l, poly dyn off t v es = a :: l ∧ a.t = t ∧ a.v = v := by
  cases es <;> exact ⟨_, _, rfl, rfl, rfl⟩

theorem seek_line (dyn : Dyn K) (off : K) (ha : 0 < dyn.maxAcc) (hd : 0 < dyn.maxDec) :
    ∀ (es : List (Entry K)) (i : Nat) (pk : Option K) (t0 v0 t : K), Reg dyn off i pk v0 es →
      (∀ x ∈ knots dyn off t0 v0 es, t ≤ x - sm ∨ x ≤ t) →
      ∃ s l, seek t ((poly dyn off t0 v0 es).map toSg) = s :: l ∧ s.at t = lineAt dyn off t0 v0 es t := by
  have hsm := sm_pos (K := K)
  intro es
  induction es with
  | nil =>
    intro i pk t0 v0 t _ _
    refine ⟨_, _, rfl, ?_⟩
    simp [Sg.at, toSg, EV.mk3, lineAt]
  | cons e rest ih =>
    intro i pk t0 v0 t hreg hk
    obtain ⟨h1, h2, h3, h4⟩ := hreg
    obtain ⟨hsl, hdp⟩ := slope_eq dyn off v0 e ha hd h1 h2
    obtain ⟨a, l, hp, hat, hav⟩ := poly_head dyn off (t0 + dur dyn off v0 e) (e.speed + off) rest
    have hx := hk (t0 + dur dyn off v0 e) (by simp [knots])
    simp only [poly, hp, List.map_cons, lineAt]
    simp only [seek]
    have hta : (toSg a).t = t0 + dur dyn off v0 e := hat
    rw [hta]
    rcases hx with h | h
    · rw [if_neg (not_lt.mpr h), if_pos (by linarith)]
      refine ⟨_, _, rfl, ?_⟩
      simp only [Sg.at, toSg, EV.setK, EV.mk2]
      ring
    · rw [if_pos (by linarith), if_neg (not_lt.mpr h)]
      have := ih (i + 1) _ (t0 + dur dyn off v0 e) (e.speed + off) t h4
        (fun x hx => hk x (by simp only [knots, List.mem_cons]; exact Or.inr hx))
      rw [hp] at this
      exact this

/-- In position mode the speed follows the profile as specified: linear from entry to entry, each reached
after its time, or later if the limits on acceleration require it. (Within the tolerance before an entry the
next segment is already in use.) -/
theorem position_follows_profile (sq : K → K) (dyn : Dyn K) (off ia t0 v0 t : K) (e : Entry K)
    (es : List (Entry K)) (ha : 0 < dyn.maxAcc) (hd : 0 < dyn.maxDec) (hreg : Reg dyn off 0 none v0 (e :: es))
    (hk : ∀ x ∈ knots dyn off t0 v0 (e :: es), t ≤ x - sm ∨ x ≤ t) :
    ∃ segs s l, start sq false dyn off ia t0 v0 (e :: es) = some segs ∧ seek t segs = s :: l ∧
      s.at t = lineAt dyn off t0 v0 (e :: es) t := by
  obtain ⟨s, l, h1, h2⟩ := seek_line dyn off ha hd (e :: es) 0 none t0 v0 t hreg hk
  exact ⟨_, s, l, start_position sq dyn off ia t0 v0 e es ha hd hreg, h1, h2⟩

/-- Moving on from an earlier search gives the same segment as a fresh search. -/
theorem seek_seek (t t' : K) (h : t' ≤ t) : ∀ l : List (Sg K), seek t (seek t' l) = seek t l := by
  intro l
  induction l with
  | nil => rfl
  | cons s rest ih =>
    cases rest with
    | nil => rfl
    | cons s' rest =>
      by_cases hc : t' > s'.t - sm
      · have hc' : t > s'.t - sm := lt_of_lt_of_le hc h
        have e1 : seek t' (s :: s' :: rest) = seek t' (s' :: rest) := by simp only [seek]; rw [if_pos hc]
        have e2 : seek t (s :: s' :: rest) = seek t (s' :: rest) := by simp only [seek]; rw [if_pos hc']
        rw [e1, e2, ih]
      · have e1 : seek t' (s :: s' :: rest) = s :: s' :: rest := by simp only [seek]; rw [if_neg hc]
        rw [e1]

/-- Spec of the state of the running action: its segments are those from the one at time `t'` on. -/
def Tracks (segs : List (Sg K)) (t' : K) (r : Run K) : Prop :=
  r.rest = seek t' segs ∧ r.cur + r.rest.length = segs.length

theorem seek_length (t : K) : ∀ l : List (Sg K), (seek t l).length ≤ l.length := by
  intro l
  induction l with
  | nil => simp [seek]
  | cons s rest ih =>
    cases rest with
    | nil => simp [seek]
    | cons s' rest =>
      simp only [seek]
      split
      · have := ih; simp only [List.length_cons] at this ⊢; omega
      · exact le_refl _

/-- While the action runs, each step sets the speed of the profile at the time of the step, up to the
tolerance. -/
theorem step_speed (segs : List (Sg K)) (last : Sg K) (n : Nat) (r : Run K) (t' t : K) (s : Sg K) (l : List (Sg K))
    (hr : Tracks segs t' r) (htt : t' ≤ t) (hs : seek t segs = s :: l) (hle : t ≤ last.t) :
    |(step last n r t).1.speed - s.at t| < 2 * sm ∧ Tracks segs t (step last n r t).1 := by
  have hsm := sm_pos (K := K)
  have hg : t < last.t + 10 ∧ ¬ (t > last.t ∧ ab (r.speed - last.v) < sm) := by
    refine ⟨by linarith, ?_⟩
    rintro ⟨h, _⟩; linarith
  have hsk : seek t r.rest = s :: l := by rw [hr.1, seek_seek t t' htt, hs]
  have hlen := seek_length t r.rest
  have htr : ∀ v, Tracks segs t ⟨s :: l, r.cur + (r.rest.length - (s :: l).length), v⟩ := by
    intro v
    refine ⟨hs.symm, ?_⟩
    have := hr.2
    rw [hsk] at hlen
    simp only at hlen ⊢
    omega
  have hv : |(if ab (s.at t) < sm then 0 else s.at t) - s.at t| < sm := by
    by_cases h : ab (s.at t) < sm
    · rw [if_pos h, zero_sub, abs_neg, ← ab_eq]; exact h
    · rw [if_neg h, sub_self, abs_zero]; exact hsm
  simp only [step]
  rw [if_pos hg]
  simp only [hsk]
  generalize hw : (if ab (s.at t) < sm then 0 else s.at t) = w at hv ⊢
  by_cases h : r.cur + (r.rest.length - (s :: l).length) ≥ n - 1 ∧ ab (w - last.v) < sm
  · rw [if_pos h]
    refine ⟨?_, htr _⟩
    have h2 := h.2
    rw [ab_eq] at h2
    have := abs_add_le (last.v - w) (w - s.at t)
    rw [abs_sub_comm last.v w] at this
    simp only at this ⊢
    rw [show last.v - s.at t = last.v - w + (w - s.at t) by ring]
    linarith
  · rw [if_neg h]
    refine ⟨?_, htr _⟩
    simp only
    linarith

/-- Spec: the last segment holds the final speed. -/
theorem poly_last (dyn : Dyn K) (off : K) : ∀ (es : List (Entry K)) (t v : K),
    ∃ l, poly dyn off t v es = l ++ [EV.mk3 (endOf dyn off t v es).1 (endOf dyn off t v es).2 0] ∧
      l.length = es.length := by
  intro es
  induction es with
  | nil => intro t v; exact ⟨[], rfl, rfl⟩
  | cons e rest ih =>
    intro t v
    obtain ⟨l, h, hl⟩ := ih (t + dur dyn off v e) (e.speed + off)
    refine ⟨(EV.mk2 t v).setK ((e.speed + off - v) / dur dyn off v e) :: l, ?_, by simp [hl]⟩
    simp only [poly, endOf, h, List.cons_append]

theorem knots_end (dyn : Dyn K) (off : K) (ha : 0 < dyn.maxAcc) (hd : 0 < dyn.maxDec) :
    ∀ (es : List (Entry K)) (i : Nat) (pk : Option K) (t v : K), Reg dyn off i pk v es →
      t ≤ (endOf dyn off t v es).1 ∧ ∀ x ∈ knots dyn off t v es, x ≤ (endOf dyn off t v es).1 := by
  intro es
  induction es with
  | nil => intro i pk t v _; exact ⟨le_refl _, by simp [knots]⟩
  | cons e rest ih =>
    intro i pk t v hreg
    obtain ⟨h1, h2, h3, h4⟩ := hreg
    obtain ⟨_, hdp⟩ := slope_eq dyn off v e ha hd h1 h2
    obtain ⟨g1, g2⟩ := ih (i + 1) _ (t + dur dyn off v e) (e.speed + off) h4
    simp only [endOf, knots, List.mem_cons]
    refine ⟨by linarith, ?_⟩
    rintro x (rfl | hx)
    · exact g1
    · exact g2 x hx

/-- At the end of the profile the search is in the last segment. -/
theorem seek_end (dyn : Dyn K) (off : K) (ha : 0 < dyn.maxAcc) (hd : 0 < dyn.maxDec) :
    ∀ (es : List (Entry K)) (i : Nat) (pk : Option K) (t0 v0 t : K), Reg dyn off i pk v0 es →
      (endOf dyn off t0 v0 es).1 ≤ t →
      seek t ((poly dyn off t0 v0 es).map toSg) =
        [⟨(endOf dyn off t0 v0 es).1, (endOf dyn off t0 v0 es).2, 0, 0⟩] := by
  have hsm := sm_pos (K := K)
  intro es
  induction es with
  | nil => intro i pk t0 v0 t _ _; rfl
  | cons e rest ih =>
    intro i pk t0 v0 t hreg ht
    obtain ⟨h1, h2, h3, h4⟩ := hreg
    obtain ⟨a, l, hp, hat, hav⟩ := poly_head dyn off (t0 + dur dyn off v0 e) (e.speed + off) rest
    obtain ⟨g1, _⟩ := knots_end dyn off ha hd rest (i + 1) _ (t0 + dur dyn off v0 e) (e.speed + off) h4
    simp only [endOf] at ht ⊢
    have := ih (i + 1) _ (t0 + dur dyn off v0 e) (e.speed + off) t h4 ht
    rw [hp] at this
    simp only [poly, hp, List.map_cons, seek]
    have hta : (toSg a).t = t0 + dur dyn off v0 e := hat
    rw [if_pos (by rw [hta]; linarith)]
    exact this

/-- Position mode, one step of the simulation: the speed set is that of the profile, up to the tolerance. -/
theorem position_step_speed (dyn : Dyn K) (off t0 v0 : K) (e : Entry K) (es : List (Entry K))
    (ha : 0 < dyn.maxAcc) (hd : 0 < dyn.maxDec) (hreg : Reg dyn off 0 none v0 (e :: es)) (last : Sg K)
    (hlast : last.t = (endOf dyn off t0 v0 (e :: es)).1) (n : Nat) (r : Run K) (t' t : K)
    (hr : Tracks ((poly dyn off t0 v0 (e :: es)).map toSg) t' r) (htt : t' ≤ t)
    (hk : ∀ x ∈ knots dyn off t0 v0 (e :: es), t ≤ x - sm ∨ x ≤ t)
    (hle : t ≤ (endOf dyn off t0 v0 (e :: es)).1) :
    |(step last n r t).1.speed - lineAt dyn off t0 v0 (e :: es) t| < 2 * sm ∧
      Tracks ((poly dyn off t0 v0 (e :: es)).map toSg) t (step last n r t).1 := by
  obtain ⟨s, l, h1, h2⟩ := seek_line dyn off ha hd (e :: es) 0 none t0 v0 t hreg hk
  rw [← h2]
  exact step_speed _ last n r t' t s l hr htt h1 (hlast ▸ hle)

/-- The action starts on its first segment. -/
theorem start_tracks (segs : List (Sg K)) (t0 v0 : K) : ∃ t', t' ≤ t0 ∧ Tracks segs t' ⟨segs, 0, v0⟩ := by
  match segs with
  | [] => exact ⟨t0, le_refl _, rfl, by simp⟩
  | [s] => exact ⟨t0, le_refl _, rfl, by simp⟩
  | s :: s' :: rest =>
    refine ⟨min t0 (s'.t - sm), min_le_left _ _, ?_, by simp⟩
    simp only [seek]
    rw [if_neg (not_lt.mpr (min_le_right _ _))]

/-- Position mode, end of the action: the first step at or after the end of the profile leaves the entity at the
final speed and ends the action. -/
theorem position_ends (dyn : Dyn K) (off t0 v0 : K) (e : Entry K) (es : List (Entry K))
    (ha : 0 < dyn.maxAcc) (hd : 0 < dyn.maxDec) (hreg : Reg dyn off 0 none v0 (e :: es)) (last : Sg K)
    (hlast : last.t = (endOf dyn off t0 v0 (e :: es)).1 ∧ last.v = (endOf dyn off t0 v0 (e :: es)).2)
    (r : Run K) (t' t : K)
    (hr : Tracks ((poly dyn off t0 v0 (e :: es)).map toSg) t' r) (htt : t' ≤ t)
    (hge : (endOf dyn off t0 v0 (e :: es)).1 ≤ t) (hlt : t < (endOf dyn off t0 v0 (e :: es)).1 + 10)
    (hv : t = (endOf dyn off t0 v0 (e :: es)).1 ∨ sm ≤ |r.speed - (endOf dyn off t0 v0 (e :: es)).2| ∨
      (e :: es).length ≤ r.cur + 1) :
    (step last (e :: es).length r t).2 = true ∧
      (step last (e :: es).length r t).1.speed = (endOf dyn off t0 v0 (e :: es)).2 := by
  have hsm := sm_pos (K := K)
  have hse := seek_end dyn off ha hd (e :: es) 0 none t0 v0 t hreg hge
  have hsk : seek t r.rest = [⟨(endOf dyn off t0 v0 (e :: es)).1, (endOf dyn off t0 v0 (e :: es)).2, 0, 0⟩] := by
    rw [hr.1, seek_seek t t' htt, hse]
  obtain ⟨l, hpl, hll⟩ := poly_last dyn off (e :: es) t0 v0
  have hcount : r.cur + r.rest.length = (e :: es).length + 1 := by
    rw [hr.2, List.length_map, hpl, List.length_append, hll]; rfl
  have hlen := seek_length t r.rest
  rw [hsk] at hlen
  set T := (endOf dyn off t0 v0 (e :: es)).1
  set V := (endOf dyn off t0 v0 (e :: es)).2
  simp only [step, hlast.1, hlast.2]
  by_cases hg : t < T + 10 ∧ ¬ (t > T ∧ ab (r.speed - V) < sm)
  · rw [if_pos hg]
    simp only [hsk, List.length_singleton]
    have hat : (⟨T, V, 0, 0⟩ : Sg K).at t = V := by simp [Sg.at]
    rw [hat]
    have hw : ab ((if ab V < sm then 0 else V) - V) < sm := by
      by_cases h : ab V < sm
      · rw [if_pos h, zero_sub, ab_eq, abs_neg, ← ab_eq]; exact h
      · rw [if_neg h, sub_self]; simp [ab, hsm]
    have hc : r.cur + (r.rest.length - 1) ≥ (e :: es).length - 1 := by
      simp only [List.length_singleton] at hlen
      omega
    rw [if_pos ⟨hc, hw⟩]
    exact ⟨rfl, rfl⟩
  · rw [if_neg hg]
    have hg2 : t > T ∧ ab (r.speed - V) < sm := by
      by_contra h; exact hg ⟨hlt, h⟩
    have hc : r.cur ≥ (e :: es).length - 1 := by
      rcases hv with h | h | h
      · exact absurd hg2.1 (by rw [h]; exact lt_irrefl _)
      · rw [← ab_eq] at h; exact absurd hg2.2 (not_lt.mpr h)
      · omega
    rw [if_pos ⟨hc, hg2.2⟩]
    exact ⟨rfl, rfl⟩

/-! Follow mode, several targets -/

/-- Spec: one segment goes over into the next without a jump of speed or acceleration. -/
def Joint (p q : Sg K) : Prop := p.t ≤ q.t ∧ p.at q.t = q.v ∧ p.acc q.t = q.k

/-- Spec: so do all segments of a list. -/
def Smooth : List (Sg K) → Prop
  | [] => True
  | [_] => True
  | p :: q :: rest => Joint p q ∧ Smooth (q :: rest)

theorem smooth_append (p : Sg K) : ∀ (a : List (Sg K)) (b : List (Sg K)),
    Smooth (a ++ [p]) → Smooth (p :: b) → Smooth (a ++ p :: b) := by
  intro a
  induction a with
  | nil => intro b _ h; exact h
  | cons x xs ih =>
    intro b h1 h2
    cases xs with
    | nil => exact ⟨h1.1, h2⟩
    | cons y ys =>
      simp only [List.cons_append, Smooth] at h1 ⊢
      exact ⟨h1.1, ih b h1.2 h2⟩

/-- Spec: consecutive slopes differ, and each vertex lies on its line. -/
def Bends : K → List (EV K) → Prop
  | _, [] => True
  | k, v :: rest => sm ≤ |v.k - k| ∧ Bends v.k rest

theorem jerk_ne (dyn : Dyn K) (ha : 0 < dyn.accRate) (hd : 0 < dyn.decRate) (k0 k : K) :
    jerk dyn k0 k ≠ 0 ∧ 0 ≤ (k - k0) / jerk dyn k0 k := by
  unfold jerk
  by_cases h : k - k0 < 0
  · simp only [if_pos h]
    exact ⟨by simpa using hd.ne', div_nonneg_of_nonpos h.le (by linarith)⟩
  · simp only [if_neg h]
    exact ⟨ha.ne', div_nonneg (not_lt.mp h) ha.le⟩

/-- The time of the next jerk is such that the new line is met at its end. -/
theorem meet (k0 k1 m0 m1 j t1 t3 v1 : K) (hj : j ≠ 0) (hk : k0 ≠ k1)
    (h1 : t1 = (k0 * k0 - 2 * k0 * k1 + k1 * k1 - 2 * j * (m0 - m1)) / (2 * j * (k0 - k1)))
    (h3 : t3 = t1 + (k1 - k0) / j) (hv1 : v1 = k0 * t1 + m0) :
    v1 + k0 * (t3 - t1) + 1 / 2 * j * ((t3 - t1) * (t3 - t1)) = k1 * t3 + m1 := by
  have hk' : k0 - k1 ≠ 0 := sub_ne_zero.mpr hk
  rw [hv1, h3, h1]
  field_simp
  ring

theorem follow_once (dyn : Dyn K) (st : FS K) (cur : EV K) (next : Option (EV K)) (h : st.follow = false) :
    (followStep dyn st cur next).1 = st := by
  simp [followStep, h]

theorem follow_stays (dyn : Dyn K) : ∀ (l : List (EV K)) (st : FS K), st.follow = false →
    (followLoop dyn st l).1.follow = false := by
  intro l
  induction l with
  | nil => intro st h; exact h
  | cons v rest ih =>
    intro st h
    simp only [followLoop]
    rw [follow_once dyn st v _ h]
    exact ih st h

/-- The loop over the vertices: as long as the mode stays follow, the segments join smoothly, stay within the
limits, and the last one lies on the line of the last vertex. -/
theorem followLoop_smooth (dyn : Dyn K) (ha : 0 < dyn.accRate) (hd : 0 < dyn.decRate) :
    ∀ (rest : List (EV K)) (cur : EV K) (st : FS K), st.follow = true → st.v3 = st.k1 * st.t3 + st.m1 →
      Bends st.k1 rest → (followLoop dyn st (cur :: rest)).1.follow = true →
      let segs := (followLoop dyn st (cur :: rest)).2
      Smooth (⟨st.t3, st.v3, st.k1, 0⟩ :: segs) ∧ (∀ s ∈ segs, within dyn s = true) ∧
      (∀ vtx ∈ rest, ∃ s ∈ segs, s.j = 0 ∧ s.k = vtx.k ∧ s.v = vtx.k * s.t + vtx.m) ∧
      ∃ pre p, ⟨st.t3, st.v3, st.k1, 0⟩ :: segs = pre ++ [p] ∧ p.j = 0 ∧
        p.k = ((rest.getLast?).map EV.k).getD st.k1 ∧
        p.v = p.k * p.t + ((rest.getLast?).map EV.m).getD st.m1 := by
  intro rest
  induction rest with
  | nil =>
    intro cur st hf hinv _ hend
    simp only [followLoop, followStep, hf, List.head?_nil, Bool.true_eq_false, if_false, List.append_nil,
      List.getLast?_nil, Option.map_none, Option.getD_none]
    exact ⟨trivial, by simp, by simp, [], _, rfl, rfl, rfl, hinv⟩
  | cons vtx rest ih =>
    intro cur st hf hinv hb hend
    obtain ⟨hb1, hb2⟩ := hb
    have hsm := sm_pos (K := K)
    have hne : st.k1 ≠ vtx.k := by
      intro h; rw [h, sub_self, abs_zero] at hb1; linarith
    have hge : ab (st.k1 - vtx.k) ≥ sm := by rw [ab_eq, abs_sub_comm]; exact hb1
    obtain ⟨hj, hdur⟩ := jerk_ne dyn ha hd st.k1 vtx.k
    simp only [followLoop] at hend ⊢
    have hfs : followStep dyn st cur (vtx :: rest).head? = followStep dyn st cur (some vtx) := rfl
    rw [hfs] at hend ⊢
    generalize hjj : jerk dyn st.k1 vtx.k = j at hj hdur
    generalize ht1 : (st.k1 * st.k1 - 2 * st.k1 * vtx.k + vtx.k * vtx.k - 2 * j * (st.m1 - vtx.m)) /
      (2 * j * (st.k1 - vtx.k)) = t1
    by_cases hlt : t1 < st.t3
    · exfalso
      have : followStep dyn st cur (some vtx) =
          ({ st with follow := false, k1 := vtx.k, m1 := vtx.m }, []) := by
        simp only [followStep, hf, hjj, ht1, Bool.true_eq_false, if_false]
        rw [if_pos hge, if_pos hlt]
      rw [this] at hend
      have h2 := follow_stays dyn (vtx :: rest) { st with follow := false, k1 := vtx.k, m1 := vtx.m } rfl
      simp only [followLoop] at h2
      rw [h2] at hend
      exact absurd hend (by simp)
    · set v1 := st.v3 + st.k1 * (t1 - st.t3) with hv1
      set t3 := t1 + (vtx.k - st.k1) / j with ht3
      set v3 := v1 + st.k1 * (t3 - t1) + 1 / 2 * j * ((t3 - t1) * (t3 - t1)) with hv3
      have hfs2 : followStep dyn st cur (some vtx) =
          (⟨within dyn ⟨t1, v1, st.k1, j⟩ && within dyn ⟨t3, v3, vtx.k, 0⟩, t3, v3, vtx.k, vtx.m⟩,
            [⟨t1, v1, st.k1, j⟩, ⟨t3, v3, vtx.k, 0⟩]) := by
        simp only [followStep, hf, hjj, ht1, Bool.true_eq_false, if_false]
        rw [if_pos hge, if_neg hlt]
        simp [hv1, ht3, hv3]
      rw [hfs2] at hend ⊢
      simp only at hend ⊢
      by_cases hw : (within dyn ⟨t1, v1, st.k1, j⟩ && within dyn ⟨t3, v3, vtx.k, 0⟩) = true
      swap
      · exfalso
        have h2 := follow_stays dyn (vtx :: rest) ⟨(within dyn ⟨t1, v1, st.k1, j⟩ &&
          within dyn ⟨t3, v3, vtx.k, 0⟩), t3, v3, vtx.k, vtx.m⟩ (by simpa using hw)
        simp only [followLoop] at h2
        rw [h2] at hend
        exact absurd hend (by simp)
      have hw12 := Bool.and_eq_true_iff.mp hw
      rw [hw] at hend ⊢
      have hv1' : v1 = st.k1 * t1 + st.m1 := by rw [hv1, hinv]; ring
      have hmeet : v3 = vtx.k * t3 + vtx.m := meet st.k1 vtx.k st.m1 vtx.m j t1 t3 v1 hj hne ht1.symm ht3 hv1'
      obtain ⟨g1, g2, gl, pre, p, g3, g4, g5, g6⟩ := ih vtx ⟨true, t3, v3, vtx.k, vtx.m⟩ rfl hmeet hb2
        (by simpa only [followLoop] using hend)
      simp only [followLoop] at g1 g2 g3 gl
      refine ⟨?_, ?_, ?_, ⟨st.t3, st.v3, st.k1, 0⟩ :: ⟨t1, v1, st.k1, j⟩ :: pre, p, ?_, g4, ?_, ?_⟩
      · simp only [List.cons_append, List.nil_append, Smooth]
        refine ⟨⟨not_lt.mp hlt, ?_, ?_⟩, ⟨?_, ?_, ?_⟩, g1⟩
        · simp only [Sg.at, hv1]; ring
        · simp only [Sg.acc]; ring
        · simp only [ht3]; linarith
        · simp only [Sg.at, hv3]
        · simp only [Sg.acc, ht3]; field_simp; ring
      · intro s hs
        simp only [List.cons_append, List.nil_append, List.mem_cons] at hs
        rcases hs with rfl | rfl | hs
        · exact hw12.1
        · exact hw12.2
        · exact g2 s hs
      · intro w hw
        rcases List.mem_cons.mp hw with rfl | hw
        · exact ⟨⟨t3, v3, w.k, 0⟩, by simp, rfl, rfl, hmeet⟩
        · obtain ⟨s, hs, h⟩ := gl w hw
          exact ⟨s, by simp only [List.cons_append, List.nil_append, List.mem_cons]; exact Or.inr (Or.inr hs), h⟩
      · simp only [List.cons_append, List.nil_append]
        rw [g3]
      · rw [g5]
        cases rest <;> simp [List.getLast?_cons]
      · rw [g6]
        congr 1
        cases rest <;> simp [List.getLast?_cons]

theorem reg_weaken (dyn : Dyn K) (off : K) : ∀ (es : List (Entry K)) (i : Nat) (pk : Option K) (v : K),
    Reg dyn off (i + 1) pk v es → Reg dyn off i pk v es := by
  intro es
  induction es with
  | nil => intro _ _ _ _; trivial
  | cons e rest ih =>
    intro i pk v h
    obtain ⟨h1, h2, h3, h4⟩ := h
    exact ⟨h1, h2, fun hi => h3 (by omega), ih _ _ _ h4⟩

/-- Spec: slope of the first entry. -/
def firstSlope (dyn : Dyn K) (off v0 : K) (e : Entry K) : K := (e.speed + off - v0) / dur dyn off v0 e

/-- Spec: slope of the last. -/
def lastSlope (dyn : Dyn K) (off : K) : K → K → List (Entry K) → K
  | k, _, [] => k
  | _, v, e :: es => lastSlope dyn off (firstSlope dyn off v e) (e.speed + off) es

/-- Spec: time and speed of each target and the slope of the line that follows it, 0 after the last. -/
def legs (dyn : Dyn K) (off : K) : K → K → List (Entry K) → List (K × K × K)
  | t0, v0, [] => [(t0, v0, 0)]
  | t0, v0, e :: es =>
    (t0, v0, firstSlope dyn off v0 e) :: legs dyn off (t0 + dur dyn off v0 e) (e.speed + off) es

theorem legs_poly (dyn : Dyn K) (off : K) : ∀ (es : List (Entry K)) (t v : K), ∀ l ∈ legs dyn off t v es,
    ∃ w ∈ poly dyn off t v es, w.k = l.2.2 ∧ w.m = l.2.1 - l.2.2 * l.1 := by
  intro es
  induction es with
  | nil =>
    intro t v l hl
    simp only [legs, List.mem_singleton] at hl
    subst hl
    exact ⟨EV.mk3 t v 0, by simp [poly], rfl, rfl⟩
  | cons e rest ih =>
    intro t v l hl
    rcases List.mem_cons.mp hl with rfl | hl
    · exact ⟨_, List.mem_cons_self, rfl, rfl⟩
    · obtain ⟨w, hw, h⟩ := ih _ _ l hl
      exact ⟨w, List.mem_cons_of_mem _ hw, h⟩

theorem bends_poly (dyn : Dyn K) (off : K) : ∀ (es : List (Entry K)) (i : Nat) (t v k : K), 1 < i →
    Reg dyn off i (some k) v es → sm ≤ |lastSlope dyn off k v es| → Bends k (poly dyn off t v es) := by
  intro es
  induction es with
  | nil =>
    intro i t v k _ _ h
    refine ⟨?_, trivial⟩
    simp only [EV.mk3, zero_sub, abs_neg]
    exact h
  | cons e rest ih =>
    intro i t v k hi hreg h
    obtain ⟨h1, h2, h3, h4⟩ := hreg
    obtain ⟨p, hp, hdiff⟩ := h3 hi
    simp only [Option.some.injEq] at hp
    subst hp
    exact ⟨hdiff, ih (i + 1) _ _ _ (by omega) h4 h⟩

/-- Spec: what a segment has to meet: the speed at its start, its slope there and its jerk are within the limits, up
to the tolerance. -/
structure Limits (dyn : Dyn K) (s : Sg K) : Prop where
  speed : |s.v| ≤ dyn.maxSpeed + sm
  acc : s.k ≤ dyn.maxAcc + sm
  dec : -dyn.maxDec - sm ≤ s.k
  accRate : s.j ≤ dyn.accRate + sm
  decRate : -dyn.decRate - sm ≤ s.j

theorem limits_of_within (dyn : Dyn K) (s : Sg K) (h : within dyn s = true) : Limits dyn s := by
  simp only [within, Bool.and_eq_true, decide_eq_true_eq] at h
  obtain ⟨⟨⟨⟨⟨h1, h2⟩, h3⟩, h4⟩, h5⟩, h6⟩ := h
  exact ⟨abs_le.mpr ⟨by linarith, h1⟩, h3, h4, h5, h6⟩

/-- Follow mode with at least two targets of different slopes: unless the action falls back to linear mode
(reported by the log), the speed starts from the current one, with the current acceleration if the speed is
to change; speed and acceleration change without jumps; the line after each target is joined; limits on speed at the joints, on acceleration and
on jerk are met up to the tolerance; and the profile ends at the last target with zero acceleration. -/
theorem follow_smooth (sq : K → K) (dyn : Dyn K) (off ia t0 v0 : K) (e e2 : Entry K) (es : List (Entry K))
    (ha : 0 < dyn.maxAcc) (hd : 0 < dyn.maxDec) (hra : sm < dyn.accRate) (hrd : sm < dyn.decRate)
    (hreg : Reg dyn off 1 none v0 (e :: e2 :: es))
    (hl : sm ≤ |lastSlope dyn off 0 v0 (e :: e2 :: es)|)
    (hend : (followLoop dyn (followInit dyn ia t0 ((EV.mk2 t0 v0).setK (firstSlope dyn off v0 e))).1
      (poly dyn off t0 v0 (e :: e2 :: es))).1.follow = true) :
    ∃ segs, start sq true dyn off ia t0 v0 (e :: e2 :: es) = some segs ∧
      (∃ a rest, segs = a :: rest ∧ a.t = t0 ∧ a.v = v0 ∧ (sm < |firstSlope dyn off v0 e| → a.k = ia)) ∧
      Smooth segs ∧ (∀ s ∈ segs, Limits dyn s) ∧
      (∀ l ∈ legs dyn off (t0 + dur dyn off v0 e) (e.speed + off) (e2 :: es),
        ∃ s ∈ segs, s.j = 0 ∧ s.k = l.2.2 ∧ s.at l.1 = l.2.1) ∧
      ∃ pre p, segs = pre ++ [p] ∧ p.j = 0 ∧ p.k = 0 ∧ p.v = (endOf dyn off t0 v0 (e :: e2 :: es)).2 := by
  have hsm := sm_pos (K := K)
  have hreg0 := reg_weaken dyn off (e :: e2 :: es) 0 none v0 hreg
  obtain ⟨b, bf, g1, g2⟩ := entryLoop_poly dyn off ia (e :: e2 :: es).length ha hd (e :: e2 :: es) 0 t0 v0 []
    (by simp) (by omega) (by simpa using hreg0)
  have hv : vertices true dyn off ia t0 v0 (e :: e2 :: es) = some (poly dyn off t0 v0 (e :: e2 :: es)) := by
    simp only [vertices]
    rw [if_pos hreg0.1, g1]
    simpa using g2
  -- the vertices: at least three
  set vt := (EV.mk2 t0 v0).setK (firstSlope dyn off v0 e) with hvt
  set tail := poly dyn off (t0 + dur dyn off v0 e) (e.speed + off) (e2 :: es) with htail
  have hpoly : poly dyn off t0 v0 (e :: e2 :: es) = vt :: tail := rfl
  obtain ⟨w, w2, l, htl⟩ := poly_ne dyn off (t0 + dur dyn off v0 e) (e.speed + off) e2 es
  rw [← htail] at htl
  have hbends : Bends (firstSlope dyn off v0 e) tail :=
    bends_poly dyn off (e2 :: es) 2 _ _ _ (by omega) hreg.2.2.2 hl
  rw [hpoly] at hend
  have hstart : start sq true dyn off ia t0 v0 (e :: e2 :: es) =
      some ((followInit dyn ia t0 vt).2 ++ (followLoop dyn (followInit dyn ia t0 vt).1 (vt :: tail)).2) := by
    unfold start
    rw [hv, hpoly, htl]
    rfl
  refine ⟨_, hstart, ?_⟩
  -- the initial segments
  obtain ⟨hj, hdur⟩ := jerk_ne dyn (by linarith) (by linarith) ia vt.k
  have habj : ab (jerk dyn ia vt.k) > sm := by
    unfold jerk
    rw [ab_eq]
    split
    · rw [abs_neg, abs_of_pos (by linarith)]; exact hrd
    · rw [abs_of_pos (by linarith)]; exact hra
  have hfol : (followInit dyn ia t0 vt).1.follow = true := by
    by_contra h
    have := follow_stays dyn (vt :: tail) (followInit dyn ia t0 vt).1 (by simpa using h)
    rw [this] at hend
    exact absurd hend (by simp)
  set st := (followInit dyn ia t0 vt).1 with hst
  have hk1 : st.k1 = firstSlope dyn off v0 e := rfl
  have hinv : st.v3 = st.k1 * st.t3 + st.m1 := by
    have : st.m1 = st.v3 - st.k1 * st.t3 := rfl
    rw [this]; ring
  obtain ⟨f1, f2, fl, pre, p, f3, f4, f5, f6⟩ := followLoop_smooth dyn (by linarith) (by linarith) tail vt st hfol hinv
    (hk1 ▸ hbends) hend
  obtain ⟨lp, hlp, _⟩ := poly_last dyn off (e2 :: es) (t0 + dur dyn off v0 e) (e.speed + off)
  rw [← htail] at hlp
  rw [hlp] at f5 f6
  simp only [List.getLast?_append, List.getLast?_singleton, Option.some_or, Option.map_some, Option.getD_some,
    EV.mk3, zero_mul, sub_zero] at f5 f6
  rw [f5] at f6
  simp only [zero_mul, zero_add] at f6
  have hlegs : ∀ l ∈ legs dyn off (t0 + dur dyn off v0 e) (e.speed + off) (e2 :: es),
      ∃ s ∈ (followLoop dyn st (vt :: tail)).2, s.j = 0 ∧ s.k = l.2.2 ∧ s.at l.1 = l.2.1 := by
    intro l hl
    obtain ⟨w, hw, hwk, hwm⟩ := legs_poly dyn off _ _ _ l hl
    obtain ⟨s, hs, sj, sk, sv⟩ := fl w hw
    refine ⟨s, hs, sj, by rw [sk, hwk], ?_⟩
    simp only [Sg.at]
    rw [sj, sv, sk, hwk, hwm]
    ring
  by_cases hbig : ab vt.k > sm
  · have hinit : (followInit dyn ia t0 vt).2 = [⟨t0, v0, ia, jerk dyn ia vt.k⟩, ⟨st.t3, st.v3, st.k1, 0⟩] := by
      have : (followInit dyn ia t0 vt).2 = (if ab vt.k > sm then [⟨vt.t, vt.v, ia,
          if ab vt.k > sm then jerk dyn ia vt.k else 0⟩] else []) ++ [⟨st.t3, st.v3, st.k1, 0⟩] := rfl
      rw [this, if_pos hbig, if_pos hbig]
      rfl
    have ht3 : st.t3 = t0 + (vt.k - ia) / jerk dyn ia vt.k := by
      have : st.t3 = (if ab vt.k > sm then vt.t + (if ab (if ab vt.k > sm then jerk dyn ia vt.k else 0) > sm
        then (vt.k - ia) / (if ab vt.k > sm then jerk dyn ia vt.k else 0) else 0) else vt.t) := rfl
      rw [this, if_pos hbig, if_pos hbig, if_pos habj]
      rfl
    have hv3 : st.v3 = v0 + ia * (st.t3 - t0) + 1 / 2 * jerk dyn ia vt.k * ((st.t3 - t0) * (st.t3 - t0)) := by
      have : st.v3 = vt.v + ia * (st.t3 - t0) + 1 / 2 * (if ab vt.k > sm then jerk dyn ia vt.k else 0) *
        ((st.t3 - t0) * (st.t3 - t0)) := rfl
      rw [this, if_pos hbig]
      rfl
    have hfl : st.follow = ([(⟨vt.t, vt.v, ia, if ab vt.k > sm then jerk dyn ia vt.k else 0⟩ : Sg K)].all
        (within dyn) && within dyn ⟨st.t3, st.v3, st.k1, 0⟩) := by
      have : st.follow = ((if ab vt.k > sm then [(⟨vt.t, vt.v, ia, if ab vt.k > sm then jerk dyn ia vt.k
        else 0⟩ : Sg K)] else []).all (within dyn) && within dyn ⟨st.t3, st.v3, st.k1, 0⟩) := rfl
      rw [this, if_pos hbig, if_pos hbig]
    rw [if_pos hbig, hfol] at hfl
    have hfl2 := Bool.and_eq_true_iff.mp hfl.symm
    rw [hinit]
    simp only [List.cons_append, List.nil_append]
    refine ⟨⟨_, _, rfl, rfl, rfl, fun _ => rfl⟩, ⟨⟨?_, ?_, ?_⟩, f1⟩, ?_, ?_,
      ⟨t0, v0, ia, jerk dyn ia vt.k⟩ :: pre, p, ?_, f4, f5, f6⟩
    · simp only [ht3]; linarith
    · simp only [Sg.at]; exact hv3.symm
    · simp only [Sg.acc, ht3]
      rw [hk1]
      have : vt.k = firstSlope dyn off v0 e := rfl
      rw [← this]
      field_simp
      ring
    · intro s hs
      apply limits_of_within
      simp only [List.mem_cons] at hs
      rcases hs with rfl | rfl | hs
      · have := hfl2.1
        simp only [List.all_cons, List.all_nil, Bool.and_true] at this
        exact this
      · exact hfl2.2
      · exact f2 s hs
    · intro l hl
      obtain ⟨s, hs, h⟩ := hlegs l hl
      exact ⟨s, List.mem_cons_of_mem _ (List.mem_cons_of_mem _ hs), h⟩
    · rw [List.cons_append, ← f3]
  · have hinit : (followInit dyn ia t0 vt).2 = [⟨st.t3, st.v3, st.k1, 0⟩] := by
      have : (followInit dyn ia t0 vt).2 = (if ab vt.k > sm then [⟨vt.t, vt.v, ia,
          if ab vt.k > sm then jerk dyn ia vt.k else 0⟩] else []) ++ [⟨st.t3, st.v3, st.k1, 0⟩] := rfl
      rw [this, if_neg hbig]
      rfl
    have ht3 : st.t3 = t0 := by
      have : st.t3 = (if ab vt.k > sm then vt.t + (if ab (if ab vt.k > sm then jerk dyn ia vt.k else 0) > sm
        then (vt.k - ia) / (if ab vt.k > sm then jerk dyn ia vt.k else 0) else 0) else vt.t) := rfl
      rw [this, if_neg hbig]
      rfl
    have hv3 : st.v3 = v0 := by
      have : st.v3 = vt.v + ia * (st.t3 - t0) + 1 / 2 * (if ab vt.k > sm then jerk dyn ia vt.k else 0) *
        ((st.t3 - t0) * (st.t3 - t0)) := rfl
      rw [this, ht3, sub_self]
      simp only [mul_zero, add_zero]
      rfl
    have hfl : st.follow = within dyn ⟨st.t3, st.v3, st.k1, 0⟩ := by
      have : st.follow = ((if ab vt.k > sm then [(⟨vt.t, vt.v, ia, if ab vt.k > sm then jerk dyn ia vt.k
        else 0⟩ : Sg K)] else []).all (within dyn) && within dyn ⟨st.t3, st.v3, st.k1, 0⟩) := rfl
      rw [this, if_neg hbig]
      simp
    rw [hfol] at hfl
    rw [hinit]
    simp only [List.cons_append, List.nil_append]
    refine ⟨⟨_, _, rfl, ht3, hv3, ?_⟩, f1, ?_, ?_, pre, p, f3, f4, f5, f6⟩
    · intro h
      exact absurd (by rw [ab_eq]; exact h) hbig
    · intro s hs
      apply limits_of_within
      simp only [List.mem_cons] at hs
      rcases hs with rfl | hs
      · exact hfl.symm
      · exact f2 s hs
    · intro l hl
      obtain ⟨s, hs, h⟩ := hlegs l hl
      exact ⟨s, List.mem_cons_of_mem _ hs, h⟩

/-- Between two joints the acceleration stays within what the limits allow. -/
theorem acc_within (dyn : Dyn K) (p q : Sg K) (h : Joint p q) (hp : Limits dyn p)
    (hq : Limits dyn q) (t : K) (h1 : p.t ≤ t) (h2 : t ≤ q.t) :
    -dyn.maxDec - sm ≤ p.acc t ∧ p.acc t ≤ dyn.maxAcc + sm := by
  obtain ⟨_, _, h3⟩ := h
  have e1 : p.acc t = p.k + p.j * (t - p.t) := rfl
  have e2 : p.acc q.t = p.k + p.j * (q.t - p.t) := rfl
  have hpk := hp.acc
  have hpk2 := hp.dec
  have hqk := hq.acc
  have hqk2 := hq.dec
  rw [← h3, e2] at hqk hqk2
  rw [e1]
  rcases le_total 0 p.j with hj | hj
  · have a1 := mul_nonneg hj (sub_nonneg.mpr h1)
    have a2 := mul_le_mul_of_nonneg_left (sub_le_sub_right h2 p.t) hj
    constructor <;> linarith
  · have a1 := mul_nonpos_of_nonpos_of_nonneg hj (sub_nonneg.mpr h1)
    have a2 := mul_le_mul_of_nonpos_left (sub_le_sub_right h2 p.t) hj
    constructor <;> linarith
end

/-! Follow mode, one target -/

section
variable {K : Type} [Field K] [LinearOrder K] [IsStrictOrderedRing K]

/-- Two jerks without a linear part: the target is met. -/
theorem meet_two (j0 j1 k0 v0 v3 k1 a d : K) (h0 : j0 ≠ 0) (h1 : j1 ≠ 0) (h01 : j0 - j1 ≠ 0)
    (hk : k1 = k0 + j0 * a) (hd : d = -(k1 / j1))
    (hq : k1 * k1 * (j0 - j1) = -j1 * (j0 * (2 * v3 - 2 * v0) + k0 * k0)) :
    v0 + k0 * a + j0 * (1 / 2) * (a * a) + k1 * d + 1 / 2 * j1 * (d * d) = v3 := by
  have ha : a = (k1 - k0) / j0 := by rw [hk]; field_simp; ring
  rw [hd, ha]
  field_simp
  linear_combination (-1) * hq

/-- Two jerks with a linear part between: the target is met. -/
theorem meet_three (j0 j1 k0 v0 v3 k1 a b d T r : K) (h0 : j0 ≠ 0) (h1 : j1 ≠ 0) (h01 : j0 - j1 ≠ 0)
    (hr : r * r = j0 * j1 * (2 * v0 * (j1 - j0) + k0 * k0 + 2 * k0 * j1 * T + j0 * j1 * (T * T) +
      2 * v3 * (j0 - j1)))
    (ha : a = (-r - j0 * (k0 + j1 * T)) / (j0 * (j0 - j1))) (hk : k1 = k0 + j0 * a) (hd : d = -(k1 / j1))
    (hb : b = T - a - d) :
    v0 + k0 * a + j0 * (1 / 2) * (a * a) + k1 * b + k1 * d + 1 / 2 * j1 * (d * d) = v3 := by
  have hr2 : r = -(j0 * (k0 + j1 * T)) - a * (j0 * (j0 - j1)) := by rw [ha]; field_simp; ring
  rw [hr2] at hr
  rw [hb, hd, hk]
  have h3 : j0 * (j0 - j1) ≠ 0 := mul_ne_zero h0 h01
  field_simp
  apply mul_left_cancel₀ h3
  linear_combination hr

/-- Spec: the segments go over into each other without a jump of speed or acceleration (times aside). -/
def Meets : List (Sg K) → Prop
  | [] => True
  | [_] => True
  | p :: q :: rest => (p.at q.t = q.v ∧ p.acc q.t = q.k) ∧ Meets (q :: rest)

/-- Spec: the segments are in order of time. -/
def InOrder : List (Sg K) → Prop
  | [] => True
  | [_] => True
  | p :: q :: rest => p.t ≤ q.t ∧ InOrder (q :: rest)

/-- The second jerk, back to zero acceleration. -/
def jerk1 (dyn : Dyn K) (k : K) : K := if k < 0 then dyn.accRate else -dyn.decRate

/-- The expression under the square root that tells whether there is room for a linear part. -/
def fac (j0 j1 k0 t0 v0 t3 v3 : K) : K :=
  j0 * j1 * (2 * v0 * (j1 - j0) + k0 * k0 + 2 * k0 * j1 * (t3 - t0) +
        j0 * j1 * ((t0 - t3) * (t0 - t3)) + 2 * v3 * (j0 - j1))

/-- Shape without linear part. -/
theorem single_two (sq : K → K) (dyn : Dyn K) (ia : K) (a b : EV K) (j0 j1 : K) (hj0 : jerk dyn ia a.k = j0)
    (hj1 : jerk1 dyn a.k = j1) (hne : ¬ ab (j1 - j0) < sm) (hf : fac j0 j1 ia a.t a.v b.t b.v < 0) (t2 k1 : K)
    (ht2 : t2 = (sq (j1 * (-(j0 - j1)) * (j0 * (2 * b.v - 2 * a.v) + ia * ia)) + (j0 - j1) * (a.t * j0 - ia)) /
          (j0 * (j0 - j1))) (hk1 : k1 = ia + j0 * (t2 - a.t)) (hin : -dyn.maxDec ≤ k1 ∧ k1 ≤ dyn.maxAcc) :
    single sq dyn ia a b = [⟨a.t, a.v, ia, j0⟩,
      ⟨t2, a.v + ia * (t2 - a.t) + j0 * (1 / 2) * ((t2 - a.t) * (t2 - a.t)), k1, j1⟩,
      ⟨t2 - k1 / j1, b.v, 0, 0⟩] := by
  unfold fac at hf
  unfold jerk1 at hj1
  simp only [single, hj0, hj1]
  simp only [if_neg hne, if_pos hf, ← ht2, ← hk1, if_pos hin]
  rfl

/-- Shape with linear part. -/
theorem single_three (sq : K → K) (dyn : Dyn K) (ia : K) (a b : EV K) (j0 j1 : K) (hj0 : jerk dyn ia a.k = j0)
    (hj1 : jerk1 dyn a.k = j1) (hne : ¬ ab (j1 - j0) < sm) (hf : ¬ fac j0 j1 ia a.t a.v b.t b.v < 0)
    (t1 k1 v1 : K)
    (ht1 : t1 = (-sq (fac j0 j1 ia a.t a.v b.t b.v) - j0 * (ia + b.t * j1) + a.t * (j0 * j0)) / (j0 * (j0 - j1)))
    (hk1 : k1 = ia + j0 * (t1 - a.t))
    (hv1 : v1 = a.v + ia * (t1 - a.t) + j0 * (1 / 2) * ((t1 - a.t) * (t1 - a.t)))
    (hin : -dyn.maxDec ≤ k1 ∧ k1 ≤ dyn.maxAcc) :
    single sq dyn ia a b = [⟨a.t, a.v, ia, j0⟩, ⟨t1, v1, k1, 0⟩,
      ⟨k1 / j1 + b.t, v1 + k1 * (k1 / j1 + b.t - t1), k1, j1⟩, ⟨b.t, b.v, 0, 0⟩] := by
  unfold fac at hf ht1
  unfold jerk1 at hj1
  simp only [single, hj0, hj1]
  simp only [if_neg hne, if_neg hf, ← ht1, ← hk1, ← hv1, if_pos hin]
  rfl

/-- Spec: the slope chosen. -/
def slope1 (sq : K → K) (j0 j1 k0 t0 v0 t3 v3 : K) : K :=
  if fac j0 j1 k0 t0 v0 t3 v3 < 0 then
    k0 + j0 * ((sq (j1 * (-(j0 - j1)) * (j0 * (2 * v3 - 2 * v0) + k0 * k0)) + (j0 - j1) * (t0 * j0 - k0)) /
          (j0 * (j0 - j1)) - t0)
  else k0 + j0 * ((-sq (fac j0 j1 k0 t0 v0 t3 v3) - j0 * (k0 + t3 * j1) + t0 * (j0 * j0)) / (j0 * (j0 - j1)) - t0)

/-- Shape when the slope is limited. -/
theorem single_limited (sq : K → K) (dyn : Dyn K) (ia : K) (a b : EV K) (j0 j1 : K) (hj0 : jerk dyn ia a.k = j0)
    (hj1 : jerk1 dyn a.k = j1) (hne : ¬ ab (j1 - j0) < sm)
    (hout : ¬ (-dyn.maxDec ≤ slope1 sq j0 j1 ia a.t a.v b.t b.v ∧ slope1 sq j0 j1 ia a.t a.v b.t b.v ≤ dyn.maxAcc))
    (k1 t1 v1 : K) (hk1 : k1 = if slope1 sq j0 j1 ia a.t a.v b.t b.v > dyn.maxAcc then dyn.maxAcc else -dyn.maxDec)
    (ht1 : t1 = a.t + (k1 - ia) / j0)
    (hv1 : v1 = a.v + ia * (t1 - a.t) + 1 / 2 * j0 * ((t1 - a.t) * (t1 - a.t))) :
    single sq dyn ia a b = [⟨a.t, a.v, ia, j0⟩, ⟨t1, v1, k1, 0⟩,
      ⟨(b.v - v1) / k1 + t1 + k1 / (2 * j1), b.v + k1 * k1 / (2 * j1), k1, j1⟩,
      ⟨-v1 / k1 + b.v / k1 + t1 - k1 / (2 * j1), b.v, 0, 0⟩] := by
  unfold jerk1 at hj1
  simp only [single, hj0, hj1]
  simp only [if_neg hne]
  unfold slope1 fac at hout hk1
  by_cases hf : j0 * j1 * (2 * a.v * (j1 - j0) + ia * ia + 2 * ia * j1 * (b.t - a.t) +
        j0 * j1 * ((a.t - b.t) * (a.t - b.t)) + 2 * b.v * (j0 - j1)) < 0
  · simp only [if_pos hf] at hout hk1 ⊢
    rw [if_neg hout, ← hk1, ← ht1, ← hv1]
  · simp only [if_neg hf] at hout hk1 ⊢
    rw [if_neg hout, ← hk1, ← ht1, ← hv1]

/-- One target in follow mode, whatever the acceleration at the start: no jump of speed or acceleration from
segment to segment, starting from the current speed and acceleration, ending at the target with zero
acceleration. -/
theorem single_meets (sq : K → K) (hsq : ∀ x, 0 ≤ x → 0 ≤ sq x ∧ sq x * sq x = x) (dyn : Dyn K) (ia : K)
    (a b : EV K) (hra : sm < dyn.accRate) (hrd : sm < dyn.decRate) (hma : 0 < dyn.maxAcc) (hmd : 0 < dyn.maxDec)
    (hopp : jerk dyn ia a.k * jerk1 dyn a.k < 0)
    (hdv : 0 ≤ jerk dyn ia a.k * (2 * b.v - 2 * a.v) + ia * ia) :
    Meets (single sq dyn ia a b) ∧ (∃ rest, single sq dyn ia a b = ⟨a.t, a.v, ia, jerk dyn ia a.k⟩ :: rest) ∧
      ∃ pre t, single sq dyn ia a b = pre ++ [⟨t, b.v, 0, 0⟩] := by
  have hsm := sm_pos (K := K)
  generalize hj0 : jerk dyn ia a.k = j0 at hopp hdv
  generalize hj1 : jerk1 dyn a.k = j1 at hopp
  have h0 : j0 ≠ 0 := by rintro rfl; simp at hopp
  have h1 : j1 ≠ 0 := by rintro rfl; simp at hopp
  have hb0 : sm < |j0| := by
    rw [← hj0]; unfold jerk
    split
    · rw [abs_neg, abs_of_pos (by linarith)]; exact hrd
    · rw [abs_of_pos (by linarith)]; exact hra
  have hne : ¬ ab (j1 - j0) < sm := by
    rw [ab_eq, not_lt]
    rcases mul_neg_iff.mp hopp with ⟨p, q⟩ | ⟨p, q⟩
    · rw [abs_of_pos p] at hb0
      rw [abs_of_neg (by linarith)]; linarith
    · rw [abs_of_neg p] at hb0
      rw [abs_of_pos (by linarith)]; linarith
  have h01 : j0 - j1 ≠ 0 := by
    intro h
    apply hne
    rw [ab_eq, show j1 - j0 = -(j0 - j1) by ring, h]; simpa using hsm
  by_cases hin : -dyn.maxDec ≤ slope1 sq j0 j1 ia a.t a.v b.t b.v ∧ slope1 sq j0 j1 ia a.t a.v b.t b.v ≤ dyn.maxAcc
  swap
  · obtain ⟨k1, hk1⟩ : ∃ k1, k1 = if slope1 sq j0 j1 ia a.t a.v b.t b.v > dyn.maxAcc then dyn.maxAcc
      else -dyn.maxDec := ⟨_, rfl⟩
    obtain ⟨t1, ht1⟩ : ∃ t1, t1 = a.t + (k1 - ia) / j0 := ⟨_, rfl⟩
    obtain ⟨v1, hv1⟩ : ∃ v1, v1 = a.v + ia * (t1 - a.t) + 1 / 2 * j0 * ((t1 - a.t) * (t1 - a.t)) := ⟨_, rfl⟩
    have hk0 : k1 ≠ 0 := by
      rw [hk1]; split
      · exact hma.ne'
      · exact (by linarith : -dyn.maxDec < 0).ne
    rw [single_limited sq dyn ia a b j0 j1 hj0 hj1 hne hin k1 t1 v1 hk1 ht1 hv1]
    refine ⟨⟨⟨?_, ?_⟩, ⟨?_, ?_⟩, ⟨?_, ?_⟩, trivial⟩, ⟨_, rfl⟩, ⟨_, _, by
      rw [show ∀ (x y z w : Sg K), [x, y, z, w] = [x, y, z] ++ [w] from fun _ _ _ _ => rfl]⟩⟩
    · simp only [Sg.at, hv1]
    · simp only [Sg.acc, ht1]; field_simp; ring
    · simp only [Sg.at]; field_simp; ring
    · simp only [Sg.acc]; ring
    · simp only [Sg.at]; field_simp; ring
    · simp only [Sg.acc]; field_simp; ring
  by_cases hf : fac j0 j1 ia a.t a.v b.t b.v < 0
  · obtain ⟨t2, ht2⟩ : ∃ t2, t2 = (sq (j1 * (-(j0 - j1)) * (j0 * (2 * b.v - 2 * a.v) + ia * ia)) +
      (j0 - j1) * (a.t * j0 - ia)) / (j0 * (j0 - j1)) := ⟨_, rfl⟩
    obtain ⟨k1, hk1⟩ : ∃ k1, k1 = ia + j0 * (t2 - a.t) := ⟨_, rfl⟩
    have hin' : -dyn.maxDec ≤ k1 ∧ k1 ≤ dyn.maxAcc := by
      rw [slope1, if_pos hf, ← ht2, ← hk1] at hin; exact hin
    rw [single_two sq dyn ia a b j0 j1 hj0 hj1 hne hf t2 k1 ht2 hk1 hin']
    have hneg : 0 ≤ j1 * (-(j0 - j1)) := by nlinarith [mul_self_nonneg j1]
    obtain ⟨q0, q1⟩ := hsq _ (mul_nonneg hneg hdv)
    generalize sq (j1 * (-(j0 - j1)) * (j0 * (2 * b.v - 2 * a.v) + ia * ia)) = q at q0 q1 ht2
    have hkq : k1 * (j0 - j1) = q := by rw [hk1, ht2]; field_simp; ring
    have hmeet := meet_two j0 j1 ia a.v b.v k1 (t2 - a.t) (-(k1 / j1)) h0 h1 h01 hk1 rfl (by
      apply mul_right_cancel₀ h01
      rw [show k1 * k1 * (j0 - j1) * (j0 - j1) = (k1 * (j0 - j1)) * (k1 * (j0 - j1)) by ring, hkq, q1]
      ring)
    refine ⟨⟨⟨?_, ?_⟩, ⟨?_, ?_⟩, trivial⟩, ⟨_, rfl⟩, ⟨_, _, by
      rw [show ∀ (x y z : Sg K), [x, y, z] = [x, y] ++ [z] from fun _ _ _ => rfl]⟩⟩
    · simp only [Sg.at]; ring
    · simp only [Sg.acc]; exact hk1.symm
    · simp only [Sg.at]
      rw [show t2 - k1 / j1 - t2 = -(k1 / j1) by ring]
      exact hmeet
    · simp only [Sg.acc]
      rw [show t2 - k1 / j1 - t2 = -(k1 / j1) by ring]
      field_simp; ring
  · obtain ⟨t1, ht1⟩ : ∃ t1, t1 = (-sq (fac j0 j1 ia a.t a.v b.t b.v) - j0 * (ia + b.t * j1) + a.t * (j0 * j0)) /
      (j0 * (j0 - j1)) := ⟨_, rfl⟩
    obtain ⟨k1, hk1⟩ : ∃ k1, k1 = ia + j0 * (t1 - a.t) := ⟨_, rfl⟩
    obtain ⟨v1, hv1⟩ : ∃ v1, v1 = a.v + ia * (t1 - a.t) + j0 * (1 / 2) * ((t1 - a.t) * (t1 - a.t)) := ⟨_, rfl⟩
    have hin' : -dyn.maxDec ≤ k1 ∧ k1 ≤ dyn.maxAcc := by
      rw [slope1, if_neg hf, ← ht1, ← hk1] at hin; exact hin
    rw [single_three sq dyn ia a b j0 j1 hj0 hj1 hne hf t1 k1 v1 ht1 hk1 hv1 hin']
    obtain ⟨q0, q1⟩ := hsq _ (not_lt.mp hf)
    generalize sq (fac j0 j1 ia a.t a.v b.t b.v) = r at q0 q1 ht1
    have hmeet := meet_three j0 j1 ia a.v b.v k1 (t1 - a.t) (k1 / j1 + b.t - t1) (-(k1 / j1)) (b.t - a.t) r h0 h1 h01
      (by rw [q1]; unfold fac; ring) (by rw [ht1]; field_simp; ring) hk1 rfl (by ring)
    refine ⟨⟨⟨?_, ?_⟩, ⟨?_, ?_⟩, ⟨?_, ?_⟩, trivial⟩, ⟨_, rfl⟩, ⟨_, _, by
      rw [show ∀ (x y z w : Sg K), [x, y, z, w] = [x, y, z] ++ [w] from fun _ _ _ _ => rfl]⟩⟩
    · simp only [Sg.at, hv1]; ring
    · simp only [Sg.acc]; exact hk1.symm
    · simp only [Sg.at]; ring
    · simp only [Sg.acc]; ring
    · simp only [Sg.at]
      rw [show b.t - (k1 / j1 + b.t) = -(k1 / j1) by ring, hv1]
      exact hmeet
    · simp only [Sg.acc]
      rw [show b.t - (k1 / j1 + b.t) = -(k1 / j1) by ring]
      field_simp; ring

theorem smooth_of (l : List (Sg K)) (h1 : Meets l) (h2 : InOrder l) : Smooth l := by
  induction l with
  | nil => trivial
  | cons p rest ih =>
    cases rest with
    | nil => trivial
    | cons q rest => exact ⟨⟨h2.1, h1.1.1, h1.1.2⟩, ih h1.2 h2.2⟩

/-- Between two joints the acceleration lies between the accelerations at the joints. -/
theorem acc_between (p q : Sg K) (h : Joint p q) (lo hi : K) (hp : lo ≤ p.k ∧ p.k ≤ hi) (hq : lo ≤ q.k ∧ q.k ≤ hi)
    (t : K) (h1 : p.t ≤ t) (h2 : t ≤ q.t) : lo ≤ p.acc t ∧ p.acc t ≤ hi := by
  obtain ⟨_, _, h3⟩ := h
  have e1 : p.acc t = p.k + p.j * (t - p.t) := rfl
  have e2 : p.acc q.t = p.k + p.j * (q.t - p.t) := rfl
  rw [← h3, e2] at hq
  rw [e1]
  rcases le_total 0 p.j with hj | hj
  · have a1 := mul_nonneg hj (sub_nonneg.mpr h1)
    have a2 := mul_le_mul_of_nonneg_left (sub_le_sub_right h2 p.t) hj
    constructor <;> linarith
  · have a1 := mul_nonpos_of_nonpos_of_nonneg hj (sub_nonneg.mpr h1)
    have a2 := mul_le_mul_of_nonpos_left (sub_le_sub_right h2 p.t) hj
    constructor <;> linarith

theorem ratio_pos (j0 j1 : K) (hopp : j0 * j1 < 0) : 0 < (j1 - j0) / j1 ∧ 0 < j0 * (j0 - j1) ∧ j1 * (j0 - j1) < 0 := by
  have h0 : j0 ≠ 0 := by rintro rfl; simp at hopp
  have h1 : j1 ≠ 0 := by rintro rfl; simp at hopp
  have s0 := mul_self_pos.mpr h0
  have s1 := mul_self_pos.mpr h1
  refine ⟨?_, by linarith [mul_sub j0 j0 j1], by linarith [mul_sub j1 j0 j1, mul_comm j0 j1]⟩
  rw [show (j1 - j0) / j1 = (j1 * j1 - j0 * j1) / (j1 * j1) by field_simp]
  exact div_pos (by linarith) s1

/-- The slope chosen has the sign of the jerk, and the speed needed for the two jerks does not exceed the
speed difference. -/
theorem slope1_spec (sq : K → K) (hsq : ∀ x, 0 ≤ x → 0 ≤ sq x ∧ sq x * sq x = x) (j0 j1 t0 v0 t3 v3 : K)
    (hopp : j0 * j1 < 0) (hdv : 0 ≤ j0 * (v3 - v0)) (hT : t0 ≤ t3) (k1 : K)
    (hk1 : k1 = slope1 sq j0 j1 0 t0 v0 t3 v3) :
    0 ≤ j0 * k1 ∧ k1 * k1 * ((j1 - j0) / j1) ≤ 2 * (j0 * (v3 - v0)) ∧
      (¬ fac j0 j1 0 t0 v0 t3 v3 < 0 → 0 ≤ k1 / j1 + t3 - (t0 + k1 / j0)) := by
  have h0 : j0 ≠ 0 := by rintro rfl; simp at hopp
  have h1 : j1 ≠ 0 := by rintro rfl; simp at hopp
  obtain ⟨rp, r1, r2⟩ := ratio_pos j0 j1 hopp
  have h01 : j0 - j1 ≠ 0 := by intro h; rw [h] at r1; simp at r1
  by_cases hf : fac j0 j1 0 t0 v0 t3 v3 < 0
  · rw [slope1, if_pos hf] at hk1
    obtain ⟨q0, q1⟩ := hsq (j1 * (-(j0 - j1)) * (j0 * (2 * v3 - 2 * v0) + 0 * 0))
      (mul_nonneg (by linarith [mul_neg j1 (j0 - j1)]) (by linarith [show j0 * (2 * v3 - 2 * v0) = 2 * (j0 * (v3 - v0)) by ring]))
    generalize sq (j1 * (-(j0 - j1)) * (j0 * (2 * v3 - 2 * v0) + 0 * 0)) = q at q0 q1 hk1
    have hkq : k1 = q / (j0 - j1) := by rw [hk1]; field_simp; ring
    refine ⟨?_, le_of_eq ?_, fun h => absurd hf h⟩
    · rw [hkq, show j0 * (q / (j0 - j1)) = q * (j0 * (j0 - j1)) / ((j0 - j1) * (j0 - j1)) by field_simp]
      exact div_nonneg (mul_nonneg q0 r1.le) (mul_self_nonneg _)
    · rw [hkq]
      have e : q / (j0 - j1) * (q / (j0 - j1)) = q * q / ((j0 - j1) * (j0 - j1)) := by field_simp
      rw [e, q1]
      field_simp
      ring
  · rw [slope1, if_neg hf] at hk1
    obtain ⟨q0, q1⟩ := hsq _ (not_lt.mp hf)
    have hfe : fac j0 j1 0 t0 v0 t3 v3 = (j0 * j1 * (t3 - t0)) * (j0 * j1 * (t3 - t0)) +
        2 * (j1 * (j0 - j1)) * (j0 * (v3 - v0)) := by unfold fac; ring
    generalize sq (fac j0 j1 0 t0 v0 t3 v3) = r at q0 q1 hk1
    rw [hfe] at q1
    have hle : r ≤ -(j0 * j1 * (t3 - t0)) := by
      have : r * r ≤ (-(j0 * j1 * (t3 - t0))) * (-(j0 * j1 * (t3 - t0))) := by
        rw [q1]
        have := mul_nonpos_of_nonpos_of_nonneg r2.le hdv
        linarith [neg_mul_neg (j0 * j1 * (t3 - t0)) (j0 * j1 * (t3 - t0))]
      have h2 := mul_nonpos_of_nonpos_of_nonneg hopp.le (sub_nonneg.mpr hT)
      by_contra hc
      exact absurd (mul_self_lt_mul_self (by linarith) (not_le.mp hc)) (not_lt.mpr this)
    have hka : k1 = (-r - j0 * j1 * (t3 - t0)) / (j0 - j1) := by rw [hk1]; field_simp; ring
    have hb : k1 / j1 + t3 - (t0 + k1 / j0) = r / (-(j0 * j1)) := by
      rw [hka]; field_simp; ring
    have hb0 : 0 ≤ k1 / j1 + t3 - (t0 + k1 / j0) := by rw [hb]; exact div_nonneg q0 (by linarith)
    have hk : 0 ≤ j0 * k1 := by
      rw [hka, show j0 * ((-r - j0 * j1 * (t3 - t0)) / (j0 - j1)) =
        (-r - j0 * j1 * (t3 - t0)) * (j0 * (j0 - j1)) / ((j0 - j1) * (j0 - j1)) by field_simp]
      exact div_nonneg (mul_nonneg (by linarith) r1.le) (mul_self_nonneg _)
    refine ⟨hk, ?_, fun _ => hb0⟩
    -- the speed difference is that of the two jerks and the linear part
    have hm := meet_three j0 j1 0 v0 v3 k1 (k1 / j0) (k1 / j1 + t3 - (t0 + k1 / j0)) (-(k1 / j1)) (t3 - t0) r h0 h1 h01
      (by rw [q1]; ring) (by rw [hka]; field_simp; ring) (by field_simp; ring) rfl (by ring)
    have hprod := mul_nonneg hk hb0
    have e2 : 2 * (j0 * (v3 - v0)) = k1 * k1 * ((j1 - j0) / j1) +
        2 * (j0 * k1 * (k1 / j1 + t3 - (t0 + k1 / j0))) := by
      rw [← hm]; field_simp; ring
    linarith

/-- One target in follow mode from zero acceleration: the segments are in order of time, the acceleration
never exceeds the limits and always points towards the target, so the speed does not overshoot. -/
theorem single_ordered (sq : K → K) (hsq : ∀ x, 0 ≤ x → 0 ≤ sq x ∧ sq x * sq x = x) (dyn : Dyn K)
    (a b : EV K) (hra : sm < dyn.accRate) (hrd : sm < dyn.decRate) (hma : 0 < dyn.maxAcc) (hmd : 0 < dyn.maxDec)
    (hT : a.t ≤ b.t) (hs : 0 ≤ a.k ∧ a.v ≤ b.v ∨ a.k < 0 ∧ b.v ≤ a.v) :
    InOrder (single sq dyn 0 a b) ∧ ∀ s ∈ single sq dyn 0 a b, (-dyn.maxDec ≤ s.k ∧ s.k ≤ dyn.maxAcc) ∧
      (a.v ≤ b.v ∧ 0 ≤ s.k ∨ b.v ≤ a.v ∧ s.k ≤ 0) := by
  have hsm := sm_pos (K := K)
  have hcase : (0 < jerk dyn 0 a.k ∧ jerk1 dyn a.k < 0 ∧ a.v ≤ b.v ∨
      jerk dyn 0 a.k < 0 ∧ 0 < jerk1 dyn a.k ∧ b.v ≤ a.v) := by
    unfold jerk jerk1
    rcases hs with ⟨h1, h2⟩ | ⟨h1, h2⟩
    · left
      rw [if_neg (by linarith), if_neg (by linarith)]
      exact ⟨by linarith, by linarith, h2⟩
    · right
      rw [if_pos (by linarith), if_pos (by linarith)]
      exact ⟨by linarith, by linarith, h2⟩
  generalize hj0 : jerk dyn 0 a.k = j0 at hcase
  generalize hj1 : jerk1 dyn a.k = j1 at hcase
  have hopp : j0 * j1 < 0 := by
    rcases hcase with ⟨h1, h2, _⟩ | ⟨h1, h2, _⟩
    · exact mul_neg_of_pos_of_neg h1 h2
    · exact mul_neg_of_neg_of_pos h1 h2
  have hdv : 0 ≤ j0 * (b.v - a.v) := by
    rcases hcase with ⟨h1, _, h2⟩ | ⟨h1, _, h2⟩
    · exact mul_nonneg h1.le (by linarith)
    · exact mul_nonneg_of_nonpos_of_nonpos h1.le (by linarith)
  have h0 : j0 ≠ 0 := by rintro rfl; simp at hopp
  have h1 : j1 ≠ 0 := by rintro rfl; simp at hopp
  obtain ⟨rp, r1, r2⟩ := ratio_pos j0 j1 hopp
  have hb0 : sm < |j0| := by
    rw [← hj0]; unfold jerk
    split
    · rw [abs_neg, abs_of_pos (by linarith)]; exact hrd
    · rw [abs_of_pos (by linarith)]; exact hra
  have hne : ¬ ab (j1 - j0) < sm := by
    rw [ab_eq, not_lt]
    rcases mul_neg_iff.mp hopp with ⟨p, q⟩ | ⟨p, q⟩
    · rw [abs_of_pos p] at hb0
      rw [abs_of_neg (by linarith)]; linarith
    · rw [abs_of_neg p] at hb0
      rw [abs_of_pos (by linarith)]; linarith
  obtain ⟨k, hk⟩ : ∃ k, k = slope1 sq j0 j1 0 a.t a.v b.t b.v := ⟨_, rfl⟩
  obtain ⟨s1, s2, s3⟩ := slope1_spec sq hsq j0 j1 a.t a.v b.t b.v hopp hdv hT k hk
  -- signs of a slope with the sign of the first jerk
  have hsign : ∀ x : K, 0 ≤ j0 * x → a.v ≤ b.v ∧ 0 ≤ x ∨ b.v ≤ a.v ∧ x ≤ 0 := by
    intro x hx
    rcases hcase with ⟨p, _, q⟩ | ⟨p, _, q⟩
    · exact Or.inl ⟨q, nonneg_of_mul_nonneg_right hx p⟩
    · exact Or.inr ⟨q, by by_contra hc; exact absurd (mul_neg_of_neg_of_pos p (not_le.mp hc)) (not_lt.mpr hx)⟩
  have hd1 : ∀ x : K, 0 ≤ j0 * x → 0 ≤ x / j0 := by
    intro x hx
    rw [show x / j0 = j0 * x / (j0 * j0) by field_simp]
    exact div_nonneg hx (mul_self_nonneg _)
  have hd2 : ∀ x : K, 0 ≤ j0 * x → x / j1 ≤ 0 := by
    intro x hx
    rw [show x / j1 = (j0 * x) * (j0 * j1) / ((j0 * j1) * (j0 * j1)) by field_simp]
    exact div_nonpos_of_nonpos_of_nonneg (mul_nonpos_of_nonneg_of_nonpos hx hopp.le) (mul_self_nonneg _)
  have hz : (-dyn.maxDec ≤ (0 : K) ∧ (0 : K) ≤ dyn.maxAcc) ∧ (a.v ≤ b.v ∧ (0 : K) ≤ 0 ∨ b.v ≤ a.v ∧ (0 : K) ≤ 0) :=
    ⟨⟨by linarith, hma.le⟩, hsign 0 (by simp)⟩
  by_cases hin : -dyn.maxDec ≤ k ∧ k ≤ dyn.maxAcc
  swap
  · obtain ⟨k1, hk1⟩ : ∃ k1, k1 = if slope1 sq j0 j1 0 a.t a.v b.t b.v > dyn.maxAcc then dyn.maxAcc
      else -dyn.maxDec := ⟨_, rfl⟩
    obtain ⟨t1, ht1⟩ : ∃ t1, t1 = a.t + (k1 - 0) / j0 := ⟨_, rfl⟩
    obtain ⟨v1, hv1⟩ : ∃ v1, v1 = a.v + 0 * (t1 - a.t) + 1 / 2 * j0 * ((t1 - a.t) * (t1 - a.t)) := ⟨_, rfl⟩
    rw [single_limited sq dyn 0 a b j0 j1 hj0 hj1 hne (hk ▸ hin) k1 t1 v1 hk1 ht1 hv1]
    rw [← hk] at hk1
    have hlim : 0 < j0 * k1 ∧ k1 * k1 ≤ k * k ∧ -dyn.maxDec ≤ k1 ∧ k1 ≤ dyn.maxAcc := by
      rcases hcase with ⟨p, _, _⟩ | ⟨p, _, _⟩
      · have hkn : 0 ≤ k := nonneg_of_mul_nonneg_right s1 p
        have hgt : k > dyn.maxAcc := by
          by_contra h; exact hin ⟨by linarith, not_lt.mp h⟩
        rw [if_pos hgt] at hk1
        rw [hk1]
        exact ⟨mul_pos p hma, mul_self_le_mul_self hma.le hgt.le, by linarith, le_refl _⟩
      · have hkn : k ≤ 0 := by
          by_contra hc; exact absurd (mul_neg_of_neg_of_pos p (not_le.mp hc)) (not_lt.mpr s1)
        have hlt : k < -dyn.maxDec := by
          by_contra h; exact hin ⟨not_lt.mp h, by linarith⟩
        rw [if_neg (by linarith)] at hk1
        rw [hk1]
        refine ⟨mul_pos_of_neg_of_neg p (by linarith), ?_, le_refl _, by linarith⟩
        have := mul_self_le_mul_self hmd.le (by linarith : dyn.maxDec ≤ -k)
        linarith [neg_mul_neg dyn.maxDec dyn.maxDec, neg_mul_neg k k]
    obtain ⟨l1, l2, l3, l4⟩ := hlim
    have hk0 : k1 ≠ 0 := by rintro rfl; simp at l1
    have hlin : 0 ≤ (b.v - v1) / k1 + k1 / (2 * j1) := by
      have e : (b.v - v1) / k1 + k1 / (2 * j1) =
          (2 * (j0 * (b.v - a.v)) - k1 * k1 * ((j1 - j0) / j1)) / (2 * (j0 * k1)) := by
        rw [hv1, ht1]; field_simp; ring
      rw [e]
      apply div_nonneg _ (by linarith)
      have := mul_le_mul_of_nonneg_right l2 rp.le
      linarith
    have hd3 := hd1 k1 l1.le
    have hd4 := hd2 k1 l1.le
    have hg : (-dyn.maxDec ≤ k1 ∧ k1 ≤ dyn.maxAcc) ∧ (a.v ≤ b.v ∧ 0 ≤ k1 ∨ b.v ≤ a.v ∧ k1 ≤ 0) :=
      ⟨⟨l3, l4⟩, hsign k1 l1.le⟩
    refine ⟨⟨?_, ?_, ?_, trivial⟩, ?_⟩
    · simp only [ht1, sub_zero]; linarith
    · simp only; linarith
    · simp only
      have e : -v1 / k1 + b.v / k1 + t1 - k1 / (2 * j1) - ((b.v - v1) / k1 + t1 + k1 / (2 * j1)) = -(k1 / j1) := by
        field_simp; ring
      linarith
    · intro s hs
      simp only [List.mem_cons, List.not_mem_nil, or_false] at hs
      rcases hs with rfl | rfl | rfl | rfl
      · exact hz
      · exact hg
      · exact hg
      · exact hz
  have hg : (-dyn.maxDec ≤ k ∧ k ≤ dyn.maxAcc) ∧ (a.v ≤ b.v ∧ 0 ≤ k ∨ b.v ≤ a.v ∧ k ≤ 0) := ⟨hin, hsign k s1⟩
  have hd3 := hd1 k s1
  have hd4 := hd2 k s1
  by_cases hf : fac j0 j1 0 a.t a.v b.t b.v < 0
  · obtain ⟨t2, ht2⟩ : ∃ t2, t2 = (sq (j1 * (-(j0 - j1)) * (j0 * (2 * b.v - 2 * a.v) + 0 * 0)) +
      (j0 - j1) * (a.t * j0 - 0)) / (j0 * (j0 - j1)) := ⟨_, rfl⟩
    have hk1 : k = 0 + j0 * (t2 - a.t) := by rw [hk, slope1, if_pos hf, ← ht2]
    rw [single_two sq dyn 0 a b j0 j1 hj0 hj1 hne hf t2 k ht2 hk1 hin]
    have e : t2 - a.t = k / j0 := by rw [hk1]; field_simp; ring
    refine ⟨⟨?_, ?_, trivial⟩, ?_⟩
    · simp only; linarith
    · simp only; linarith
    · intro s hs
      simp only [List.mem_cons, List.not_mem_nil, or_false] at hs
      rcases hs with rfl | rfl | rfl
      · exact hz
      · exact hg
      · exact hz
  · obtain ⟨t1, ht1⟩ : ∃ t1, t1 = (-sq (fac j0 j1 0 a.t a.v b.t b.v) - j0 * (0 + b.t * j1) + a.t * (j0 * j0)) /
      (j0 * (j0 - j1)) := ⟨_, rfl⟩
    have hk1 : k = 0 + j0 * (t1 - a.t) := by rw [hk, slope1, if_neg hf, ← ht1]
    obtain ⟨v1, hv1⟩ : ∃ v1, v1 = a.v + 0 * (t1 - a.t) + j0 * (1 / 2) * ((t1 - a.t) * (t1 - a.t)) := ⟨_, rfl⟩
    rw [single_three sq dyn 0 a b j0 j1 hj0 hj1 hne hf t1 k v1 ht1 hk1 hv1 hin]
    have e : t1 - a.t = k / j0 := by rw [hk1]; field_simp; ring
    have hs3 := s3 hf
    refine ⟨⟨?_, ?_, ?_, trivial⟩, ?_⟩
    · simp only; linarith
    · simp only; linarith
    · simp only; linarith
    · intro s hs
      simp only [List.mem_cons, List.not_mem_nil, or_false] at hs
      rcases hs with rfl | rfl | rfl | rfl
      · exact hz
      · exact hg
      · exact hg
      · exact hz
end

/-- One target in follow mode, from zero acceleration, on the reals: the speed goes from the current one to the
target without a jump of speed or acceleration, within the limits on acceleration, without overshoot, and the
profile ends at the target with zero acceleration. -/
theorem single_target_smooth (dyn : Dyn ℝ) (off t0 v0 : ℝ) (e : Entry ℝ)
    (hra : sm < dyn.accRate) (hrd : sm < dyn.decRate) (hma : 0 < dyn.maxAcc) (hmd : 0 < dyn.maxDec)
    (ht : sm < e.time) (hb : InBounds dyn off v0 e ∨ sm ≤ |e.speed + off - v0|) :
    ∃ segs, start Real.sqrt true dyn off 0 t0 v0 [e] = some segs ∧ Smooth segs ∧
      (∃ a rest, segs = a :: rest ∧ a.t = t0 ∧ a.v = v0 ∧ a.k = 0) ∧
      (∃ pre t, segs = pre ++ [⟨t, e.speed + off, 0, 0⟩]) ∧
      ∀ s ∈ segs, (-dyn.maxDec ≤ s.k ∧ s.k ≤ dyn.maxAcc) ∧
        (v0 ≤ e.speed + off ∧ 0 ≤ s.k ∨ e.speed + off ≤ v0 ∧ s.k ≤ 0) := by
  have hreg : Reg dyn off 0 none v0 [e] := ⟨ht, hb, fun h => absurd h (by omega), trivial⟩
  obtain ⟨b, bf, g1, g2⟩ := entryLoop_poly dyn off 0 1 hma hmd [e] 0 t0 v0 [] (by simp) rfl (by simpa using hreg)
  have hv : vertices true dyn off 0 t0 v0 [e] = some (poly dyn off t0 v0 [e]) := by
    simp only [vertices]
    rw [if_pos ht]
    show (entryLoop dyn off 0 1 0 [e] t0 (EV.mk2 t0 v0) []).map _ = _
    rw [g1]
    simpa using g2
  obtain ⟨_, hdp⟩ := slope_eq dyn off v0 e hma hmd ht hb
  set A := (EV.mk2 t0 v0).setK ((e.speed + off - v0) / dur dyn off v0 e) with hA
  set B := EV.mk3 (t0 + dur dyn off v0 e) (e.speed + off) (0 : ℝ) with hB
  have hstart : start Real.sqrt true dyn off 0 t0 v0 [e] = some (single Real.sqrt dyn 0 A B) := by
    unfold start
    rw [hv]
    rfl
  have hsq : ∀ x : ℝ, 0 ≤ x → 0 ≤ Real.sqrt x ∧ Real.sqrt x * Real.sqrt x = x :=
    fun x hx => ⟨Real.sqrt_nonneg x, Real.mul_self_sqrt hx⟩
  have hAk : A.k = (e.speed + off - v0) / dur dyn off v0 e := rfl
  have hs : 0 ≤ A.k ∧ A.v ≤ B.v ∨ A.k < 0 ∧ B.v ≤ A.v := by
    show 0 ≤ A.k ∧ v0 ≤ e.speed + off ∨ A.k < 0 ∧ e.speed + off ≤ v0
    rcases le_or_gt v0 (e.speed + off) with h | h
    · exact Or.inl ⟨by rw [hAk]; exact div_nonneg (by linarith) hdp.le, h⟩
    · exact Or.inr ⟨by rw [hAk]; exact div_neg_of_neg_of_pos (by linarith) hdp, h.le⟩
  have hsm := sm_pos (K := ℝ)
  have hT : A.t ≤ B.t := by
    show t0 ≤ t0 + dur dyn off v0 e
    linarith
  obtain ⟨o1, o2⟩ := single_ordered Real.sqrt hsq dyn A B hra hrd hma hmd hT hs
  have hjj : jerk dyn 0 A.k * jerk1 dyn A.k < 0 ∧ 0 ≤ jerk dyn 0 A.k * (2 * B.v - 2 * A.v) + (0 : ℝ) * 0 := by
    unfold jerk jerk1
    rcases hs with ⟨h1, h2⟩ | ⟨h1, h2⟩
    · rw [if_neg (by linarith), if_neg (by linarith)]
      exact ⟨mul_neg_of_pos_of_neg (by linarith) (by linarith),
        by have := mul_nonneg (by linarith : 0 ≤ dyn.accRate) (by linarith : 0 ≤ 2 * B.v - 2 * A.v); linarith⟩
    · rw [if_pos (by linarith), if_pos (by linarith)]
      exact ⟨mul_neg_of_neg_of_pos (by linarith) (by linarith),
        by have := mul_nonneg_of_nonpos_of_nonpos (by linarith : -dyn.decRate ≤ 0)
              (by linarith : 2 * B.v - 2 * A.v ≤ 0); linarith⟩
  obtain ⟨m1, ⟨rest, m2⟩, pre, t, m3⟩ := single_meets Real.sqrt hsq dyn 0 A B hra hrd hma hmd hjj.1 hjj.2
  exact ⟨_, hstart, smooth_of _ m1 o1, ⟨_, _, m2, rfl, rfl, rfl⟩, ⟨pre, t, m3⟩, o2⟩

/-! What does not hold, and cases meeting the hypotheses -/

/-- Limits used below. -/
def dynA : Dyn Rat := ⟨10, 10, 10, 10, 100⟩

/-- Run the action with the steps given. -/
def runAll (segs : List (Sg Rat)) (n : Nat) (last : Sg Rat) (v0 : Rat) (ts : List Rat) : List (Rat × Bool) :=
  (ts.foldl (fun (acc : Run Rat × List (Rat × Bool)) t =>
    let r := step last n acc.1 t
    (r.1, acc.2 ++ [(r.1.speed, r.2)])) (⟨segs, 0, v0⟩, [])).2

def exEntries : List (Entry Rat) := [⟨2, 10⟩, ⟨3, 4⟩, ⟨1, 8⟩]

example : Reg dynA 0 0 none 0 exEntries := by
  unfold exEntries
  simp only [Reg, dur, InBounds, want, dynA, sm]
  norm_num

/-- The speed planned at a time. -/
def speedAt (segs : List (Sg Rat)) (t : Rat) : Option Rat := (seek t segs).head?.map (·.at t)

/-- Start, then run the steps given: the outcome of each. -/
def simulate (follow : Bool) (dyn : Dyn Rat) (ia t0 v0 : Rat) (es : List (Entry Rat)) (ts : List Rat) :
    Option (List (Rat × Bool)) :=
  (start (fun x => x) follow dyn 0 ia t0 v0 es).map fun l => runAll l es.length (l.getLastD ⟨0, 0, 0, 0⟩) v0 ts

example : simulate false dynA 0 0 0 exEntries [1, 3, 11 / 2, 6] =
    some [(5, false), (8, false), (6, false), (8, true)] := by decide +kernel

/-- With limits that need more time than specified: 10 m/s take 2 s instead of 1 s. -/
example : simulate false ⟨5, 5, 10, 10, 100⟩ 0 0 0 [⟨1, 10⟩, ⟨3, 4⟩] [1, 2, 7 / 2, 5] =
    some [(5, false), (10, false), (7, false), (4, true)] := by decide +kernel

example : Reg (⟨5, 5, 10, 10, 100⟩ : Dyn Rat) 0 0 none 0 [⟨1, 10⟩, ⟨3, 4⟩] := by
  simp only [Reg, dur, InBounds, want, sm]
  norm_num [abs]

/-- A follow profile that meets the hypotheses of `follow_smooth`. -/
example : (followLoop dynA (followInit dynA 0 0 ((EV.mk2 0 0).setK (firstSlope dynA 0 0 ⟨5, 5⟩))).1
    (poly dynA 0 0 0 [⟨5, 5⟩, ⟨5, 0⟩])).1.follow = true := by decide +kernel

example : Reg dynA 0 1 none 0 [⟨5, 5⟩, ⟨5, 0⟩] := by
  simp only [Reg, dur, InBounds, want, dynA, sm]
  norm_num [abs]

/-- Position mode: entries with the same slope all through are merged, and the merged last vertex keeps that
slope, so the speed goes on past the last target and the action does not end: targets 1, 2 and 3 at 1, 2 and
3 seconds; unless a step falls on 3 seconds the speed is 5 at 5 seconds, and 12 from then on. -/
theorem position_same_slope_fails :
    simulate false dynA 0 0 0 [⟨0, 0⟩, ⟨1, 1⟩, ⟨1, 2⟩, ⟨1, 3⟩] [2, 5 / 2, 7 / 2, 5, 12, 14] =
      some [(2, false), (5 / 2, false), (7 / 2, false), (5, false), (12, false), (12, false)] := by decide +kernel

/-- Entries without time: the first vertex, at the current speed, is replaced by the first target, so that the
speed jumps: from standstill to target 10 and back to 0 with acceleration 5 and deceleration 10, the first
step, 0.1 s after the start, sets 29. -/
theorem omitted_times_jump_fails :
    simulate false ⟨5, 10, 10, 10, 100⟩ 0 0 0 [⟨-1, 10⟩, ⟨-1, 0⟩] [1 / 10] = some [(29, false)] := by decide +kernel

/-- Three entries without time: the vertex before the only one is read. -/
theorem omitted_times_underrun_fails (follow : Bool) :
    start (fun x => x) follow ⟨5, 10, 10, 10, 100⟩ 0 0 0 0 [⟨-1, 10⟩, ⟨-1, 0⟩, ⟨-1, (5 : Rat)⟩] = none := by
  cases follow <;> decide +kernel

/-- The action ends early if the last entry keeps the speed of the one before: planned until 6 s, it ends at
1 s. -/
theorem constant_end_early_fails :
    (endOf dynA 0 0 0 [⟨1, 10⟩, ⟨5, 10⟩]).1 = 6 ∧
    simulate false dynA 0 0 0 [⟨1, 10⟩, ⟨5, 10⟩] [1 / 2, 1] = some [(5, false), (10, true)] := by decide +kernel

/-- A step over the whole profile when the speed is that of the end already: the profile is skipped and the
action never ends. -/
theorem skipped_never_ends : ∃ (segs : List (Sg Rat)) (last : Sg Rat),
    start (fun x => x) false dynA 0 0 0 0 [⟨1, 1⟩, ⟨1, 0⟩] = some segs ∧ segs.getLast? = some last ∧
    last.t = 2 ∧ ∀ t, 2 < t → step last 2 ⟨segs, 0, 0⟩ t = (⟨segs, 0, 0⟩, false) := by
  refine ⟨[⟨0, 0, 1, 0⟩, ⟨1, 1, -1, 0⟩, ⟨2, 0, 0, 0⟩], ⟨2, 0, 0, 0⟩, by decide +kernel, by decide +kernel, rfl, ?_⟩
  intro t ht
  have hg : ¬ (t < (2 : Rat) + 10 ∧ ¬ (t > 2 ∧ ab ((0 : Rat) - 0) < sm)) := by
    rintro ⟨_, h⟩
    exact h ⟨ht, by decide +kernel⟩
  simp only [step]
  simp only [hg, if_false]
  rw [if_neg (by omega)]

/-- Follow mode: two first entries with the same slope make the profile miss its targets; the last target 4 is
missed, the action ends at 3.95. -/
theorem follow_same_slope_fails :
    simulate true dynA 0 0 0 [⟨1, 1⟩, ⟨1, 2⟩, ⟨1, 4⟩] [1, 2, 3, 4] =
      some [(19 / 20, false), (157 / 80, false), (39 / 10, false), (79 / 20, true)] := by decide +kernel

/-- Follow mode: the limit on speed is checked at the joints only; in between it is exceeded: limit 9, speed
9.25 at 10.25 s, without falling back to linear mode. -/
theorem follow_speed_limit_fails :
    (start (fun x => x) true (⟨10, 10, 1, 1, 9⟩ : Dyn Rat) 0 0 0 0 [⟨10, 10⟩, ⟨10, 0⟩]).map
      (fun segs => (segs.all (within ⟨10, 10, 1, 1, 9⟩), speedAt segs (41 / 4))) =
      some (true, some (37 / 4)) := by decide +kernel

/-- Follow mode with one target and an initial acceleration: when no solution is found the segments are built
from zeros, and the speed jumps: at 100 s with speed 10, acceleration 2 and target 11 in 2 s, the first step
sets about -5010. -/
theorem single_no_solution_fails :
    simulate true ⟨10, 10, 1, 1, 100⟩ 2 100 10 [⟨2, 11⟩] [1001 / 10] = some [(-1002001 / 200, false)] := by
  decide +kernel

/-- Follow mode: if the first entry keeps the speed, the initial acceleration is dropped at once, whatever the
limit on jerk: with acceleration 2 at the start the first segment has acceleration 0. -/
theorem follow_initial_acc_fails :
    (start (fun x => x) true (⟨10, 10, 1, 1, 100⟩ : Dyn Rat) 0 2 0 10 [⟨5, 10⟩, ⟨5, 20⟩]).map
      (fun segs => segs.head?) = some (some ⟨0, 10, 0, 0⟩) := by decide +kernel

/-- Follow mode, when no smooth solution exists: the action falls back to linear mode in the middle, and the
speed jumps at the change: with targets 5, 0, 1 and 1 the speed is above 5 at 10.5 s and 1 at 10.6 s. -/
theorem follow_fallback_jump_fails :
    simulate true dynA 0 0 0 [⟨5, 5⟩, ⟨5, 0⟩, ⟨1 / 10, 1⟩, ⟨10, 2⟩] [9, 21 / 2, 106 / 10] =
      some [(1, false), (401 / 80, false), (21 / 20, false)] := by decide +kernel

/-- The copy of an action forgets its limits: the copy of a profile that takes 2 s within its limits takes the
1 s specified, with twice the acceleration allowed. -/
theorem copy_forgets_limits_fails :
    simulate false ⟨5, 5, 10, 10, 100⟩ 0 0 0 [⟨1, 10⟩] [1 / 2, 1] = some [(5 / 2, false), (5, false)] ∧
    simulate false (copyDyn ⟨5, 5, 10, 10, 100⟩ 10000000000) 0 0 0 [⟨1, 10⟩] [1 / 2, 1] =
      some [(5, false), (10, true)] := by decide +kernel
end Verif.Profile
