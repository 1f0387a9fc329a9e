import Verif.Replay.Timeline

/-! C17: look-up of a recorded quantity. -/
namespace Verif.Replay
open Verif.Common
variable {α : Type}

theorem small_pos : 0 < small := by decide +kernel

/-- Specification: `e` is the entry in force at time `t`: the last one that is not after `t` (up to the
tolerance), or the first one if all are after `t`. -/
def InForce (values : List (Rat × α)) (t : Rat) (e : Rat × α) : Prop :=
  ∃ i, values[i]? = some e ∧ (e.1 ≤ t + small ∨ i = 0) ∧ ∀ j f, i < j → values[j]? = some f → t + small < f.1

/-- Specification: recorded times differ by at least twice the tolerance. -/
def Separated (values : List (Rat × α)) : Prop := values.Pairwise (fun a b => a.1 + 2 * small ≤ b.1)

/-- Specification: recorded times do not decrease. -/
def Sorted (values : List (Rat × α)) : Prop := values.Pairwise (fun a b => a.1 ≤ b.1)

theorem Separated.sorted {v : List (Rat × α)} (h : Separated v) : Sorted v := by
  refine List.Pairwise.imp ?_ h
  intro a b hab
  have := small_pos
  grind

theorem pairwise_get {R : Rat × α → Rat × α → Prop} {v : List (Rat × α)} (h : v.Pairwise R) {i j : Nat}
    {a b : Rat × α} (hij : i < j) (ha : v[i]? = some a) (hb : v[j]? = some b) : R a b := by
  obtain ⟨hi, rfl⟩ := List.getElem?_eq_some_iff.1 ha
  obtain ⟨hj, rfl⟩ := List.getElem?_eq_some_iff.1 hb
  exact List.pairwise_iff_getElem.1 h i j hi hj hij

/-- There is at most one entry in force. -/
theorem inForce_unique {v : List (Rat × α)} {t : Rat} {e f : Rat × α} (he : InForce v t e) (hf : InForce v t f) :
    e = f := by
  obtain ⟨i, h1, h2, h3⟩ := he
  obtain ⟨j, k1, k2, k3⟩ := hf
  rcases Nat.lt_trichotomy i j with h | h | h
  · have := h3 j f h k1
    rcases k2 with k2 | k2
    · grind
    · omega
  · subst h; rw [h1] at k1; simpa using k1
  · have := k3 i e h h1
    rcases h2 with h2 | h2
    · grind
    · omega

theorem moveForward_spec (t : Rat) (r : List (Rat × α)) (idx : Nat) :
    idx ≤ moveForward t r idx ∧ moveForward t r idx ≤ idx + r.length ∧
    (∀ j e, j < moveForward t r idx - idx → r[j]? = some e → e.1 ≤ t + small) ∧
    (∀ e, r[moveForward t r idx - idx]? = some e → t + small < e.1) := by
  induction r generalizing idx with
  | nil => simp [moveForward]
  | cons e r ih =>
    simp only [moveForward]
    split
    · next h =>
      obtain ⟨h1, h2, h3, h4⟩ := ih (idx + 1)
      refine ⟨by omega, by simp; omega, ?_, ?_⟩
      · intro j f hj hf
        cases j with
        | zero => simp at hf; subst hf; exact h
        | succ j => exact h3 j f (by omega) (by simpa using hf)
      · intro f hf
        have : moveForward t r (idx + 1) - idx = (moveForward t r (idx + 1) - (idx + 1)) + 1 := by omega
        rw [this] at hf
        exact h4 f (by simpa using hf)
    · next h =>
      refine ⟨by omega, by simp, by intro j f hj; omega, ?_⟩
      intro f hf
      simp at hf; subst hf; grind

theorem moveBackward_spec (v : List (Rat × α)) (t : Rat) (i : Nat) (hi : i < v.length)
    (hafter : ∀ j f, i < j → v[j]? = some f → t + small < f.1) :
    ∃ k e, moveBackward v t i = some k ∧ k ≤ i ∧ v[k]? = some e ∧ (e.1 ≤ t + small ∨ k = 0) ∧
      ∀ j f, k < j → v[j]? = some f → t + small < f.1 := by
  induction i with
  | zero => exact ⟨0, v[0], rfl, Nat.le_refl _, by simp [hi], Or.inr rfl, hafter⟩
  | succ i ih =>
    simp only [moveBackward, List.getElem?_eq_getElem hi]
    split
    · next h =>
      obtain ⟨k, e, h1, h2, h3⟩ := ih (by omega) (by
        intro j f hj hf
        rcases Nat.lt_or_ge (i + 1) j with h' | h'
        · exact hafter j f h' hf
        · have : j = i + 1 := by omega
          subst this
          rw [List.getElem?_eq_getElem hi] at hf
          simp at hf; subst hf; grind)
      exact ⟨k, e, h1, by omega, h3⟩
    · next h =>
      exact ⟨i + 1, v[i + 1], rfl, Nat.le_refl _, by simp, Or.inl (by grind), hafter⟩

/-- What the memory of earlier look-ups always satisfies. -/
def Timeline.Inv (tl : Timeline α) : Prop :=
  (tl.last_index = 0 ∧ tl.last_time = large) ∨ ∃ e, tl.values[tl.last_index]? = some e ∧ tl.last_time = e.1

theorem absR_lt {x y : Rat} : absR x < y ↔ x < y ∧ -x < y := by
  unfold absR; split <;> grind

theorem near_iff {x y : Rat} : nearNumbers x y = true ↔ x - y < small ∧ y - x < small := by
  unfold nearNumbers
  rw [decide_eq_true_iff, absR_lt]
  constructor <;> intro h <;> constructor <;> grind

theorem seek_spec (tl : Timeline α) (hsep : Separated tl.values) (t : Rat) (h0 : tl.last_index < tl.values.length) :
    ∃ i e, seek tl t = some i ∧ tl.values[i]? = some e ∧ (e.1 ≤ t + small ∨ i = 0) ∧
      ∀ j f, i < j → tl.values[j]? = some f → t + small < f.1 := by
  unfold seek
  have hs := hsep.sorted
  have hsp := small_pos
  rw [List.getElem?_eq_getElem h0]
  simp only
  have hget : tl.values[tl.last_index]? = some tl.values[tl.last_index] := List.getElem?_eq_getElem h0
  split
  · next h =>
    obtain ⟨h1, h2, h3, h4⟩ := moveForward_spec t (tl.values.drop (tl.last_index + 1)) tl.last_index
    generalize hk : moveForward t (tl.values.drop (tl.last_index + 1)) tl.last_index = k at *
    have hkl : k < tl.values.length := by simp at h2; omega
    refine ⟨k, tl.values[k], rfl, List.getElem?_eq_getElem hkl, ?_, ?_⟩
    · left
      rcases Nat.lt_or_ge tl.last_index k with hlt | hge
      · refine h3 (k - tl.last_index - 1) _ (by omega) ?_
        rw [List.getElem?_drop]
        have : tl.last_index + 1 + (k - tl.last_index - 1) = k := by omega
        rw [this]; exact List.getElem?_eq_getElem hkl
      · have : k = tl.last_index := by omega
        subst this; grind
    · intro j f hj hf
      obtain ⟨hjl, rfl⟩ := List.getElem?_eq_some_iff.1 hf
      have hk1 : k + 1 < tl.values.length := by omega
      have hnext := h4 (tl.values[k + 1]) (by
        rw [List.getElem?_drop]
        have : tl.last_index + 1 + (k - tl.last_index) = k + 1 := by omega
        rw [this]; exact List.getElem?_eq_getElem hk1)
      rcases Nat.lt_or_ge (k + 1) j with hlt | hge
      · have := pairwise_get hs hlt (List.getElem?_eq_getElem hk1) hf
        grind
      · have : j = k + 1 := by omega
        subst this; exact hnext
  · next h =>
    have hafter : ∀ j f, tl.last_index < j → tl.values[j]? = some f → tl.values[tl.last_index].1 ≤ f.1 :=
      fun j f hj hf => pairwise_get hs hj hget hf
    by_cases hb : tl.values[tl.last_index].1 > t + small
    · obtain ⟨k, e, h1, _, h2⟩ := moveBackward_spec tl.values t tl.last_index h0 (by
        intro j f hj hf
        have := hafter j f hj hf
        grind)
      exact ⟨k, e, h1, h2⟩
    · -- the entry is within the tolerance after the time: the loop stops at once
      refine ⟨tl.last_index, _, ?_, hget, Or.inl (by grind), ?_⟩
      · have key : ∀ i e, tl.values[i]? = some e → ¬ e.1 > t + small → moveBackward tl.values t i = some i := by
          intro i e hi he
          cases i with
          | zero => rfl
          | succ i => simp only [moveBackward, hi, he, if_false]
        exact key _ _ hget hb
      · intro j f hj hf
        have := pairwise_get hsep hj hget hf
        grind

theorem settle_spec (tl : Timeline α) (i : Nat) (e : Rat × α) (hi : tl.values[i]? = some e) (hinv : tl.Inv) :
    ∃ tl', settle tl i = some (tl', some e.2) ∧ tl'.Inv ∧ tl'.values = tl.values := by
  unfold settle
  rw [hi]
  refine ⟨_, rfl, ?_, ?_⟩
  · split
    · exact Or.inr ⟨e, hi, rfl⟩
    · exact hinv
  · split <;> rfl

/-- **C17**, one look-up: whatever was looked up before, the value in force is returned. The time must not be the
value used as "nothing looked up yet" (1e10). -/
theorem lookup_in_force (tl : Timeline α) (hsep : Separated tl.values) (hne : tl.values ≠ []) (hinv : tl.Inv)
    (t : Rat) (ht : t + small ≤ large) :
    ∃ tl' e, getValueIncremental tl t = some (tl', some e.2) ∧ InForce tl.values t e ∧ tl'.Inv ∧
      tl'.values = tl.values := by
  have hsp := small_pos
  have hlt : tl.last_index < tl.values.length := by
    rcases hinv with ⟨h, _⟩ | ⟨e, h, _⟩
    · rw [h]; exact List.length_pos_iff.2 hne
    · exact (List.getElem?_eq_some_iff.1 h).1
  have general : ∃ tl' e, (if nearNumbers tl.last_time t then
      match tl.values[tl.last_index]? with
      | none => none
      | some e => some (tl, some e.2)
    else (seek tl t).bind (settle tl)) = some (tl', some e.2) ∧ InForce tl.values t e ∧ tl'.Inv ∧
      tl'.values = tl.values := by
    split
    · next hn =>
      rw [near_iff] at hn
      rcases hinv with ⟨h, h2⟩ | ⟨e, h, h2⟩
      · rw [h2] at hn; grind
      · rw [h]
        refine ⟨tl, e, rfl, ⟨tl.last_index, h, Or.inl (by grind), ?_⟩, Or.inr ⟨e, h, h2⟩, rfl⟩
        intro j f hj hf
        have := pairwise_get hsep hj h hf
        grind
    · obtain ⟨i, e, h1, h2, h3, h4⟩ := seek_spec tl hsep t hlt
      obtain ⟨tl', k1, k2, k3⟩ := settle_spec tl i e h2 hinv
      rw [h1]
      exact ⟨tl', e, k1, ⟨i, h2, h3, h4⟩, k2, k3⟩
  unfold getValueIncremental
  split
  · next h => exact absurd h hne
  · next e h =>
    refine ⟨_, e, rfl, ⟨0, by simp [h], Or.inr rfl, ?_⟩, Or.inr ⟨e, by simp [h], rfl⟩, rfl⟩
    intro j f hj hf
    rw [h] at hf
    cases j with
    | zero => omega
    | succ j => simp at hf
  · exact general

/-- A sequence of look-ups. -/
def lookups (tl : Timeline α) : List Rat → Option (List (Option α))
  | [] => some []
  | t :: ts => (getValueIncremental tl t).bind fun x => (lookups x.1 ts).map (x.2 :: ·)

/-- **C17**: in every sequence of look-ups, forward, backward or at random, each returns the value in force. -/
theorem lookups_in_force (values : List (Rat × α)) (hsep : Separated values) (hne : values ≠ []) (ts : List Rat)
    (hts : ∀ t ∈ ts, t + small ≤ large) :
    ∃ rs, lookups { values := values } ts = some rs ∧ rs.length = ts.length ∧
      ∀ (i : Nat) t r, ts[i]? = some t → rs[i]? = some r → ∃ e, InForce values t e ∧ r = some e.2 := by
  have : ∀ (tl : Timeline α), tl.values = values → tl.Inv → ∃ rs, lookups tl ts = some rs ∧ rs.length = ts.length ∧
      ∀ (i : Nat) t r, ts[i]? = some t → rs[i]? = some r → ∃ e, InForce values t e ∧ r = some e.2 := by
    induction ts with
    | nil => intro tl _ _; exact ⟨[], rfl, rfl, by simp⟩
    | cons t ts ih =>
      intro tl htl hinv
      obtain ⟨tl', e, h1, h2, h3, h4⟩ := lookup_in_force tl (htl ▸ hsep) (htl ▸ hne) hinv t (hts t (by simp))
      obtain ⟨rs, k1, k2, k3⟩ := ih (fun x hx => hts x (by simp [hx])) tl' (h4.trans htl) h3
      refine ⟨some e.2 :: rs, ?_, by simp [k2], ?_⟩
      · simp [lookups, h1, k1]
      · intro i t' r hi hr
        cases i with
        | zero =>
          simp at hi hr
          subst hi hr
          exact ⟨e, htl ▸ h2, rfl⟩
        | succ i => exact k3 i t' r (by simpa using hi) (by simpa using hr)
  exact this _ rfl (Or.inl ⟨rfl, rfl⟩)

example : Separated [((0 : Rat), 'a'), (1, 'b'), (5/2, 'c')] := by
  unfold Separated; simp only [List.pairwise_cons]; decide +kernel

example : lookups { values := [((0 : Rat), 'a'), (1, 'b'), (5/2, 'c')] } [3, 0, 1, -1, 2] =
    some [some 'c', some 'a', some 'b', some 'a', some 'b'] := by decide +kernel

/-! ### Look-up by binary search -/

theorem upperBound_spec (p : Rat × α → Bool) (v : List (Rat × α)) :
    upperBound p v ≤ v.length ∧ (∀ j e, j < upperBound p v → v[j]? = some e → p e = false) ∧
    (∀ e, v[upperBound p v]? = some e → p e = true) := by
  induction v with
  | nil => simp [upperBound]
  | cons e r ih =>
    obtain ⟨h1, h2, h3⟩ := ih
    simp only [upperBound]
    split
    · next h => exact ⟨by simp, by intro j f hj; omega, by intro f hf; simp at hf; subst hf; exact h⟩
    · next h =>
      refine ⟨by simp; omega, ?_, by intro f hf; exact h3 f (by simpa using hf)⟩
      intro j f hj hf
      cases j with
      | zero => simp at hf; subst hf; simpa using h
      | succ j => exact h2 j f (by omega) (by simpa using hf)

/-- **C17** (holds only before the last recorded change): look-up by binary search gives the value in force. -/
theorem binary_in_force_partial (values : List (Rat × α)) (hs : Sorted values) (hne : values ≠ []) (t : Rat)
    (hlast : values.length = 1 ∨ ∃ f, values.getLast? = some f ∧ t + small < f.1) :
    ∃ e, getValueBinary values t false = some (some e.2) ∧ InForce values t e := by
  have hone : ∀ e, values = [e] → InForce values t e := by
    intro e h
    refine ⟨0, by simp [h], Or.inr rfl, ?_⟩
    intro j f hj hf
    rw [h] at hf
    cases j with
    | zero => omega
    | succ j => simp at hf
  unfold getValueBinary
  split
  · exact absurd rfl hne
  · next e => exact ⟨e, rfl, hone e rfl⟩
  · next hnot1 hnot2 =>
    obtain ⟨h1, h2, h3⟩ := upperBound_spec (fun e => decide (t + small < e.1)) values
    generalize hk : upperBound (fun e => decide (t + small < e.1)) values = k at *
    have hafter : ∀ j f, k ≤ j → values[j]? = some f → t + small < f.1 := by
      intro j f hj hf
      obtain ⟨hjl, _⟩ := List.getElem?_eq_some_iff.1 hf
      have hkk := h3 (values[k]'(by omega)) (List.getElem?_eq_getElem (by omega))
      simp at hkk
      rcases Nat.lt_or_ge k j with hlt | hge
      · have := pairwise_get hs hlt (List.getElem?_eq_getElem (by omega)) hf
        grind
      · have : j = k := by omega
        subst this
        rw [List.getElem?_eq_getElem (by omega)] at hf
        simp at hf; subst hf; exact hkk
    have hpos := List.length_pos_iff.2 hne
    have hkl : k < values.length := by
      rcases hlast with h | ⟨f, hf, hft⟩
      · obtain ⟨e, he⟩ := List.length_eq_one_iff.1 h
        exact absurd he (by intro hh; exact hnot2 e (by simpa using hh))
      · rcases Nat.lt_or_ge k values.length with h | h
        · exact h
        · rw [List.getLast?_eq_getElem?] at hf
          have := h2 (values.length - 1) f (by omega) hf
          simp at this
          grind
    simp only
    split
    · next h0 =>
      refine ⟨values[0], by simp [hpos], 0, by simp [hpos], Or.inr rfl, ?_⟩
      intro j f hj hf
      exact hafter j f (by omega) hf
    · next h0 =>
      have hkne : ¬ k = values.length := by omega
      simp only [hkne, Bool.not_false, if_true, if_false]
      refine ⟨values[k - 1], ?_, k - 1, ?_, Or.inl ?_, ?_⟩
      · rw [List.getElem?_eq_getElem (by omega)]; rfl
      · exact List.getElem?_eq_getElem (by omega)
      · have := h2 (k - 1) _ (by omega) (List.getElem?_eq_getElem (by omega))
        simp at this; grind
      · intro j f hj hf
        exact hafter j f (by omega) hf

/-- **C17** is violated by the look-up by binary search: from the last recorded change on, the value before it
is returned. -/
theorem binary_last_fails : ∃ (values : List (Rat × Nat)) (t : Rat), Separated values ∧ InForce values t (2, 7) ∧
    getValueBinary values t false = some (some 5) := by
  refine ⟨[(0, 5), (2, 7)], 3, ?_, ⟨1, rfl, Or.inl (by decide +kernel), ?_⟩, by decide +kernel⟩
  · unfold Separated; simp only [List.pairwise_cons]; decide +kernel
  · intro j f hj hf
    match j with
    | 0 => omega
    | 1 => omega
    | j + 2 => simp at hf

/-! ### Replacing a part of a timeline -/

theorem lowerBound_spec (p : Rat × α → Bool) (v : List (Rat × α)) :
    lowerBound p v ≤ v.length ∧ (∀ j e, j < lowerBound p v → v[j]? = some e → p e = true) ∧
    (∀ e, v[lowerBound p v]? = some e → p e = false) := by
  induction v with
  | nil => simp [lowerBound]
  | cons e r ih =>
    obtain ⟨h1, h2, h3⟩ := ih
    simp only [lowerBound]
    split
    · next h =>
      refine ⟨by simp; omega, ?_, by intro f hf; exact h3 f (by simpa using hf)⟩
      intro j f hj hf
      cases j with
      | zero => simp at hf; subst hf; exact h
      | succ j => exact h2 j f (by omega) (by simpa using hf)
    · next h => exact ⟨by simp, by intro j f hj; omega, by intro f hf; simp at hf; subst hf; simpa using h⟩

theorem filter_eq_take {p : Rat × α → Bool} {v : List (Rat × α)} {k : Nat}
    (h1 : ∀ j e, j < k → v[j]? = some e → p e = true) (h2 : ∀ j e, k ≤ j → v[j]? = some e → p e = false) :
    v.filter p = v.take k := by
  induction v generalizing k with
  | nil => simp
  | cons e r ih =>
    cases k with
    | zero =>
      rw [List.take_zero, List.filter_eq_nil_iff]
      intro x hx
      obtain ⟨j, hj⟩ := List.getElem?_of_mem hx
      simp [h2 j x (by omega) hj]
    | succ k =>
      have he := h1 0 e (by omega) rfl
      rw [List.filter_cons_of_pos he, List.take_succ_cons,
        ih (k := k) (fun j f hj hf => h1 (j + 1) f (by omega) hf) (fun j f hj hf => h2 (j + 1) f (by omega) hf)]

theorem filter_eq_drop {p : Rat × α → Bool} {v : List (Rat × α)} {k : Nat}
    (h1 : ∀ j e, j < k → v[j]? = some e → p e = false) (h2 : ∀ j e, k ≤ j → v[j]? = some e → p e = true) :
    v.filter p = v.drop k := by
  induction v generalizing k with
  | nil => simp
  | cons e r ih =>
    cases k with
    | zero =>
      rw [List.drop_zero, List.filter_eq_self]
      intro x hx
      obtain ⟨j, hj⟩ := List.getElem?_of_mem hx
      exact h2 j x (by omega) hj
    | succ k =>
      have he := h1 0 e (by omega) rfl
      rw [List.filter_cons_of_neg (by simp [he]), List.drop_succ_cons,
        ih (k := k) (fun j f hj hf => h1 (j + 1) f (by omega) hf) (fun j f hj hf => h2 (j + 1) f (by omega) hf)]

/-- Specification of a replacement: the entries before the interval, the new entries, the entries after it. -/
def replaced (values : List (Rat × α)) (a b : Rat) (input : List (Rat × α)) : List (Rat × α) :=
  values.filter (fun e => decide (e.1 + small < a)) ++ input ++ values.filter (fun e => decide (b + small < e.1))

/-- Replacing the data between two times keeps everything outside the interval and nothing inside it. -/
theorem replace_spec (values : List (Rat × α)) (hs : Sorted values) (hne : values ≠ []) (a b : Rat) (hab : a ≤ b)
    (input : List (Rat × α)) (hin : input ≠ []) :
    replaceDataBetweenTimes values a b input false = some (replaced values a b input) := by
  have hsp := small_pos
  obtain ⟨l1, l2, l3⟩ := lowerBound_spec (fun e => decide (e.1 < a - small)) values
  obtain ⟨u1, u2, u3⟩ := upperBound_spec (fun e => decide (b < e.1 - small)) values
  unfold replaceDataBetweenTimes
  rw [if_neg (by simp [hin, hne])]
  simp only
  generalize hk : lowerBound (fun e => decide (e.1 < a - small)) values = k at *
  generalize hm : upperBound (fun e => decide (b < e.1 - small)) values = m at *
  have hafterL : ∀ j f, k ≤ j → values[j]? = some f → ¬ f.1 < a - small := by
    intro j f hj hf
    obtain ⟨hjl, _⟩ := List.getElem?_eq_some_iff.1 hf
    have hkk := l3 (values[k]'(by omega)) (List.getElem?_eq_getElem (by omega))
    simp only [decide_eq_false_iff_not] at hkk
    rcases Nat.lt_or_ge k j with hlt | hge
    · have := pairwise_get hs hlt (List.getElem?_eq_getElem (by omega)) hf
      grind
    · have : j = k := by omega
      subst this
      rw [List.getElem?_eq_getElem (by omega)] at hf
      simp at hf; subst hf; exact hkk
  have hafterU : ∀ j f, m ≤ j → values[j]? = some f → b < f.1 - small := by
    intro j f hj hf
    obtain ⟨hjl, _⟩ := List.getElem?_eq_some_iff.1 hf
    have hkk := u3 (values[m]'(by omega)) (List.getElem?_eq_getElem (by omega))
    simp only [decide_eq_true_iff] at hkk
    rcases Nat.lt_or_ge m j with hlt | hge
    · have := pairwise_get hs hlt (List.getElem?_eq_getElem (by omega)) hf
      grind
    · have : j = m := by omega
      subst this
      rw [List.getElem?_eq_getElem (by omega)] at hf
      simp at hf; subst hf; exact hkk
  have hkm : ¬ m < k := by
    intro hlt
    have h1 := l2 m (values[m]'(by omega)) hlt (List.getElem?_eq_getElem (by omega))
    have h2 := hafterU m (values[m]'(by omega)) (Nat.le_refl _) (List.getElem?_eq_getElem (by omega))
    simp only [decide_eq_true_iff] at h1
    grind
  rw [if_neg hkm, if_neg (by simp)]
  unfold replaced
  rw [filter_eq_take (k := k), filter_eq_drop (k := m)]
  · intro j e hj he
    have := u2 j e hj he
    simp only [decide_eq_false_iff_not] at this ⊢
    grind
  · intro j e hj he
    have := hafterU j e hj he
    simp only [decide_eq_true_iff]
    grind
  · intro j e hj he
    have := l2 j e hj he
    simp only [decide_eq_true_iff] at this ⊢
    grind
  · intro j e hj he
    have := hafterL j e hj he
    simp only [decide_eq_false_iff_not]
    grind

/-- Cleaning only removes entries, keeps the last one, and leaves no two neighbours at the same time. -/
theorem clean_spec (v : List (Rat × α)) (hs : Sorted v) :
    (cleanDuplicates v).Sublist v ∧ (cleanDuplicates v).getLast? = v.getLast? ∧
    ∀ j a b, (cleanDuplicates v)[j]? = some a → (cleanDuplicates v)[j + 1]? = some b → nearNumbers a.1 b.1 = false := by
  fun_induction cleanDuplicates v with
  | case1 => simp
  | case2 e => simp
  | case3 e f r hn ih =>
    obtain ⟨h1, h2, h3⟩ := ih (List.pairwise_cons.1 hs).2
    exact ⟨h1.trans (List.sublist_cons_self _ _), by rw [h2]; simp [List.getLast?_cons_cons], h3⟩
  | case4 e f r hn ih =>
    obtain ⟨hs1, hs2⟩ := List.pairwise_cons.1 hs
    obtain ⟨h1, h2, h3⟩ := ih hs2
    refine ⟨h1.cons_cons e, ?_, ?_⟩
    · rw [List.getLast?_cons, h2]; simp [List.getLast?_cons]
    · intro j a b ha hb
      cases j with
      | succ j => exact h3 j a b (by simpa using ha) (by simpa using hb)
      | zero =>
        simp at ha
        subst ha
        simp only [Nat.zero_add, List.getElem?_cons_succ] at hb
        have hb : b ∈ f :: r := h1.subset (List.mem_of_getElem? hb)
        have hfb : f.1 ≤ b.1 := by
          rcases List.mem_cons.1 hb with rfl | hb
          · exact Rat.le_refl
          · exact (List.pairwise_cons.1 hs2).1 b hb
        have hef := hs1 f (by simp)
        rw [Bool.eq_false_iff]
        intro hne
        apply hn
        rw [near_iff] at hne ⊢
        have := small_pos
        constructor <;> grind

example : cleanDuplicates [((0 : Rat), 'a'), (0, 'b'), (1, 'c'), (1, 'd'), (2, 'e')] = [(0, 'b'), (1, 'd'), (2, 'e')] := by
  decide +kernel

/-- Cutting a timeline at the index found for a time (as done for ghosts, `values.resize(index)`) keeps exactly the
entries up to that time, unless there is only one entry. -/
theorem index_cut_partial (values : List (Rat × α)) (hs : Sorted values) (t : Rat) (h2 : 2 ≤ values.length) :
    ∃ k, getIndexBinary values t = some k ∧ values.take k = values.filter (fun e => decide (e.1 ≤ t + small)) := by
  obtain ⟨u1, u2, u3⟩ := upperBound_spec (fun e => decide (t < e.1 - small)) values
  match values, h2 with
  | a :: b :: r, _ =>
    refine ⟨_, rfl, ?_⟩
    generalize a :: b :: r = values at *
    generalize hm : upperBound (fun e => decide (t < e.1 - small)) values = m at *
    rw [filter_eq_take (k := m)]
    · intro j e hj he
      have := u2 j e hj he
      simp only [decide_eq_false_iff_not, decide_eq_true_iff] at this ⊢
      grind
    · intro j f hj hf
      obtain ⟨hjl, _⟩ := List.getElem?_eq_some_iff.1 hf
      have hkk := u3 (values[m]'(by omega)) (List.getElem?_eq_getElem (by omega))
      simp only [decide_eq_true_iff] at hkk
      simp only [decide_eq_false_iff_not]
      rcases Nat.lt_or_ge m j with hlt | hge
      · have := pairwise_get hs hlt (List.getElem?_eq_getElem (by omega)) hf
        grind
      · have : j = m := by omega
        subst this
        rw [List.getElem?_eq_getElem (by omega)] at hf
        simp at hf; subst hf; grind

/-- With a single entry the index is 1 also if that entry is later than the time. -/
theorem index_single_fails : ∃ (values : List (Rat × Nat)) (t : Rat),
    getIndexBinary values t = some 1 ∧ values.filter (fun e => decide (e.1 ≤ t + small)) = [] :=
  ⟨[(5, 1)], 0, rfl, by decide +kernel⟩

end Verif.Replay
