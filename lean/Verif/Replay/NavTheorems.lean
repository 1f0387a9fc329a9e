import Verif.Replay.Nav
import Verif.Replay.TimelineTheorems

/-
C18: navigation in a recording.
-/
namespace Verif.Replay
open Verif.Common

/-- Specification: frames are at least twice the tolerance apart. -/
def Spaced (ts : List Rat) : Prop := ts.Pairwise (fun a b => a + 2 * small ≤ b)

/-- Specification: frame `i` belongs to time `t`: no frame before it is later than `t`, no frame behind it is earlier
than `t` (up to the tolerance). It is thus the last frame not after `t` or the first not before `t`. -/
def LocatedAt (ts : List Rat) (i : Nat) (t : Rat) : Prop :=
  (∀ j x, j < i → ts[j]? = some x → x ≤ t) ∧ (∀ j x, i < j → ts[j]? = some x → t - small ≤ x)

theorem Spaced.lt {ts : List Rat} (h : Spaced ts) {i j : Nat} {a b : Rat} (hij : i < j) (ha : ts[i]? = some a)
    (hb : ts[j]? = some b) : a + 2 * small ≤ b := by
  obtain ⟨hi, rfl⟩ := List.getElem?_eq_some_iff.1 ha
  obtain ⟨hj, rfl⟩ := List.getElem?_eq_some_iff.1 hb
  exact List.pairwise_iff_getElem.1 h i j hi hj hij

theorem Spaced.le {ts : List Rat} (h : Spaced ts) {i j : Nat} {a b : Rat} (hij : i ≤ j) (ha : ts[i]? = some a)
    (hb : ts[j]? = some b) : a ≤ b := by
  have := small_pos
  rcases Nat.lt_or_eq_of_le hij with h1 | rfl
  · have := h.lt h1 ha hb; grind
  · rw [ha] at hb; simp at hb; rw [hb]; exact Rat.le_refl

theorem countBelow_le (x : Rat) (ts : List Rat) : countBelow x ts ≤ ts.length := by
  induction ts with
  | nil => simp [countBelow]
  | cons t ts ih => simp only [countBelow]; split <;> simp; omega

theorem countBelow_lt {x : Rat} {ts : List Rat} {j : Nat} {y : Rat} (hj : j < countBelow x ts) (hy : ts[j]? = some y) :
    y < x := by
  induction ts generalizing j with
  | nil => simp at hy
  | cons t ts ih =>
    simp only [countBelow] at hj
    split at hj
    · cases j with
      | zero => simp at hy; subst hy; assumption
      | succ j => exact ih (j := j) (by omega) (by simpa using hy)
    · omega

theorem countBelow_stop {x : Rat} {ts : List Rat} {y : Rat} (hy : ts[countBelow x ts]? = some y) : x ≤ y := by
  induction ts with
  | nil => simp at hy
  | cons t ts ih =>
    simp only [countBelow] at hy
    split at hy
    · exact ih (by simpa using hy)
    · simp at hy; subst hy; grind

theorem countUpTo_le {x : Rat} {ts : List Rat} {j : Nat} {y : Rat} (hj : j < countUpTo x ts) (hy : ts[j]? = some y) :
    y ≤ x := by
  induction ts generalizing j with
  | nil => simp at hy
  | cons t ts ih =>
    simp only [countUpTo] at hj
    split at hj
    · omega
    · cases j with
      | zero => simp at hy; subst hy; grind
      | succ j => exact ih (j := j) (by omega) (by simpa using hy)

theorem countUpTo_stop {x : Rat} {ts : List Rat} {y : Rat} (hy : ts[countUpTo x ts]? = some y) : x < y := by
  induction ts with
  | nil => simp at hy
  | cons t ts ih =>
    simp only [countUpTo] at hy
    split at hy
    · simp at hy; subst hy; assumption
    · exact ih (by simpa using hy)

/-- Specification: all frame numbers denote frames, and the stop time is not behind the last frame. -/
structure Safe (n : Nav) : Prop where
  index : n.index < n.timestamps.length
  start : n.startIndex < n.timestamps.length
  stop : n.stopIndex < n.timestamps.length
  last : ∃ t, n.timestamps[n.timestamps.length - 1]? = some t ∧ n.stopTime ≤ t + small

/-- Specification: what the navigation never changes. -/
def SameRecording (n n' : Nav) : Prop :=
  n'.timestamps = n.timestamps ∧ n'.startTime = n.startTime ∧ n'.stopTime = n.stopTime ∧
  n'.startIndex = n.startIndex ∧ n'.stopIndex = n.stopIndex

theorem SameRecording.refl (n : Nav) : SameRecording n n := ⟨rfl, rfl, rfl, rfl, rfl⟩

theorem SameRecording.trans {a b c : Nav} (h : SameRecording a b) (k : SameRecording b c) : SameRecording a c :=
  ⟨k.1.trans h.1, k.2.1.trans h.2.1, k.2.2.1.trans h.2.2.1, k.2.2.2.1.trans h.2.2.2.1, k.2.2.2.2.trans h.2.2.2.2⟩

theorem Safe.of {n n' : Nav} (h : Safe n) (hs : SameRecording n n') (hi : n'.index < n.timestamps.length) : Safe n' := by
  obtain ⟨h1, h2, h3, h4, h5⟩ := hs
  exact ⟨by rw [h1]; exact hi, by rw [h1, h4]; exact h.start, by rw [h1, h5]; exact h.stop, by rw [h1, h3]; exact h.last⟩

theorem goToStart_same (n : Nav) (b : Bool) : SameRecording n (n.goToStart b) ∧
    (((n.goToStart b).index = n.stopIndex ∧ (n.goToStart b).time = n.stopTime ∧ n.repeats = true ∧ b = false) ∨
     ((n.goToStart b).index = n.startIndex ∧ (n.goToStart b).time = n.startTime)) := by
  unfold Nav.goToStart
  split
  · next h => exact ⟨SameRecording.refl n, Or.inl ⟨rfl, rfl, by simpa using h⟩⟩
  · exact ⟨SameRecording.refl n, Or.inr ⟨rfl, rfl⟩⟩

theorem goToEnd_same (n : Nav) (b : Bool) : SameRecording n (n.goToEnd b) ∧
    (((n.goToEnd b).index = n.startIndex ∧ (n.goToEnd b).time = n.startTime ∧ n.repeats = true ∧ b = false) ∨
     ((n.goToEnd b).index = n.stopIndex ∧ (n.goToEnd b).time = n.stopTime)) := by
  unfold Nav.goToEnd
  split
  · next h => exact ⟨SameRecording.refl n, Or.inl ⟨rfl, rfl, by simpa using h⟩⟩
  · exact ⟨SameRecording.refl n, Or.inr ⟨rfl, rfl⟩⟩

/-- What an operation does to frame and time: it goes to the limits or to a position satisfying `P`. -/
def Moved (n n' : Nav) (P : Nat → Rat → Prop) : Prop :=
  SameRecording n n' ∧
  ((n'.index = n.startIndex ∧ n'.time = n.startTime) ∨ (n'.index = n.stopIndex ∧ n'.time = n.stopTime) ∨
    P n'.index n'.time)

theorem Moved.mono {n n' : Nav} {P Q : Nat → Rat → Prop} (h : Moved n n' P) (hpq : ∀ i t, P i t → Q i t) : Moved n n' Q := by
  obtain ⟨h1, h2⟩ := h
  refine ⟨h1, ?_⟩
  rcases h2 with h | h | h
  · exact Or.inl h
  · exact Or.inr (Or.inl h)
  · exact Or.inr (Or.inr (hpq _ _ h))

theorem goToStart_moved (n : Nav) (b : Bool) (P) : Moved n (n.goToStart b) P := by
  obtain ⟨h1, h2⟩ := goToStart_same n b
  refine ⟨h1, ?_⟩
  rcases h2 with ⟨a, b, _⟩ | h
  · exact Or.inr (Or.inl ⟨a, b⟩)
  · exact Or.inl h

theorem goToEnd_moved (n : Nav) (b : Bool) (P) : Moved n (n.goToEnd b) P := by
  obtain ⟨h1, h2⟩ := goToEnd_same n b
  refine ⟨h1, ?_⟩
  rcases h2 with ⟨a, b, _⟩ | h
  · exact Or.inl ⟨a, b⟩
  · exact Or.inr (Or.inl h)

theorem Moved.limit {n n' : Nav} {P : Nat → Rat → Prop} (h : Moved n n' P) :
    Moved n n'.limit (fun i t => P i t ∧ n.startTime ≤ t ∧ t ≤ n.stopTime) := by
  obtain ⟨h1, h2⟩ := h
  obtain ⟨g1, g2, g3, g4, g5⟩ := h1
  unfold Nav.limit
  split
  · have := goToEnd_moved n' false (fun i t => P i t ∧ n.startTime ≤ t ∧ t ≤ n.stopTime)
    obtain ⟨k1, k2⟩ := this
    refine ⟨SameRecording.trans ⟨g1, g2, g3, g4, g5⟩ k1, ?_⟩
    rw [g2, g3, g4, g5] at k2
    exact k2
  · split
    · have := goToStart_moved n' false (fun i t => P i t ∧ n.startTime ≤ t ∧ t ≤ n.stopTime)
      obtain ⟨k1, k2⟩ := this
      refine ⟨SameRecording.trans ⟨g1, g2, g3, g4, g5⟩ k1, ?_⟩
      rw [g2, g3, g4, g5] at k2
      exact k2
    · next a b =>
      refine ⟨⟨g1, g2, g3, g4, g5⟩, ?_⟩
      rw [g3] at a
      rw [g2] at b
      rcases h2 with h | h | h
      · exact Or.inl h
      · exact Or.inr (Or.inl h)
      · exact Or.inr (Or.inr ⟨h, by grind, by grind⟩)

/-- Where `ahead` goes. -/
theorem ahead_moved (n : Nav) (target : Rat) : Moved n (n.ahead target) (fun i t =>
    (i = n.index + 1 ∧ n.timestamps[i]? = some t ∧ t ≤ target + small) ∨
    (i = n.index ∧ t = target ∧ ∀ x, n.timestamps[n.index + 1]? = some x → target < x - small)) := by
  unfold Nav.ahead
  split
  · next t ht =>
    split
    · exact ⟨SameRecording.refl n, Or.inr (Or.inr (Or.inl ⟨rfl, ht, by simp only; grind⟩))⟩
    · split
      · exact goToEnd_moved n false _
      · refine ⟨SameRecording.refl n, Or.inr (Or.inr (Or.inr ⟨rfl, rfl, ?_⟩))⟩
        intro x hx
        rw [ht] at hx
        simp at hx
        subst hx
        grind
  · next ht =>
    split
    · exact goToEnd_moved n false _
    · refine ⟨SameRecording.refl n, Or.inr (Or.inr (Or.inr ⟨rfl, rfl, ?_⟩))⟩
      intro x hx
      rw [ht] at hx
      simp at hx

theorem backBy_moved (n : Nav) (target : Rat) : Moved n (n.backBy target) (fun i t => i = n.index ∧ t = target) := by
  unfold Nav.backBy
  split
  · exact goToStart_moved n false _
  · exact ⟨SameRecording.refl n, Or.inr (Or.inr ⟨rfl, rfl⟩)⟩

theorem back_moved (n : Nav) (hs : n.index < n.timestamps.length) (target : Rat) : ∃ n', n.back target = some n' ∧
    Moved n n' (fun i t => (i + 1 = n.index ∧ n.timestamps[i]? = some t ∧ target ≤ t) ∨
      (i = n.index ∧ t = target ∧ ∀ j x, j + 1 = n.index → n.timestamps[j]? = some x → x < target)) := by
  unfold Nav.back
  split
  · next h0 =>
    refine ⟨_, rfl, (backBy_moved n target).mono ?_⟩
    rintro i t ⟨h1, h2⟩
    exact Or.inr ⟨h1, h2, fun j x hj => by omega⟩
  · next i h0 =>
    rw [List.getElem?_eq_getElem (by omega)]
    simp only
    split
    · next hle =>
      exact ⟨_, rfl, SameRecording.refl n, Or.inr (Or.inr (Or.inl ⟨h0.symm, List.getElem?_eq_getElem (h := by simp only; omega), hle⟩))⟩
    · next hle =>
      refine ⟨_, rfl, (backBy_moved n target).mono ?_⟩
      rintro k t ⟨h1, h2⟩
      refine Or.inr ⟨h1, h2, ?_⟩
      intro j x hj hx
      have : j = i := by omega
      subst this
      rw [List.getElem?_eq_getElem (by omega)] at hx
      simp at hx
      grind

theorem findIndex_spec (n : Nav) (hs : Safe n) (target : Rat) (ht : target ≤ n.stopTime) :
    ∃ i, n.findIndexAtTimestamp target = some i ∧ i < n.timestamps.length ∧
      (∀ j x, (target < n.time - small ∨ n.index ≤ j) → j < i → n.timestamps[j]? = some x → x < target - small) ∧
      (target < n.time - small → i ≤ n.index + 1) ∧
      ((target < n.time - small ∧ i = n.index + 1) ∨ ∀ x, n.timestamps[i]? = some x → target - small ≤ x) ∧
      (target ≥ n.time - small → n.index ≤ i) := by
  obtain ⟨tl, hl, hlast⟩ := hs.last
  have hidx := hs.index
  unfold Nav.findIndexAtTimestamp
  split
  · next hge =>
    rw [if_pos (by omega)]
    have hle := countBelow_le (target - small) (n.timestamps.drop n.index)
    rw [List.length_drop] at hle
    have hlt : n.index + countBelow (target - small) (n.timestamps.drop n.index) < n.timestamps.length := by
      rcases Nat.lt_or_ge (n.index + countBelow (target - small) (n.timestamps.drop n.index)) n.timestamps.length with h | h
      · exact h
      · exfalso
        have := countBelow_lt (x := target - small) (ts := n.timestamps.drop n.index)
          (j := n.timestamps.length - 1 - n.index) (y := tl) (by omega)
          (by rw [List.getElem?_drop]; rw [show n.index + (n.timestamps.length - 1 - n.index) = n.timestamps.length - 1 by omega]; exact hl)
        grind
    refine ⟨_, rfl, hlt, ?_, fun h => by grind, Or.inr ?_, fun _ => by omega⟩
    · intro j x hj hji hx
      rcases hj with hj | hj
      · grind
      · refine countBelow_lt (ts := n.timestamps.drop n.index) (j := j - n.index) (by omega) ?_
        rw [List.getElem?_drop, show n.index + (j - n.index) = j by omega]
        exact hx
    · intro x hx
      refine countBelow_stop (ts := n.timestamps.drop n.index) ?_
      rw [List.getElem?_drop]
      exact hx
  · next hge =>
    rw [if_pos (by omega)]
    have hle := countBelow_le (target - small) (n.timestamps.take (n.index + 1))
    rw [List.length_take] at hle
    have hlt : countBelow (target - small) (n.timestamps.take (n.index + 1)) < n.timestamps.length := by
      rcases Nat.lt_or_ge (countBelow (target - small) (n.timestamps.take (n.index + 1))) n.timestamps.length with h | h
      · exact h
      · exfalso
        have := countBelow_lt (x := target - small) (ts := n.timestamps.take (n.index + 1))
          (j := n.timestamps.length - 1) (y := tl) (by omega)
          (by rw [List.getElem?_take_of_lt (by omega)]; exact hl)
        grind
    refine ⟨_, rfl, hlt, ?_, fun _ => by omega, ?_, fun h => absurd h hge⟩
    · intro j x _ hji hx
      refine countBelow_lt (ts := n.timestamps.take (n.index + 1)) hji ?_
      rw [List.getElem?_take_of_lt (by omega)]
      exact hx
    · by_cases he : countBelow (target - small) (n.timestamps.take (n.index + 1)) = n.index + 1
      · exact Or.inl ⟨by grind, he⟩
      · right
        intro x hx
        refine countBelow_stop (ts := n.timestamps.take (n.index + 1)) ?_
        rw [List.getElem?_take_of_lt (by omega)]
        exact hx

theorem goToTime_moved (n : Nav) (hs : Safe n) (x : Rat) (b : Bool) : ∃ n', n.goToTime x b = some n' ∧
    Moved n n' (fun i t => match b with
      | false => t = x ∧ n.startTime < x ∧ x < n.stopTime ∧ n.findIndexAtTimestamp x = some i
      | true => n.startTime ≤ t ∧ t ≤ n.stopTime ∧
        (((x ≤ n.time → x = n.time) ∧
            (i = n.index + 1 ∧ n.timestamps[i]? = some t ∧ t ≤ x + small ∨
             i = n.index ∧ t = x ∧ ∀ y, n.timestamps[n.index + 1]? = some y → x < y - small)) ∨
         (x < n.time ∧
            (i + 1 = n.index ∧ n.timestamps[i]? = some t ∧ x ≤ t ∨
             i = n.index ∧ t = x ∧ ∀ j y, j + 1 = n.index → n.timestamps[j]? = some y → y < x)) ∨
         (i = n.index ∧ t = n.time ∧ x = n.time))) := by
  unfold Nav.goToTime
  cases b with
  | false =>
    simp only [if_true]
    split
    · exact ⟨_, rfl, goToEnd_moved n false _⟩
    · next h1 =>
      split
      · exact ⟨_, rfl, goToStart_moved n false _⟩
      · next h2 =>
        obtain ⟨i, h3, h4, _⟩ := findIndex_spec n hs x (by grind)
        rw [h3]
        refine ⟨_, rfl, ?_⟩
        have hm : Moved n { n with index := i, time := x } (fun i' t => i' = i ∧ t = x) :=
          ⟨SameRecording.refl n, Or.inr (Or.inr ⟨rfl, rfl⟩)⟩
        refine hm.limit.mono ?_
        rintro i' t ⟨⟨rfl, rfl⟩, _⟩
        exact ⟨rfl, by grind, by grind, rfl⟩
  | true =>
    simp only [Bool.true_eq_false, if_false]
    split
    · next h1 =>
      refine ⟨_, rfl, (ahead_moved n x).limit.mono ?_⟩
      rintro i t ⟨h, h2, h3⟩
      exact ⟨h2, h3, Or.inl ⟨fun hle => by grind, h⟩⟩
    · next h1 =>
      split
      · next h2 =>
        obtain ⟨n', h3, h4⟩ := back_moved n hs.index x
        rw [h3]
        refine ⟨_, rfl, h4.limit.mono ?_⟩
        rintro i t ⟨h, h5, h6⟩
        exact ⟨h5, h6, Or.inr (Or.inl ⟨h2, h⟩)⟩
      · next h2 =>
        have hm : Moved n n (fun i t => i = n.index ∧ t = n.time) := ⟨SameRecording.refl n, Or.inr (Or.inr ⟨rfl, rfl⟩)⟩
        refine ⟨_, rfl, hm.limit.mono ?_⟩
        rintro i t ⟨⟨rfl, rfl⟩, h5, h6⟩
        exact ⟨h5, h6, Or.inr (Or.inr ⟨rfl, rfl, by grind⟩)⟩

theorem goToNextFrame_moved (n : Nav) (hs : Safe n) : Moved n n.goToNextFrame (fun i t =>
    i = countUpTo (n.time + small) n.timestamps ∧ n.timestamps[i]? = some t ∧ t ≤ n.stopTime + small) := by
  have hne : n.timestamps ≠ [] := by
    intro h; have := hs.index; simp [h] at this
  unfold Nav.goToNextFrame
  rw [if_neg hne]
  split
  · exact goToEnd_moved n false _
  · next t ht =>
    split
    · next hle => exact ⟨SameRecording.refl n, Or.inr (Or.inr ⟨rfl, ht, hle⟩)⟩
    · exact goToEnd_moved n false _

theorem goToPreviousFrame_moved (n : Nav) (hs : Safe n) : Moved n n.goToPreviousFrame (fun i t =>
    i + 1 = countBelow (n.time - small) n.timestamps ∧ n.timestamps[i]? = some t ∧ n.startTime ≤ t) := by
  have hne : n.timestamps ≠ [] := by
    intro h; have := hs.index; simp [h] at this
  unfold Nav.goToPreviousFrame
  split
  · rw [if_neg hne]; exact goToStart_moved n false _
  · next i hi =>
    have hle := countBelow_le (n.time - small) n.timestamps
    rw [List.getElem?_eq_getElem (by omega)]
    simp only
    split
    · have := goToStart_moved { n with index := i, time := n.timestamps[i]'(by omega) } false
        (fun i t => i + 1 = countBelow (n.time - small) n.timestamps ∧ n.timestamps[i]? = some t ∧ n.startTime ≤ t)
      exact this
    · next hlt =>
      exact ⟨SameRecording.refl n, Or.inr (Or.inr ⟨hi.symm, List.getElem?_eq_getElem (h := by simp only; omega), by grind⟩)⟩

theorem nearest_moved (n : Nav) (hs : Safe n) : Moved n n.setTimeToNearestTimestamp (fun i t =>
    i = n.index ∧ ∃ j, n.timestamps[j]? = some t ∧
      (j = countBelow (n.time - small) n.timestamps ∨
       (countBelow (n.time - small) n.timestamps = n.timestamps.length ∧ j = n.timestamps.length - 1))) := by
  unfold Nav.setTimeToNearestTimestamp
  split
  · next h => have := hs.index; simp [h] at this
  · next t r hts =>
    split
    · next h0 =>
      refine ⟨SameRecording.refl n, Or.inr (Or.inr ⟨rfl, 0, by rw [hts]; rfl, Or.inl ?_⟩)⟩
      rw [hts]; exact h0.symm
    · next i h0 =>
      split
      · next hnone =>
        refine ⟨SameRecording.refl n, Or.inr (Or.inr ⟨rfl, n.timestamps.length - 1, ?_, Or.inr ⟨?_, rfl⟩⟩)⟩
        · simp only
          rw [hts, ← List.getLast?_eq_getElem?]
          exact List.getLast?_eq_some_getLast (by simp)
        · have := countBelow_le (n.time - small) n.timestamps
          rw [hts] at this ⊢
          rw [h0] at this ⊢
          have := List.getElem?_eq_none_iff.1 hnone
          omega
      · next x hx =>
        refine ⟨SameRecording.refl n, Or.inr (Or.inr ⟨rfl, i + 1, by rw [hts]; exact hx, Or.inl ?_⟩)⟩
        rw [hts]; exact h0.symm

/-- **C18**: every operation is defined and stays inside the recording. -/
theorem op_safe (n : Nav) (hs : Safe n) (o : Op) : ∃ n', n.op o = some n' ∧ SameRecording n n' ∧ Safe n' := by
  have key : ∀ {n' : Nav} {P : Nat → Rat → Prop}, Moved n n' P → (∀ i t, P i t → i < n.timestamps.length) →
      SameRecording n n' ∧ Safe n' := by
    intro n' P hm hP
    obtain ⟨h1, h2⟩ := hm
    refine ⟨h1, hs.of h1 ?_⟩
    rcases h2 with h | h | h
    · rw [h.1]; exact hs.start
    · rw [h.1]; exact hs.stop
    · exact hP _ _ h
  have hget : ∀ {i : Nat} {t : Rat}, n.timestamps[i]? = some t → i < n.timestamps.length :=
    fun h => (List.getElem?_eq_some_iff.1 h).1
  have htime : ∀ x b, ∃ n', n.goToTime x b = some n' ∧ SameRecording n n' ∧ Safe n' := by
    intro x b
    obtain ⟨n', h1, h2⟩ := goToTime_moved n hs x b
    refine ⟨n', h1, key h2 ?_⟩
    intro i t h
    cases b with
    | false =>
      obtain ⟨_, _, h3, h4⟩ := h
      obtain ⟨i', h5, h6, _⟩ := findIndex_spec n hs x (by grind)
      rw [h4] at h5
      simp at h5
      omega
    | true =>
      obtain ⟨_, _, h⟩ := h
      rcases h with ⟨_, h | h⟩ | ⟨_, h | h⟩ | h
      · exact hget h.2.1
      · rw [h.1]; exact hs.index
      · exact hget h.2.1
      · rw [h.1]; exact hs.index
      · rw [h.1]; exact hs.index
  cases o with
  | time x b => exact htime x b
  | delta dt b => exact htime _ b
  | next => exact ⟨_, rfl, key (goToNextFrame_moved n hs) (fun i t h => hget h.2.1)⟩
  | previous => exact ⟨_, rfl, key (goToPreviousFrame_moved n hs) (fun i t h => hget h.2.1)⟩
  | start b => exact ⟨_, rfl, key (goToStart_moved n b (fun _ _ => False)) (fun _ _ h => h.elim)⟩
  | finish b => exact ⟨_, rfl, key (goToEnd_moved n b (fun _ _ => False)) (fun _ _ h => h.elim)⟩
  | nearest => exact ⟨_, rfl, key (nearest_moved n hs) (fun i t h => by rw [h.1]; exact hs.index)⟩
  | setRepeat b => exact ⟨_, rfl, SameRecording.refl n, hs.of (SameRecording.refl n) hs.index⟩

/-- **C18**: for every sequence of operations on a loaded recording the current frame is a frame of the recording. -/
theorem navigation_safe (n : Nav) (hs : Safe n) (os : List Op) :
    ∃ n', n.ops os = some n' ∧ SameRecording n n' ∧ n'.index < n'.timestamps.length ∧ Safe n' := by
  induction os generalizing n with
  | nil => exact ⟨n, rfl, SameRecording.refl n, hs.index, hs⟩
  | cons o os ih =>
    obtain ⟨n1, h1, h2, h3⟩ := op_safe n hs o
    obtain ⟨n2, k1, k2, k3, k4⟩ := ih n1 h3
    exact ⟨n2, by simp [Nav.ops, h1, k1], h2.trans k2, k3, k4⟩

/-- A loaded recording is safe. -/
theorem load_safe (ts : List Rat) (stop : Rat) (hne : ts ≠ []) (hstop : ∃ t, ts.getLast? = some t ∧ stop ≤ t + small) :
    ∃ n, Nav.load ts stop = some n ∧ Safe n := by
  obtain ⟨t, r, rfl⟩ := List.exists_cons_of_ne_nil hne
  refine ⟨_, rfl, ⟨by simp, by simp, by simp, ?_⟩⟩
  rw [List.getLast?_eq_getElem?] at hstop
  exact hstop

/-- **C18**: start and stop times inside the recording keep it safe. -/
theorem limits_safe (n : Nav) (hs : Safe n) (a b : Rat)
    (ha : ∃ t, n.timestamps.getLast? = some t ∧ a ≤ t + small) (hb : ∃ t, n.timestamps.getLast? = some t ∧ b ≤ t + small) :
    (∃ n', n.setStartTime a = some n' ∧ Safe n' ∧ n'.timestamps = n.timestamps ∧ n'.startTime = a) ∧
    (∃ n', n.setStopTime b = some n' ∧ Safe n' ∧ n'.timestamps = n.timestamps ∧ n'.stopTime = b) := by
  rw [List.getLast?_eq_getElem?] at ha hb
  constructor
  · unfold Nav.setStartTime
    simp only
    -- look-up of `a` does not depend on the stop time, except through the last frame
    have hs' : Safe { n with startTime := a, time := if n.time < a then a else n.time, stopTime := a } :=
      ⟨hs.index, hs.start, hs.stop, ha⟩
    obtain ⟨i, h1, h2, _⟩ := findIndex_spec _ hs' a Rat.le_refl
    have h1' : ({ n with startTime := a, time := if n.time < a then a else n.time } : Nav).findIndexAtTimestamp a = some i := h1
    rw [h1']
    exact ⟨_, rfl, ⟨h2, h2, hs.stop, hs.last⟩, rfl, rfl⟩
  · unfold Nav.setStopTime
    simp only
    have hs' : Safe { n with stopTime := b, time := if n.time > b then b else n.time } :=
      ⟨hs.index, hs.start, hs.stop, hb⟩
    obtain ⟨i, h1, h2, _⟩ := findIndex_spec _ hs' b Rat.le_refl
    rw [h1]
    exact ⟨_, rfl, ⟨hs.index, hs.start, h2, hb⟩, rfl, rfl⟩

/-- **C18**: the replay time stays between start and stop time (snapping to a frame is excluded unless all frames are
between them). -/
theorem navigation_within (n : Nav) (hs : Safe n) (hlim : n.startTime ≤ n.stopTime) (h1 : n.startTime ≤ n.time)
    (h2 : n.time ≤ n.stopTime + small) (os : List Op)
    (hsnap : (∀ o ∈ os, o ≠ .nearest) ∨ ∀ t ∈ n.timestamps, n.startTime ≤ t ∧ t ≤ n.stopTime + small) :
    ∃ n', n.ops os = some n' ∧ n.startTime ≤ n'.time ∧ n'.time ≤ n.stopTime + small := by
  have hsp := small_pos
  induction os generalizing n with
  | nil => exact ⟨n, rfl, h1, h2⟩
  | cons o os ih =>
    obtain ⟨n1, a1, a2, a3⟩ := op_safe n hs o
    have key : ∀ {n' : Nav} {P : Nat → Rat → Prop}, Moved n n' P →
        (∀ i t, P i t → n.startTime ≤ t ∧ t ≤ n.stopTime + small) →
        n.startTime ≤ n'.time ∧ n'.time ≤ n.stopTime + small := by
      intro n' P hm hP
      obtain ⟨_, h⟩ := hm
      rcases h with h | h | h
      · rw [h.2]; exact ⟨Rat.le_refl, by grind⟩
      · rw [h.2]; exact ⟨hlim, by grind⟩
      · exact hP _ _ h
    have htime : ∀ x b, n.goToTime x b = some n1 → n.startTime ≤ n1.time ∧ n1.time ≤ n.stopTime + small := by
      intro x b hx
      obtain ⟨n', b1, b2⟩ := goToTime_moved n hs x b
      rw [hx] at b1
      obtain rfl : n1 = n' := by simpa using b1
      refine key b2 ?_
      intro i t h
      cases b with
      | false =>
        obtain ⟨rfl, h3, h4, _⟩ := h
        constructor <;> grind
      | true =>
        obtain ⟨h3, h4, _⟩ := h
        exact ⟨h3, by grind⟩
    have hn1 : n.startTime ≤ n1.time ∧ n1.time ≤ n.stopTime + small := by
      cases o with
      | time x b => exact htime x b a1
      | delta dt b => exact htime _ b a1
      | next =>
        obtain rfl : n.goToNextFrame = n1 := by simpa [Nav.op] using a1
        have hm := goToNextFrame_moved n hs
        refine key (P := fun i t => n.startTime ≤ t ∧ t ≤ n.stopTime + small) ⟨hm.1, ?_⟩ (fun i t h => h)
        rcases hm.2 with h | h | ⟨h3, h4, h5⟩
        · exact Or.inl h
        · exact Or.inr (Or.inl h)
        · refine Or.inr (Or.inr ⟨?_, h5⟩)
          rw [h3] at h4
          have := countUpTo_stop h4
          grind
      | previous =>
        obtain rfl : n.goToPreviousFrame = n1 := by simpa [Nav.op] using a1
        refine key (goToPreviousFrame_moved n hs) ?_
        rintro i t ⟨h3, h4, h5⟩
        have := countBelow_lt (x := n.time - small) (j := i) (by omega) h4
        exact ⟨h5, by grind⟩
      | start b =>
        obtain rfl : n.goToStart b = n1 := by simpa [Nav.op] using a1
        exact key (goToStart_moved n b (fun _ _ => False)) (fun _ _ h => h.elim)
      | finish b =>
        obtain rfl : n.goToEnd b = n1 := by simpa [Nav.op] using a1
        exact key (goToEnd_moved n b (fun _ _ => False)) (fun _ _ h => h.elim)
      | nearest =>
        obtain rfl : n.setTimeToNearestTimestamp = n1 := by simpa [Nav.op] using a1
        rcases hsnap with h | h
        · exact absurd rfl (h .nearest (by simp))
        · refine key (nearest_moved n hs) ?_
          rintro i t ⟨_, j, hj, _⟩
          exact h t (List.mem_of_getElem? hj)
      | setRepeat b =>
        obtain rfl : { n with repeats := b } = n1 := by simpa [Nav.op] using a1
        exact ⟨h1, h2⟩
    obtain ⟨g1, g2, g3, g4, g5⟩ := a2
    rw [← g2, ← g3] at hn1
    obtain ⟨n', k1, k2⟩ := ih n1 a3 (by rw [g2, g3]; exact hlim) hn1.1 hn1.2 (by
      rcases hsnap with h | h
      · exact Or.inl (fun o ho => h o (List.mem_cons_of_mem _ ho))
      · right; rw [g1, g2, g3]; exact h)
    rw [g2, g3] at k2
    exact ⟨n', by simp [Nav.ops, a1, k1], k2⟩

/-- The number of frames up to a frame. -/
theorem countUpTo_at {ts : List Rat} (h : Spaced ts) {k : Nat} {x y : Rat} (hx : ts[k]? = some x)
    (hxy : x ≤ y) (hy : y < x + 2 * small) : countUpTo y ts = k + 1 := by
  induction ts generalizing k with
  | nil => simp at hx
  | cons t ts ih =>
    have hsp := small_pos
    unfold Spaced at h
    rw [List.pairwise_cons] at h
    simp only [countUpTo]
    cases k with
    | zero =>
      simp at hx
      subst hx
      rw [if_neg (by grind)]
      congr 1
      cases ts with
      | nil => rfl
      | cons u ts =>
        have := h.1 u (by simp)
        simp only [countUpTo]
        rw [if_pos (by grind)]
    | succ k =>
      have := h.1 x (List.mem_of_getElem? (by simpa using hx))
      rw [if_neg (by grind), ih h.2 (by simpa using hx)]

theorem countBelow_at {ts : List Rat} (h : Spaced ts) {k : Nat} {x y : Rat} (hx : ts[k]? = some x)
    (hxy : y ≤ x) (hy : x - 2 * small < y) : countBelow y ts = k := by
  induction ts generalizing k with
  | nil => simp at hx
  | cons t ts ih =>
    have hsp := small_pos
    unfold Spaced at h
    rw [List.pairwise_cons] at h
    simp only [countBelow]
    cases k with
    | zero =>
      simp at hx
      subst hx
      rw [if_neg (by grind)]
    | succ k =>
      have := h.1 x (List.mem_of_getElem? (by simpa using hx))
      rw [if_pos (by grind), ih h.2 (by simpa using hx)]

/-- **C18**: from a frame, "next" goes to the very next one. -/
theorem next_is_next (n : Nav) (h : Spaced n.timestamps) (k : Nat) (x y : Rat) (hx : n.timestamps[k]? = some x)
    (htime : n.time = x) (hy : n.timestamps[k + 1]? = some y) (hstop : y ≤ n.stopTime + small) :
    n.goToNextFrame = { n with index := k + 1, time := y } := by
  have hsp := small_pos
  have hc : countUpTo (n.time + small) n.timestamps = k + 1 := countUpTo_at h hx (by grind) (by grind)
  unfold Nav.goToNextFrame
  rw [hc, hy]
  simp only [hstop, if_true]
  rw [if_neg (fun e => by simp [e] at hy)]

/-- **C18**: "previous" undoes "next". -/
theorem previous_is_previous (n : Nav) (h : Spaced n.timestamps) (k : Nat) (x y : Rat)
    (hx : n.timestamps[k]? = some x) (hy : n.timestamps[k + 1]? = some y) (htime : n.time = y)
    (hstart : n.startTime ≤ x) : n.goToPreviousFrame = { n with index := k, time := x } := by
  have hsp := small_pos
  have hc : countBelow (n.time - small) n.timestamps = k + 1 := countBelow_at h hy (by grind) (by grind)
  unfold Nav.goToPreviousFrame
  rw [hc]
  simp only [hx]
  rw [if_neg (by grind)]

def nextTimes : Nat → Nav → Nav
  | 0, n => n
  | k + 1, n => nextTimes k n.goToNextFrame

/-- **C18**: calling "next" over and over visits every frame once and in order. -/
theorem next_visits_all (ts : List Rat) (hts : Spaced ts) (stop : Rat) (n : Nav) (hn : Nav.load ts stop = some n)
    (hstop : ∀ t ∈ ts, t ≤ stop + small) (k : Nat) (t : Rat) (ht : ts[k]? = some t) :
    nextTimes k n = { n with index := k, time := t } := by
  have aux : ∀ k j (n : Nav) (x : Rat), n.timestamps = ts → n.stopTime = stop → ts[j]? = some x → n.index = j → n.time = x →
      ∀ t, ts[j + k]? = some t → nextTimes k n = { n with index := j + k, time := t } := by
    intro k
    induction k with
    | zero =>
      intro j n x h1 h2 h3 h4 h5 t h6
      rw [Nat.add_zero, h3] at h6
      simp at h6
      subst h4; subst h6; subst h5
      rfl
    | succ k ih =>
      intro j n x h1 h2 h3 h4 h5 t h6
      have hlt := (List.getElem?_eq_some_iff.1 h6).1
      have hy : ts[j + 1]? = some (ts[j + 1]'(by omega)) := List.getElem?_eq_getElem _
      have := next_is_next n (by rw [h1]; exact hts) j x _ (by rw [h1]; exact h3) h5 (by rw [h1]; exact hy)
        (by rw [h2]; exact hstop _ (List.getElem_mem _))
      rw [nextTimes, this]
      have := ih (j + 1) { n with index := j + 1, time := ts[j + 1]'(by omega) } _ h1 h2 hy rfl rfl t
        (by rw [← h6]; congr 1; omega)
      rw [this]
      simp only [Nav.mk.injEq, true_and, and_true]
      omega
  cases ts with
  | nil => simp at ht
  | cons t0 r =>
    simp only [Nav.load, Option.some.injEq] at hn
    subst hn
    have := fun n h1 h2 h3 h4 => aux k 0 n t0 h1 h2 rfl h3 h4 t (by simpa using ht)
    rw [this _ rfl rfl rfl rfl]
    simp

/-- **C18**: going to a time inside the limits reaches that time, and the frame belongs to it. -/
theorem goToTime_finds (n : Nav) (hs : Safe n) (hts : Spaced n.timestamps) (hloc : LocatedAt n.timestamps n.index n.time)
    (x : Rat) (h1 : n.startTime < x) (h2 : x < n.stopTime) :
    ∃ n', n.goToTime x false = some n' ∧ n'.time = x ∧
      (∀ j t, j < n'.index → n.timestamps[j]? = some t → t ≤ x + small) ∧
      (∀ j t, n'.index ≤ j → n.timestamps[j]? = some t → x - small ≤ t) ∧
      ((n.time ≤ x ∨ x < n.time - small) → LocatedAt n.timestamps n'.index x) := by
  have hsp := small_pos
  obtain ⟨i, a1, a2, a3, a4, a5, a6⟩ := findIndex_spec n hs x (by grind)
  have e : n.goToTime x false = some { n with index := i, time := x } := by
    unfold Nav.goToTime
    simp only [if_true]
    rw [if_neg (by grind), if_neg (by grind), a1]
    simp only [Option.map_some, Nav.limit]
    rw [if_neg (by grind), if_neg (by grind)]
  have hafter : ∀ j t, i ≤ j → n.timestamps[j]? = some t → x - small ≤ t := by
    intro j t hj ht
    rcases a5 with ⟨b1, b2⟩ | b
    · have := hloc.2 j t (by omega) ht
      grind
    · have h3 := b _ (List.getElem?_eq_getElem a2)
      have h4 := hts.le hj (List.getElem?_eq_getElem a2) ht
      grind
  have hbefore : ∀ j t, j < i → n.timestamps[j]? = some t → t ≤ x + small ∧ ((n.time ≤ x ∨ x < n.time - small) → t ≤ x) := by
    intro j t hj ht
    by_cases hc : x < n.time - small ∨ n.index ≤ j
    · have := a3 j t hc hj ht
      exact ⟨by grind, fun _ => by grind⟩
    · have h3 := hloc.1 j t (by omega) ht
      refine ⟨by grind, fun h => ?_⟩
      rcases h with h | h
      · grind
      · exact absurd (Or.inl h) hc
  refine ⟨_, e, rfl, fun j t hj ht => (hbefore j t hj ht).1, hafter, ?_⟩
  intro h
  exact ⟨fun j t hj ht => (hbefore j t hj ht).2 h, fun j t hj ht => hafter j t (by simp only at hj; omega) ht⟩

/-- **C18**: playing forward never skips a frame: it stops at the next frame at the latest, unless the end is reached. -/
theorem play_no_skip (n : Nav) (hs : Safe n) (x : Rat) (hx : n.time < x) :
    ∃ n', n.goToTime x true = some n' ∧
      ((n'.index = n.index + 1 ∧ n.timestamps[n.index + 1]? = some n'.time ∧ n'.time ≤ x + small) ∨
       (n'.index = n.index ∧ n'.time = x ∧ ∀ y, n.timestamps[n.index + 1]? = some y → x < y - small) ∨
       (n'.time = n.stopTime ∧ n'.index = n.stopIndex) ∨ (n'.time = n.startTime ∧ n'.index = n.startIndex)) := by
  obtain ⟨n', h1, h2⟩ := goToTime_moved n hs x true
  refine ⟨n', h1, ?_⟩
  rcases h2.2 with h | h | h
  · exact Or.inr (Or.inr (Or.inr ⟨h.2, h.1⟩))
  · exact Or.inr (Or.inr (Or.inl ⟨h.2, h.1⟩))
  · obtain ⟨_, _, h⟩ := h
    rcases h with ⟨_, h | h⟩ | ⟨h, _⟩ | h
    · left
      refine ⟨h.1, ?_, h.2.2⟩
      rw [← h.1]; exact h.2.1
    · exact Or.inr (Or.inl h)
    · grind
    · grind

/-- An operation that does not set the time back by less than the tolerance. -/
def Op.Steady (n : Nav) : Op → Prop
  | .time x false => n.time ≤ x ∨ x < n.time - small
  | .delta dt false => 0 ≤ dt ∨ dt < -small
  | _ => True

/-- **C18**: the frame keeps belonging to the time. -/
theorem op_located (n : Nav) (hs : Safe n) (hts : Spaced n.timestamps) (hloc : LocatedAt n.timestamps n.index n.time)
    (hstart : LocatedAt n.timestamps n.startIndex n.startTime) (hstop : LocatedAt n.timestamps n.stopIndex n.stopTime)
    (o : Op) (ho : o.Steady n) (n' : Nav) (hn' : n.op o = some n') : LocatedAt n'.timestamps n'.index n'.time := by
  have hsp := small_pos
  have key : ∀ {n' : Nav} {P : Nat → Rat → Prop}, Moved n n' P → (∀ i t, P i t → LocatedAt n.timestamps i t) →
      LocatedAt n'.timestamps n'.index n'.time := by
    intro n' P hm hP
    rw [hm.1.1]
    rcases hm.2 with h | h | h
    · rw [h.1, h.2]; exact hstart
    · rw [h.1, h.2]; exact hstop
    · exact hP _ _ h
  have hat : ∀ {i : Nat} {t : Rat}, n.timestamps[i]? = some t → LocatedAt n.timestamps i t := by
    intro i t h
    exact ⟨fun j x hj hx => hts.le (by omega) hx h, fun j x hj hx => by have := hts.le (by omega) h hx; grind⟩
  have htime : ∀ x b, n.goToTime x b = some n' → (b = false → n.time ≤ x ∨ x < n.time - small) →
      LocatedAt n'.timestamps n'.index n'.time := by
    intro x b hx hst
    obtain ⟨n1, b1, b2⟩ := goToTime_moved n hs x b
    rw [hx] at b1
    obtain rfl : n' = n1 := by simpa using b1
    refine key b2 ?_
    intro i t h
    cases b with
    | false =>
      obtain ⟨rfl, h3, h4, h5⟩ := h
      obtain ⟨n2, c1, c2, c3, c4, c5⟩ := goToTime_finds n hs hts hloc t h3 h4
      have c6 := c5 (hst rfl)
      have e : n2.index = i := by
        unfold Nav.goToTime at c1
        simp only [if_true] at c1
        rw [if_neg (by grind), if_neg (by grind), h5] at c1
        simp only [Option.map_some, Nav.limit] at c1
        rw [if_neg (by grind), if_neg (by grind)] at c1
        simp only [Option.some.injEq] at c1
        rw [← c1]
      rw [e] at c6
      exact c6
    | true =>
      obtain ⟨_, _, h⟩ := h
      rcases h with ⟨hge, h | h⟩ | ⟨hlt, h | h⟩ | h
      · exact hat h.2.1
      · obtain ⟨rfl, rfl, h⟩ := h
        refine ⟨fun j x hj hx => ?_, fun j x hj hx => ?_⟩
        · have := hloc.1 j x hj hx
          rcases (Rat.le_total : t ≤ n.time ∨ n.time ≤ t) with h1 | h1
          · rw [hge h1]; exact this
          · grind
        · have hlen : n.index + 1 < n.timestamps.length := by
            have := (List.getElem?_eq_some_iff.1 hx).1; omega
          have h1 := h _ (List.getElem?_eq_getElem hlen)
          have h2 := hts.le (by omega : n.index + 1 ≤ j) (List.getElem?_eq_getElem hlen) hx
          grind
      · exact hat h.2.1
      · obtain ⟨rfl, rfl, h⟩ := h
        refine ⟨fun j x hj hx => ?_, fun j x hj hx => ?_⟩
        · have hlen : n.index - 1 < n.timestamps.length := by have := hs.index; omega
          have h1 := h (n.index - 1) _ (by omega) (List.getElem?_eq_getElem hlen)
          have h2 := hts.le (by omega : j ≤ n.index - 1) hx (List.getElem?_eq_getElem hlen)
          grind
        · have := hloc.2 j x hj hx
          grind
      · obtain ⟨rfl, rfl, _⟩ := h
        exact hloc
  cases o with
  | time x b =>
    refine htime x b hn' ?_
    rintro rfl
    exact ho
  | delta dt b =>
    refine htime _ b hn' ?_
    rintro rfl
    have : 0 ≤ dt ∨ dt < -small := ho
    rcases this with h | h
    · left; grind
    · right; grind
  | next =>
    obtain rfl : n.goToNextFrame = n' := by simpa [Nav.op] using hn'
    exact key (goToNextFrame_moved n hs) (fun i t h => hat h.2.1)
  | previous =>
    obtain rfl : n.goToPreviousFrame = n' := by simpa [Nav.op] using hn'
    exact key (goToPreviousFrame_moved n hs) (fun i t h => hat h.2.1)
  | start b =>
    obtain rfl : n.goToStart b = n' := by simpa [Nav.op] using hn'
    exact key (goToStart_moved n b (fun _ _ => False)) (fun _ _ h => h.elim)
  | finish b =>
    obtain rfl : n.goToEnd b = n' := by simpa [Nav.op] using hn'
    exact key (goToEnd_moved n b (fun _ _ => False)) (fun _ _ h => h.elim)
  | nearest =>
    obtain rfl : n.setTimeToNearestTimestamp = n' := by simpa [Nav.op] using hn'
    refine key (nearest_moved n hs) ?_
    rintro i t ⟨rfl, c, hc, hcc⟩
    have hbelow : ∀ (j : Nat) x, j < c → n.timestamps[j]? = some x → x < n.time - small := by
      intro j x hj hx
      refine countBelow_lt (j := j) ?_ hx
      rcases hcc with h | h <;> omega
    have habove : c = countBelow (n.time - small) n.timestamps → n.time - small ≤ t := by
      intro h
      rw [h] at hc
      exact countBelow_stop hc
    refine ⟨fun j x hj hx => ?_, fun j x hj hx => ?_⟩
    · rcases Nat.lt_or_ge c j with h | h
      · exfalso
        have h1 := hts.lt h hc hx
        have h2 := hloc.1 j x hj hx
        rcases hcc with h3 | h3
        · have := habove h3
          grind
        · have := (List.getElem?_eq_some_iff.1 hx).1
          omega
      · exact hts.le h hx hc
    · rcases Nat.lt_or_ge j c with h | h
      · exfalso
        have h1 := hbelow j x h hx
        have h2 := hloc.2 j x hj hx
        grind
      · have := hts.le h hc hx
        grind
  | setRepeat b =>
    obtain rfl : { n with repeats := b } = n' := by simpa [Nav.op] using hn'
    exact hloc

/-- A loaded recording stands on its first frame. -/
theorem load_located (ts : List Rat) (hts : Spaced ts) (stop : Rat) (hne : ts ≠ [])
    (hstop : ∃ t, ts.getLast? = some t ∧ t - small ≤ stop) :
    ∃ n, Nav.load ts stop = some n ∧ n.timestamps = ts ∧ LocatedAt ts n.index n.time ∧
      LocatedAt ts n.startIndex n.startTime ∧ LocatedAt ts n.stopIndex n.stopTime := by
  have hsp := small_pos
  obtain ⟨t, r, rfl⟩ := List.exists_cons_of_ne_nil hne
  have h0 : LocatedAt (t :: r) 0 t := by
    refine ⟨fun j x hj => by omega, fun j x hj hx => ?_⟩
    have := hts.le (by omega : 0 ≤ j) (by rfl) hx
    grind
  refine ⟨_, rfl, rfl, h0, h0, ?_⟩
  obtain ⟨l, hl, hle⟩ := hstop
  rw [List.getLast?_eq_getElem?] at hl
  simp only [List.length_cons, Nat.add_one_sub_one] at hl
  refine ⟨fun j x hj hx => ?_, fun j x hj hx => ?_⟩
  · have := hts.lt hj hx hl
    grind
  · have := (List.getElem?_eq_some_iff.1 hx).1
    simp only [List.length_cons] at this hj
    omega

/-! ### A recording, and where the claim fails -/

def sampleTimes : List Rat := [0, 1, 2, 3, 4]

def sampleNav : Nav :=
  { timestamps := sampleTimes, startTime := 0, stopTime := 4, startIndex := 0, stopIndex := 4, time := 0, index := 0,
    repeats := false }

theorem sampleTimes_spaced : Spaced sampleTimes := by
  unfold Spaced sampleTimes; simp only [List.pairwise_cons]; decide +kernel

theorem sampleNav_load : Nav.load sampleTimes 4 = some sampleNav := rfl

theorem sampleNav_safe : Safe sampleNav := ⟨by decide, by decide, by decide, 4, rfl, by decide +kernel⟩

theorem sampleNav_located : LocatedAt sampleNav.timestamps sampleNav.index sampleNav.time := by
  obtain ⟨n, h1, h2, h3, _⟩ := load_located sampleTimes sampleTimes_spaced 4 (by decide) ⟨4, rfl, by decide +kernel⟩
  rw [sampleNav_load] at h1
  obtain rfl : sampleNav = n := by simpa using h1
  exact h3

example : (sampleNav.ops [.next, .next, .time (5/2) false, .previous, .delta (1/2) true, .finish false]).map
    (fun n => (n.index, n.time)) = some (4, 4) := by decide +kernel

example : (sampleNav.ops [.next, .next, .time (5/2) false, .previous, .delta (1/2) true]).map
    (fun n => (n.index, n.time)) = some (2, 5/2) := by decide +kernel

def at_ (i : Nat) (t : Rat) : Nav := { sampleNav with index := i, time := t }

/-- **C18** violated: after going to a time between two frames the current frame is at another time than the
reported one. -/
theorem frame_time_fails : ∃ n, sampleNav.goToTime (3/2) false = some n ∧ n.time = 3/2 ∧ n.index = 2 ∧
    n.timestamps[n.index]? = some 2 := ⟨at_ 2 (3/2), by decide +kernel, by decide +kernel⟩

/-- **C18** violated: playing on from there skips the frame at 2 s although it should stop at the next frame. -/
theorem play_skips_frame_fails : ∃ n, sampleNav.ops [.time (3/2) false, .delta (6/5) true] = some n ∧ n.time = 27/10 ∧
    (2 : Rat) ∈ n.timestamps := ⟨at_ 2 (27/10), by decide +kernel, by decide +kernel⟩

/-- **C18** violated: setting the start time back leaves the replay time, but moves the frame; going back in time then
finds a frame that does not belong to the time. -/
theorem start_time_fails : ∃ n n', (sampleNav.ops [.finish true]).bind (·.setStartTime 0) = some n ∧ n.time = 4 ∧
    n.index = 0 ∧ n.goToTime 3 false = some n' ∧ n'.time = 3 ∧ n'.index = 1 ∧ ¬LocatedAt n'.timestamps n'.index n'.time := by
  refine ⟨at_ 0 4, at_ 1 3, by decide +kernel, by decide +kernel, by decide +kernel, by decide +kernel,
    by decide +kernel, by decide +kernel, ?_⟩
  intro h
  have := h.2 2 2 (by decide) rfl
  revert this
  decide +kernel

/-- **C18** violated: a stop time behind the last frame takes the replay to a frame that does not exist, and going back
from there is undefined. -/
theorem stop_time_fails : ∃ n n', sampleNav.setStopTime 20 = some n ∧ n.goToEnd true = n' ∧
    n'.index = n'.timestamps.length ∧ n'.goToTime 2 false = none :=
  ⟨{ sampleNav with stopTime := 20, stopIndex := 5 }, { sampleNav with stopTime := 20, stopIndex := 5, time := 20, index := 5 },
    by decide +kernel, by decide +kernel, by decide +kernel, by decide +kernel⟩

end Verif.Replay
