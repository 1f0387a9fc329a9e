import Verif.Entities.Theorems
import Verif.Common.Macros

/-
`Object::Distance(Object*, ...)` with freeSpace, Entities.cpp:1042-1189 (the part for objects with trailers).

Simplifications: the measured distance between two single objects (`FreeSpaceDistance`, 640-723, and
`FreeSpaceDistanceObjectRoadLane`, 896-1039) is an arbitrary function; `double` is exact. `tow`/`trailer` are the answers of
`TowVehicle()`/`TrailerVehicle()`.
-/
namespace Verif.Entities
open Verif.Common

/-- `candidate_info`, Entities.cpp:1063-1068. -/
structure Cand where
  dist : Rat
  lat : Rat
  long : Rat
deriving DecidableEq, Repr

/-- `LARGE_NUMBER`, CommonMini.hpp. -/
def large : Rat := 10000000000

/-- `while (pivot_obj->TowVehicle()) pivot_obj = pivot_obj->TowVehicle()`, Entities.cpp:1073-1076; `none` if the fuel does not
suffice. -/
def frontmost (tow : Nat → Option Nat) : Nat → Nat → Option Nat
  | 0, _ => none
  | n + 1, o => match tow o with
    | none => some o
    | some p => frontmost tow n p

/-- `while (target_obj->TowVehicle()) target_front_obj = target_front_obj->TowVehicle()`, Entities.cpp:1077-1080; the pointer
may become null (`none` inside); the outer `none` is a null dereference or no end. -/
def targetFront (tow : Nat → Option Nat) (target : Nat) : Nat → Option Nat → Option Nat
  | 0, _ => none
  | n + 1, f => match tow target with
    | none => f
    | some _ => match f with
      | none => none
      | some p => targetFront tow target n (tow p)

/-- `if (fabs(dist) < fabs(candidate_info.dist)) ...`, Entities.cpp:1088-1093. -/
def better (c d : Cand) : Cand := if absR d.dist < absR c.dist then d else c

/-- The inner loop, Entities.cpp:1085-1095, with the remaining number of iterations. -/
def innerLoop (D : Nat → Cand) (tr : Nat → Option Nat) : Nat → Option Nat → Cand → Nat × Cand
  | k, none, c => (k, c)
  | 0, some _, c => (0, c)
  | k + 1, some t, c => if absR c.dist > 0 then innerLoop D tr k (tr t) (better c (D t)) else (k, c)

/-- The outer loop, Entities.cpp:1082-1097; the first number is fuel. -/
def outerLoop (D : Nat → Nat → Cand) (tr : Nat → Option Nat) (front : Nat) : Nat → Nat → Option Nat → Cand → Cand
  | 0, _, _, c => c
  | _ + 1, _, none, c => c
  | n + 1, k, some p, c =>
    if k > 0 ∧ c.dist > 0 then
      outerLoop D tr front n (innerLoop (D p) tr k (some front) c).1 (tr p) (innerLoop (D p) tr k (some front) c).2
    else c

/-- `Object::Distance`, freeSpace, Euclidean or entity coordinates, Entities.cpp:1055-1112, up to the choice of the component. -/
def freeSpace (D : Nat → Nat → Cand) (tow tr : Nat → Option Nat) (fuel self target : Nat) : Option Cand :=
  match frontmost tow fuel self, targetFront tow target fuel (some target) with
  | some p, some f => some (outerLoop D tr f 101 100 (some p) ⟨large, large, large⟩)
  | _, _ => none

/-- The result for the Euclidean distance, Entities.cpp:1100. -/
def signedDist (c : Cand) : Rat := c.dist * signR c.long

/-- One measurement of the road/lane variant, Entities.cpp:1145-1160: always against `target`. -/
def innerRoad (D : Nat → Cand) (tr : Nat → Option Nat) (target : Nat) : Nat → Option Nat → Cand → Nat × Cand
  | k, none, c => (k, c)
  | 0, some _, c => (0, c)
  | k + 1, some t, c => if k > 0 ∧ absR c.dist > 0 then innerRoad D tr target k (tr t) (better c (D target)) else (k, c)

/-! ## Theorems -/

theorem absR_nonneg_eq {x : Rat} (h : 0 ≤ x) : absR x = x := by
  unfold absR; split <;> grind

/-- The chain of vehicles starting at `o` as a list. -/
def Links (tr : Nat → Option Nat) : Option Nat → List Nat → Prop
  | o, [] => o = none
  | o, x :: l => o = some x ∧ Links tr (tr x) l

theorem convoy_links {tr o c} (h : Convoy tr o c) : Links tr (some o) c := by
  induction h with
  | last h => exact ⟨rfl, h⟩
  | cons h _ _ ih => exact ⟨rfl, by rw [h]; exact ih⟩

/-- `c` is not larger than `c0` and the measurements of `l`, and is one of them. -/
structure Min (c0 : Cand) (l : List Cand) (c : Cand) : Prop where
  nonneg : 0 ≤ c.dist
  le0 : c.dist ≤ c0.dist
  le : ∀ d, d ∈ l → c.dist ≤ d.dist
  mem : c = c0 ∨ c ∈ l

theorem better_min {c d : Cand} (hc : 0 ≤ c.dist) (hd : 0 ≤ d.dist) : Min c [d] (better c d) := by
  unfold better
  rw [absR_nonneg_eq hc, absR_nonneg_eq hd]
  split
  · exact ⟨hd, by grind, by simp, by simp⟩
  · exact ⟨hc, by grind, by simp; grind, by simp⟩

theorem Min.trans {c0 c1 c2 : Cand} {l1 l2 : List Cand} (h1 : Min c0 l1 c1) (h2 : Min c1 l2 c2) : Min c0 (l1 ++ l2) c2 := by
  refine ⟨h2.nonneg, by have := h1.le0; have := h2.le0; grind, ?_, ?_⟩
  · intro d hd
    rw [List.mem_append] at hd
    rcases hd with hd | hd
    · have := h1.le d hd; have := h2.le0; grind
    · exact h2.le d hd
  · rcases h2.mem with h | h
    · rcases h1.mem with h' | h'
      · exact .inl (h.trans h')
      · right; rw [h]; simp [h']
    · right; simp [h]

/-- A zero candidate is minimal. -/
theorem min_of_zero {c : Cand} {l : List Cand} (h0 : c.dist = 0) (hl : ∀ d, d ∈ l → 0 ≤ d.dist) : Min c l c :=
  ⟨by grind, by grind, fun d hd => by have := hl d hd; grind, .inl rfl⟩

theorem innerLoop_min (D : Nat → Cand) (tr : Nat → Option Nat) (hD : ∀ t, 0 ≤ (D t).dist) : ∀ (l : List Nat) (o : Option Nat)
    (k : Nat) (c : Cand), Links tr o l → l.length ≤ k → 0 ≤ c.dist →
    Min c (l.map D) (innerLoop D tr k o c).2 ∧ (k - l.length ≤ (innerLoop D tr k o c).1) := by
  intro l
  induction l with
  | nil =>
    intro o k c ho hk hc
    have : o = none := ho
    subst this
    unfold innerLoop
    exact ⟨⟨hc, by grind, by simp, .inl rfl⟩, by simp⟩
  | cons x l ih =>
    intro o k c ho hk hc
    obtain ⟨e, hl⟩ := ho
    subst e
    cases k with
    | zero => simp at hk
    | succ k =>
      unfold innerLoop
      rw [absR_nonneg_eq hc]
      by_cases h0 : c.dist > 0
      · simp only [h0, if_true]
        have hb := better_min hc (hD x)
        obtain ⟨h1, h2⟩ := ih (tr x) k (better c (D x)) hl (by simpa using hk) hb.nonneg
        refine ⟨?_, by simp; omega⟩
        have := hb.trans h1
        simpa using this
      · simp only [h0, if_false]
        refine ⟨min_of_zero (by grind) ?_, by simp⟩
        intro d hd
        simp only [List.mem_map] at hd
        obtain ⟨t, _, rfl⟩ := hd
        exact hD t

theorem outerLoop_min (D : Nat → Nat → Cand) (tr : Nat → Option Nat) (hD : ∀ p t, 0 ≤ (D p t).dist) (front : Nat)
    (T : List Nat) (hT : Links tr (some front) T) : ∀ (P : List Nat) (n k : Nat) (o : Option Nat) (c : Cand), Links tr o P →
    P.length < n → P.length * T.length ≤ k → 0 ≤ c.dist →
    Min c (P.flatMap fun p => T.map (D p)) (outerLoop D tr front n k o c) := by
  intro P
  induction P with
  | nil =>
    intro n k o c ho hn hk hc
    have : o = none := ho
    subst this
    cases n with
    | zero => simp at hn
    | succ n => unfold outerLoop; exact ⟨hc, by grind, by simp, .inl rfl⟩
  | cons x P ih =>
    intro n k o c ho hn hk hc
    obtain ⟨e, hl⟩ := ho
    subst e
    cases n with
    | zero => simp at hn
    | succ n =>
      have hT0 : 0 < T.length := by
        cases T with
        | nil => cases hT
        | cons => simp
      have hk' : P.length * T.length + T.length ≤ k := by
        simpa [Nat.succ_mul] using hk
      unfold outerLoop
      by_cases h0 : c.dist > 0
      · have hk0 : k > 0 := by omega
        simp only [h0, hk0, and_self, if_true]
        obtain ⟨h1, h2⟩ := innerLoop_min (D x) tr (hD x) T (some front) k c hT (by omega) hc
        have h3 := ih n (innerLoop (D x) tr k (some front) c).1 (tr x) (innerLoop (D x) tr k (some front) c).2 hl
          (by simpa using hn) (by omega) h1.nonneg
        have := h1.trans h3
        simpa using this
      · simp only [h0, and_false, if_false]
        refine min_of_zero (by grind) ?_
        intro d hd
        simp only [List.mem_flatMap, List.mem_map] at hd
        obtain ⟨p, _, t, _, rfl⟩ := hd
        exact hD p t

theorem frontmost_spec {tow : Nat → Option Nat} {n o p : Nat} (h : frontmost tow n o = some p) : tow p = none := by
  induction n generalizing o with
  | zero => simp [frontmost] at h
  | succ n ih =>
    unfold frontmost at h
    split at h
    · cases h; assumption
    · exact ih h

/-- C52 (partial): measured from the front of one combination to a combination whose own front is the target, with at most
100 pairs of vehicles, the free space distance is the smallest of all pairs, and its components are those of such a pair.
Missing: target a trailer (next theorem). -/
theorem freeSpace_min_partial {D : Nat → Nat → Cand} {tow tr : Nat → Option Nat} {fuel self target p : Nat} {P T : List Nat}
    (hD : ∀ p t, 0 ≤ (D p t).dist ∧ (D p t).dist < large) (hfuel : 0 < fuel) (hp : frontmost tow fuel self = some p)
    (ht : tow target = none) (hP : Convoy tr p P) (hT : Convoy tr target T) (hlen : P.length * T.length ≤ 100) :
    ∃ c, freeSpace D tow tr fuel self target = some c ∧ (∀ a b, a ∈ P → b ∈ T → c.dist ≤ (D a b).dist) ∧
      ∃ a b, a ∈ P ∧ b ∈ T ∧ c = D a b := by
  have hTF : targetFront tow target fuel (some target) = some target := by
    cases fuel with
    | zero => simp at hfuel
    | succ n => simp [targetFront, ht]
  have hT0 : 0 < T.length := List.length_pos_iff.2 (by cases hT <;> simp)
  have hPl : P.length < 101 := by
    have : P.length * 1 ≤ P.length * T.length := Nat.mul_le_mul_left _ hT0
    omega
  have hm := outerLoop_min D tr (fun p t => (hD p t).1) target T (convoy_links hT) P 101 100 (some p) ⟨large, large, large⟩
    (convoy_links hP) hPl hlen (by decide +kernel)
  refine ⟨outerLoop D tr target 101 100 (some p) ⟨large, large, large⟩, by simp [freeSpace, hp, hTF], ?_, ?_⟩
  · intro a b ha hb
    exact hm.le _ (by simp only [List.mem_flatMap, List.mem_map]; exact ⟨a, ha, b, hb, rfl⟩)
  · rcases hm.mem with h | h
    · have hb := convoy_ne hT
      have ha := convoy_ne hP
      have h1 := hm.le (D p target) (by simp only [List.mem_flatMap, List.mem_map]; exact ⟨p, ha, target, hb, rfl⟩)
      rw [h] at h1
      have h2 := (hD p target).2
      simp only at h1
      grind
    · simp only [List.mem_flatMap, List.mem_map] at h
      obtain ⟨a, ha, b, hb, e⟩ := h
      exact ⟨a, b, ha, hb, e.symm⟩

/-- C52 fails: the free space distance to a towed vehicle dereferences null or does not end, whatever the fuel. -/
theorem freeSpace_trailer_fails (D : Nat → Nat → Cand) (tow tr : Nat → Option Nat) (fuel self target q : Nat)
    (h : tow target = some q) : freeSpace D tow tr fuel self target = none := by
  have : ∀ n f, targetFront tow target n f = none := by
    intro n
    induction n with
    | zero => intro f; rfl
    | succ n ih =>
      intro f
      unfold targetFront
      simp only [h]
      cases f with
      | none => rfl
      | some p => exact ih _
  unfold freeSpace
  rw [this]
  cases frontmost tow fuel self <;> rfl

/-- C52 fails in road and lane coordinates: the trailers of the target are not measured, the result depends on the target
vehicle alone. -/
theorem roadDistance_ignores_trailers_fails : ∃ (D : Nat → Cand) (tr : Nat → Option Nat), Convoy tr 1 [1, 2] ∧
    (D 2).dist = 5 ∧ (innerRoad D tr 1 100 (some 1) ⟨large, large, large⟩).2.dist = 20 := by
  refine ⟨fun t => if t = 2 then ⟨5, 0, 5⟩ else ⟨20, 0, 20⟩, fun t => if t = 1 then some 2 else none, ?_, ?_, ?_⟩
  · exact .cons rfl (.last rfl) (by simp)
  · decide +kernel
  · decide +kernel

/-- A car (3) behind a truck (1) with trailer (2): the distance is the one to the trailer. -/
example : freeSpace (fun _ t => if t = 2 then ⟨5, 0, 5⟩ else ⟨20, 0, 20⟩) (fun o => if o = 2 then some 1 else none)
    (fun o => if o = 1 then some 2 else none) 10 3 1 = some ⟨5, 0, 5⟩ := by decide +kernel

example : Convoy (fun o => if o = 1 then some 2 else none) 1 [1, 2] := .cons rfl (.last rfl) (by simp)

end Verif.Entities
