import Verif.Condition.Model

/-! Helper lemmas about the delay buffer. -/
namespace Verif.Condition
open Verif.Common

theorem small_pos : (0 : Rat) < small := by decide +kernel

/-- consecutive samples are at least `SMALL_NUMBER` apart -/
def Spaced : List Entry → Prop
  | [] => True
  | [_] => True
  | a :: b :: r => a.time + small ≤ b.time ∧ Spaced (b :: r)

/-- the entries of `s` that differ from their predecessor (`prev` before the first) -/
def changesFrom : Option Bool → List Entry → List Entry
  | _, [] => []
  | p, e :: r => if p = some e.value then changesFrom p r else e :: changesFrom (some e.value) r

def lastVal (p : Option Bool) (s : List Entry) : Option Bool :=
  match s.getLast? with | none => p | some e => some e.value

theorem lastVal_nil (p) : lastVal p [] = p := rfl
theorem lastVal_cons (p e s) : lastVal p (e :: s) = lastVal (some e.value) s := by
  unfold lastVal
  cases s with
  | nil => simp
  | cons a r =>
    rw [List.getLast?_cons_cons]
    cases h : (a :: r).getLast? with
    | none => simp at h
    | some x => rfl

theorem changesFrom_append (p) (s u : List Entry) :
    changesFrom p (s ++ u) = changesFrom p s ++ changesFrom (lastVal p s) u := by
  induction s generalizing p with
  | nil => simp [changesFrom, lastVal]
  | cons e s ih =>
    simp only [List.cons_append, changesFrom, lastVal_cons]
    split
    · next h => rw [ih, h]
    · simp [ih]

theorem lastVal_append (p) (s u : List Entry) : lastVal p (s ++ u) = lastVal (lastVal p s) u := by
  induction s generalizing p with
  | nil => rfl
  | cons e s ih => simp only [List.cons_append, lastVal_cons, ih]

theorem lastVal_changesFrom (p) (s : List Entry) : lastVal p (changesFrom p s) = lastVal p s := by
  induction s generalizing p with
  | nil => rfl
  | cons e s ih =>
    simp only [changesFrom, lastVal_cons]
    split
    · next h => rw [ih, h]
    · rw [lastVal_cons, ih]

theorem mem_changesFrom {p s e} (h : e ∈ changesFrom p s) : e ∈ s := by
  induction s generalizing p with
  | nil => simp [changesFrom] at h
  | cons a s ih =>
    simp only [changesFrom] at h
    split at h
    · exact List.mem_cons_of_mem _ (ih h)
    · rcases List.mem_cons.1 h with h | h
      · exact h ▸ List.mem_cons_self
      · exact List.mem_cons_of_mem _ (ih h)

/-- an entry of the change list is a sample differing from the previous sample -/
theorem mem_changesFrom_iff (p s e) :
    e ∈ changesFrom p s ↔ ∃ pre post, s = pre ++ e :: post ∧ lastVal p pre ≠ some e.value := by
  induction s generalizing p with
  | nil => simp [changesFrom]
  | cons a s ih =>
    simp only [changesFrom]
    constructor
    · intro h
      split at h
      · next hp =>
        obtain ⟨pre, post, rfl, hv⟩ := (ih p).1 h
        exact ⟨a :: pre, post, rfl, by rw [lastVal_cons, ← hp]; exact hv⟩
      · next hp =>
        rcases List.mem_cons.1 h with rfl | h
        · exact ⟨[], s, rfl, hp⟩
        · obtain ⟨pre, post, rfl, hv⟩ := (ih _).1 h
          exact ⟨a :: pre, post, rfl, by rw [lastVal_cons]; exact hv⟩
    · rintro ⟨pre, post, heq, hv⟩
      cases pre with
      | nil =>
        simp only [List.nil_append, List.cons.injEq] at heq
        obtain ⟨rfl, rfl⟩ := heq
        rw [lastVal_nil] at hv
        rw [if_neg hv]; exact List.mem_cons_self
      | cons b pre =>
        simp only [List.cons_append, List.cons.injEq] at heq
        obtain ⟨rfl, rfl⟩ := heq
        rw [lastVal_cons] at hv
        split
        · next hp => exact (ih _).2 ⟨pre, post, rfl, by rw [hp]; exact hv⟩
        · exact List.mem_cons_of_mem _ ((ih _).2 ⟨pre, post, rfl, hv⟩)

/-- all times of `s` increase -/
def Sorted (s : List Entry) : Prop := s.Pairwise (fun a b => a.time + small ≤ b.time)

theorem Spaced.sorted {s : List Entry} (h : Spaced s) : Sorted s := by
  have sp := small_pos
  induction s with
  | nil => exact List.Pairwise.nil
  | cons a s ih =>
    cases s with
    | nil => simp [Sorted]
    | cons b r =>
      have ih' := ih h.2
      refine List.Pairwise.cons ?_ ih'
      intro c hc
      rcases List.mem_cons.1 hc with rfl | hc
      · exact h.1
      · have := List.rel_of_pairwise_cons ih' hc
        have := h.1
        grind

theorem sorted_sublist {s u : List Entry} (h : s.Sublist u) (hu : Sorted u) : Sorted s := hu.sublist h

theorem changesFrom_sublist (p s) : (changesFrom p s).Sublist s := by
  induction s generalizing p with
  | nil => exact List.Sublist.refl _
  | cons a s ih =>
    simp only [changesFrom]
    split
    · exact (ih _).cons _
    · exact (ih _).cons_cons _

theorem changesFrom_ne_nil {e s} : changesFrom none (e :: s) ≠ [] := by simp [changesFrom]

theorem changesFrom_eq_nil {s} (h : changesFrom none s = []) : s = [] := by
  cases s with
  | nil => rfl
  | cons e s => simp [changesFrom] at h

/-- Registering a value later than all others appends it to the list of changes. -/
theorem register_forward (s : List Entry) (t : Rat) (v : Bool) (i : Nat)
    (hs : ∀ e ∈ s, e.time + small ≤ t) :
    register t v ⟨changesFrom none s, i⟩ = ⟨changesFrom none (s ++ [⟨t, v⟩]), i⟩ := by
  have sp := small_pos
  unfold register
  have hl := lastVal_changesFrom none s
  rw [changesFrom_append]
  cases hc : (changesFrom none s).getLast? with
  | none =>
    have : changesFrom none s = [] := by simpa using hc
    have hs' := changesFrom_eq_nil this
    subst hs'
    simp [changesFrom, lastVal]
  | some b =>
    have hb : b ∈ changesFrom none s := List.mem_of_getLast? hc
    have hbt := hs b (mem_changesFrom hb)
    have hlv : lastVal none s = some b.value := by
      rw [← hl]; unfold lastVal; rw [hc]
    simp only [hlv, changesFrom]
    rw [if_neg (by grind)]
    by_cases h : v = b.value
    · subst h; simp
    · rw [if_pos (by simpa using h), if_neg (by simpa using fun h' => h h'.symm)]

/-- splitting an ordered list at a time -/
theorem takeWhile_eq_filter {s : List Entry} (hs : Sorted s) (τ : Rat) :
    s.takeWhile (fun e => decide (τ > e.time - small)) = s.filter (fun e => decide (τ > e.time - small)) := by
  have sp := small_pos
  induction s with
  | nil => rfl
  | cons a s ih =>
    have hs' : Sorted s := (List.pairwise_cons.1 hs).2
    simp only [List.takeWhile_cons, List.filter_cons]
    split
    · rw [ih hs']
    · next h =>
      symm
      rw [List.filter_eq_nil_iff]
      intro b hb
      have := (List.pairwise_cons.1 hs).1 b hb
      grind

/-- The index invariant: `current_index_` counts the entries passed by the last query. -/
def idxOf (q : Option Rat) (l : List Entry) : Nat :=
  match q with
  | none => 0
  | some q => (l.filter (fun e => decide (q > e.time - small))).length

/-- the entries passed by the last query -/
def passedBy (q : Option Rat) (l : List Entry) : List Entry :=
  match q with
  | none => []
  | some x => l.filter (fun e => decide (x > e.time - small))

theorem filter_prefix {l : List Entry} (hs : Sorted l) (q : Rat) :
    ∃ C, l = l.filter (fun e => decide (q > e.time - small)) ++ C ∧ ∀ e ∈ C, q ≤ e.time - small := by
  have sp := small_pos
  induction l with
  | nil => exact ⟨[], rfl, by simp⟩
  | cons a s ih =>
    have hs' : Sorted s := (List.pairwise_cons.1 hs).2
    by_cases h : q > a.time - small
    · obtain ⟨C, h1, h2⟩ := ih hs'
      refine ⟨C, ?_, h2⟩
      rw [List.filter_cons_of_pos (by simpa using h), List.cons_append, ← h1]
    · refine ⟨a :: s, ?_, ?_⟩
      · have : (a :: s).filter (fun e => decide (q > e.time - small)) = [] := by
          rw [List.filter_eq_nil_iff]
          intro b hb
          rcases List.mem_cons.1 hb with rfl | hb
          · simpa using h
          · have := (List.pairwise_cons.1 hs).1 b hb
            grind
        rw [this]; rfl
      · intro e he
        rcases List.mem_cons.1 he with rfl | he
        · grind
        · have := (List.pairwise_cons.1 hs).1 e he
          grind

/-- What a query at a later time than the previous one gives. -/
theorem getValueAt_forward {l : List Entry} (hs : Sorted l) (q : Option Rat) (τ : Rat)
    (hq : ∀ x, q = some x → x ≤ τ) :
    ∃ A B C, l = A ++ B ++ C ∧
      A = passedBy q l ∧
      A ++ B = l.filter (fun e => decide (τ > e.time - small)) ∧
      getValueAt τ ⟨l, idxOf q l⟩ = some (⟨l, idxOf (some τ) l⟩,
        if B = [] then (lastVal none A).getD false else B.any (·.value)) := by
  have sp := small_pos
  -- the three segments
  obtain ⟨A, R, hA, hl, hR, hAq, hidx⟩ : ∃ A R, A = passedBy q l
      ∧ l = A ++ R ∧ (∀ e ∈ A, τ > e.time - small) ∧ (∀ x, q = some x → ∀ e ∈ R, x ≤ e.time - small) ∧ idxOf q l = A.length := by
    cases q with
    | none => exact ⟨[], l, rfl, rfl, by simp, by simp, rfl⟩
    | some x =>
      obtain ⟨C, h1, h2⟩ := filter_prefix hs x
      refine ⟨l.filter (fun e => decide (x > e.time - small)), C, rfl, h1, ?_, ?_, rfl⟩
      · intro e he
        have := (List.mem_filter.1 he).2
        have := hq x rfl
        grind
      · intro y hy; cases hy; exact h2
  have hsR : Sorted R := by
    refine sorted_sublist ?_ hs
    rw [hl]; exact List.sublist_append_right _ _
  obtain ⟨C, h1, h2⟩ := filter_prefix hsR τ
  refine ⟨A, R.filter (fun e => decide (τ > e.time - small)), C, ?_, hA, ?_, ?_⟩
  · rw [List.append_assoc, ← h1, hl]
  · rw [hl, List.filter_append]
    congr 1
    symm
    rw [List.filter_eq_self]
    intro e he
    simpa using hR e he
  · have hidx' : idxOf (some τ) l = A.length + (R.filter (fun e => decide (τ > e.time - small))).length := by
      simp only [idxOf]
      rw [hl, List.filter_append, List.length_append]
      congr 2
      rw [List.filter_eq_self]
      intro e he
      simpa using hR e he
    rw [hidx, hidx']
    unfold getValueAt
    by_cases hn : l = []
    · subst hn
      have hA0 : A = [] ∧ R = [] := by
        have := hl.symm
        exact List.append_eq_nil_iff.1 this
      obtain ⟨hA0, hR0⟩ := hA0
      subst hR0; subst hA0
      simp [lastVal]
    · simp only [if_neg hn]
      have hguard : rewindCheck τ ⟨l, A.length⟩ = some ⟨l, A.length⟩ := by
        unfold rewindCheck
        simp only
        split
        · next hpos =>
          have hlt : A.length - 1 < A.length := by omega
          have : l[A.length - 1]? = some (A[A.length - 1]'hlt) := by
            rw [hl, List.getElem?_append_left hlt, List.getElem?_eq_getElem hlt]
          rw [this]
          have hm := hR _ (List.getElem_mem hlt)
          simp only
          rw [if_neg (by grind)]
        · rfl
      rw [hguard]
      simp only [Option.bind_some, readAt]
      cases R with
      | nil =>
        have hlA : l = A := by simpa using hl
        have : l[A.length]? = none := by rw [hlA]; simp
        rw [this]
        simp only [List.filter_nil, if_pos, List.length_nil, Nat.add_zero]
        rw [hlA]
        congr 2
        unfold lastVal
        cases A.getLast? <;> rfl
      | cons r R =>
        have hr : l[A.length]? = some r := by rw [hl]; simp
        rw [hr]
        simp only
        by_cases hgt : τ > r.time - small
        · rw [if_pos hgt]
          have hd : l.drop A.length = r :: R := by rw [hl]; simp
          rw [hd]
          unfold passed
          rw [takeWhile_eq_filter hsR]
          rw [if_neg]
          rw [List.filter_cons_of_pos (by simpa using hgt)]
          simp
        · rw [if_neg hgt]
          have hf : (r :: R).filter (fun e => decide (τ > e.time - small)) = [] := by
            rw [List.filter_eq_nil_iff]
            intro b hb
            rcases List.mem_cons.1 hb with rfl | hb
            · simpa using hgt
            · have := (List.pairwise_cons.1 hsR).1 b hb
              grind
          rw [hf]
          simp only [if_pos, List.length_nil, Nat.add_zero]
          split
          · next hpos =>
            have hlt : A.length - 1 < A.length := by omega
            have : l[A.length - 1]? = some (A[A.length - 1]'hlt) := by
              rw [hl, List.getElem?_append_left hlt, List.getElem?_eq_getElem hlt]
            rw [this]
            have hla : A.getLast? = some (A[A.length - 1]'hlt) := by
              rw [List.getLast?_eq_getElem?, List.getElem?_eq_getElem hlt]
            simp [lastVal, hla]
          · next hpos =>
            have : A = [] := List.length_eq_zero_iff.1 (by omega)
            subst this
            rfl

end Verif.Condition

namespace Verif.Condition
open Verif.Common

theorem Sorted.spaced_mem {s : List Entry} {x : Entry} (h : Sorted (s ++ [x])) :
    ∀ e ∈ s, e.time + small ≤ x.time := by
  intro e he
  exact (List.pairwise_append.1 h).2.2 e he x (by simp)

/-- the query made at the last sample -/
def lastQuery (d : Rat) (s : List Entry) : Option Rat := s.getLast?.map (fun e => e.time - d)

/-- the state of the buffer after the samples `s` were registered and queried -/
def bufferOf (d : Rat) (s : List Entry) : Delay :=
  ⟨changesFrom none s, idxOf (lastQuery d s) (changesFrom none s)⟩

/-- One more sample: what the buffer becomes and what is reported. -/
theorem buffer_step {d : Rat} (hd : 0 ≤ d) (s : List Entry) (x : Entry) (hs : Sorted (s ++ [x])) :
    ∃ A B C, changesFrom none (s ++ [x]) = A ++ B ++ C ∧
      A = passedBy (lastQuery d s) (changesFrom none (s ++ [x])) ∧
      A ++ B = (changesFrom none (s ++ [x])).filter (fun e => decide (x.time - d > e.time - small)) ∧
      getValueAt (x.time - d) (register x.time x.value (bufferOf d s)) =
        some (bufferOf d (s ++ [x]),
          if B = [] then (lastVal none A).getD false else B.any (·.value)) := by
  have sp := small_pos
  have hb := hs.spaced_mem
  unfold bufferOf
  rw [register_forward s x.time x.value _ hb]
  have hx : (⟨x.time, x.value⟩ : Entry) = x := rfl
  rw [hx]
  have hq : ∀ q, lastQuery d s = some q → q ≤ x.time - d ∧ q ≤ x.time - small := by
    intro q hq
    unfold lastQuery at hq
    cases hl : s.getLast? with
    | none => simp [hl] at hq
    | some e =>
      simp [hl] at hq
      have := hb e (List.mem_of_getLast? hl)
      grind
  have hidx : idxOf (lastQuery d s) (changesFrom none s) = idxOf (lastQuery d s) (changesFrom none (s ++ [x])) := by
    rw [changesFrom_append]
    cases hl : lastQuery d s with
    | none => rfl
    | some q =>
      have := hq q hl
      simp only [idxOf, List.filter_append, List.length_append]
      have hn : (changesFrom (lastVal none s) [x]).filter (fun e => decide (q > e.time - small)) = [] := by
        rw [List.filter_eq_nil_iff]
        intro e he
        have := mem_changesFrom he
        simp at this
        grind
      rw [hn]; simp
  rw [hidx]
  obtain ⟨A, B, C, h1, h2, h3, h4⟩ := getValueAt_forward
    (sorted_sublist (changesFrom_sublist none (s ++ [x])) hs) (lastQuery d s) (x.time - d) (fun q h => (hq q h).1)
  refine ⟨A, B, C, h1, h2, h3, ?_⟩
  rw [h4]
  have : lastQuery d (s ++ [x]) = some (x.time - d) := by simp [lastQuery]
  rw [this]

theorem filter_changesFrom {s : List Entry} (hs : Sorted s) (p : Option Bool) (τ : Rat) :
    (changesFrom p s).filter (fun e => decide (τ > e.time - small)) =
      changesFrom p (s.filter (fun e => decide (τ > e.time - small))) := by
  obtain ⟨C, h1, h2⟩ := filter_prefix hs τ
  generalize hP : s.filter (fun e => decide (τ > e.time - small)) = P at *
  rw [h1, changesFrom_append, List.filter_append]
  have hC : (changesFrom (lastVal p P) C).filter (fun e => decide (τ > e.time - small)) = [] := by
    rw [List.filter_eq_nil_iff]
    intro e he
    have := h2 e (mem_changesFrom he)
    grind
  rw [hC, List.append_nil, List.filter_eq_self]
  intro e he
  have : e ∈ P := mem_changesFrom he
  rw [← hP] at this
  exact (List.mem_filter.1 this).2

end Verif.Condition
