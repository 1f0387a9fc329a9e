import Verif.ParamDist.Model

/-
C19: a parameter distribution enumerates the Cartesian product. C47: distribution ranges.
-/
namespace Verif.ParamDist
open Verif.Common

/-- Specification: all ways to pick one element of each list, the last one varying fastest. -/
def picks {α : Type} : List (List α) → List (List α)
  | [] => [[]]
  | s :: r => s.flatMap (fun a => (picks r).map (a :: ·))

/-- Specification: the number of permutations. -/
def total {α : Type} : List (List α) → Nat
  | [] => 1
  | s :: r => s.length * total r

theorem picks_length {α : Type} (l : List (List α)) : (picks l).length = total l := by
  induction l with
  | nil => rfl
  | cons s r ih =>
    simp only [picks, total, List.length_flatMap, List.length_map, ih]
    rw [List.map_const', List.sum_replicate_nat]

theorem flatMap_get {α β : Type} (f : α → List β) (m : Nat) : ∀ (s : List α) (_ : ∀ a ∈ s, (f a).length = m) (i : Nat),
    (s.flatMap f)[i]? = if m = 0 then none else (s[i / m]?).bind (fun a => (f a)[i % m]?)
  | [], _, i => by simp
  | a :: s, h, i => by
    have ha : (f a).length = m := h a (by simp)
    have ih := flatMap_get f m s (fun b hb => h b (by simp [hb]))
    rw [List.flatMap_cons]
    by_cases hm : m = 0
    · subst hm
      have := List.length_eq_zero_iff.1 ha
      rw [this, List.nil_append, ih i]; simp
    · rw [if_neg hm]
      have hmp : 0 < m := Nat.pos_of_ne_zero hm
      by_cases hi : i < m
      · rw [List.getElem?_append_left (by omega), Nat.div_eq_of_lt hi, Nat.mod_eq_of_lt hi]
        rfl
      · have hle : m ≤ i := by omega
        rw [List.getElem?_append_right (by omega), ih, if_neg hm, ha]
        have e1 : i / m = (i - m) / m + 1 := by
          rw [Nat.div_eq_sub_div hmp hle]
        have e2 : i % m = (i - m) % m := by
          rw [Nat.mod_eq_sub_mod hle]
        rw [e1, e2]
        rfl

/-- The pick with a given number. -/
theorem picks_get_cons {α : Type} (s : List α) (r : List (List α)) (i : Nat) :
    (picks (s :: r))[i]? = if total r = 0 then none
      else (s[i / total r]?).bind (fun a => ((picks r)[i % total r]?).map (a :: ·)) := by
  simp only [picks]
  rw [flatMap_get _ (total r) s (by intro a _; rw [List.length_map, picks_length]) i]
  split
  · rfl
  · congr 1
    funext a
    rw [List.getElem?_map]

theorem total_append {α : Type} (a b : List (List α)) : total (a ++ b) = total a * total b := by
  induction a with
  | nil => simp [total]
  | cons s a ih => simp [total, ih, Nat.mul_assoc]

/-- The pick with a given number, taking the digits from the last set on. -/
theorem picks_get_snoc {α : Type} (l : List (List α)) (s : List α) (i : Nat) :
    (picks (l ++ [s]))[i]? = if s.length = 0 then none
      else ((picks l)[i / s.length]?).bind (fun p => (s[i % s.length]?).map (fun a => p ++ [a])) := by
  induction l generalizing i with
  | nil =>
    rw [List.nil_append, picks_get_cons]
    simp only [total, picks, Nat.div_one]
    by_cases h0 : s.length = 0
    · rw [List.length_eq_zero_iff.1 h0]; simp
    · simp only [h0, if_false, Nat.mod_one]
      by_cases hi : i < s.length
      · rw [Nat.div_eq_of_lt hi, Nat.mod_eq_of_lt hi]
        cases s[i]? <;> simp
      · have : 0 < i / s.length := Nat.div_pos (by omega) (by omega)
        have e : ([[]] : List (List α))[i / s.length]? = none := List.getElem?_eq_none (by simp; omega)
        rw [e, List.getElem?_eq_none (by omega)]
        rfl
  | cons t l ih =>
    rw [List.cons_append, picks_get_cons, picks_get_cons, total_append]
    simp only [total, Nat.mul_one]
    by_cases h0 : s.length = 0
    · simp [h0]
    · by_cases hl : total l = 0
      · simp [hl, h0]
      · simp only [h0, hl, if_false]
        rw [if_neg (Nat.mul_ne_zero hl h0), Nat.div_div_eq_div_mul, Nat.mul_comm s.length]
        rw [Option.bind_assoc]
        congr 1
        funext a
        rw [ih, if_neg h0]
        rw [Nat.mod_mul_left_div_self, Nat.mod_mul_left_mod]
        cases (picks l)[i / s.length % total l]? with
        | none => rfl
        | some p => cases s[i % s.length]? <;> rfl

/-! ### The code computes the picks -/

theorem numLoop_spec (l : List (List Choice)) (n acc : Nat) (p : List Choice) (hp : (picks l)[n]? = some p)
    (hsz : acc + p.flatten.length < 4294967296) : numLoop l.reverse n acc = some (acc + p.flatten.length) := by
  obtain ⟨k, hk⟩ : ∃ k, l.length = k := ⟨_, rfl⟩
  induction k generalizing l n acc p with
  | zero =>
    have := List.length_eq_zero_iff.1 hk
    subst this
    have : n = 0 := by
      have := (List.getElem?_eq_some_iff.1 hp).1; simpa [picks] using this
    subst this
    simp [picks] at hp
    subst hp
    simp [numLoop]
  | succ k ih =>
    have hne : l ≠ [] := by intro h; simp [h] at hk
    obtain ⟨l', s, rfl⟩ : ∃ l' s, l = l' ++ [s] := ⟨l.dropLast, l.getLast hne, (List.dropLast_concat_getLast hne).symm⟩
    rw [picks_get_snoc] at hp
    split at hp
    · simp at hp
    · next h0 =>
      simp only [Option.bind_eq_some_iff, Option.map_eq_some_iff] at hp
      obtain ⟨p', hp', c, hc, rfl⟩ := hp
      rw [List.reverse_append]
      simp only [List.reverse_cons, List.reverse_nil, List.nil_append, List.cons_append, numLoop, h0, if_false, hc]
      simp only [List.flatten_append, List.length_append, List.flatten_cons, List.flatten_nil, List.append_nil] at hsz ⊢
      have hu : u32 (acc + c.length) = acc + c.length := Nat.mod_eq_of_lt (by omega)
      rw [hu, ih l' (n / s.length) (acc + c.length) p' hp' (by omega) (by simp at hk; exact hk)]
      simp; omega

theorem entryLoop_spec (l : List (List Choice)) (n acc p_idx : Nat) (p : List Choice) (hp : (picks l)[n]? = some p)
    (hsz : acc + p.flatten.length < 4294967296) (hlo : acc ≤ p_idx) (hhi : p_idx < acc + p.flatten.length) :
    entryLoop p_idx l.reverse n acc = p.flatten[acc + p.flatten.length - p_idx - 1]? := by
  obtain ⟨k, hk⟩ : ∃ k, l.length = k := ⟨_, rfl⟩
  induction k generalizing l n acc p with
  | zero =>
    have := List.length_eq_zero_iff.1 hk
    subst this
    have : n = 0 := by
      have := (List.getElem?_eq_some_iff.1 hp).1; simpa [picks] using this
    subst this
    simp [picks] at hp
    subst hp
    simp at hhi
    omega
  | succ k ih =>
    have hne : l ≠ [] := by intro h; simp [h] at hk
    obtain ⟨l', s, rfl⟩ : ∃ l' s, l = l' ++ [s] := ⟨l.dropLast, l.getLast hne, (List.dropLast_concat_getLast hne).symm⟩
    rw [picks_get_snoc] at hp
    split at hp
    · simp at hp
    · next h0 =>
      simp only [Option.bind_eq_some_iff, Option.map_eq_some_iff] at hp
      obtain ⟨p', hp', c, hc, rfl⟩ := hp
      rw [List.reverse_append]
      simp only [List.reverse_cons, List.reverse_nil, List.nil_append, List.cons_append, entryLoop, h0, if_false, hc]
      simp only [List.flatten_append, List.length_append, List.flatten_cons, List.flatten_nil, List.append_nil] at hsz hhi ⊢
      have hu : u32 (acc + c.length) = acc + c.length := Nat.mod_eq_of_lt (by omega)
      rw [hu]
      by_cases hin : p_idx < acc + c.length
      · rw [if_pos hin, List.getElem?_append_right (by omega)]
        congr 1
        omega
      · rw [if_neg hin, ih l' (n / s.length) (acc + c.length) p' hp' (by omega) (by omega) (by omega)
          (by simp at hk; exact hk)]
        rw [List.getElem?_append_left (by omega)]
        congr 1
        omega

/-- **C19**: the number of permutations is the product of the set sizes. -/
theorem numPermutations_product (d : Dist) (hne : d.param_list ≠ []) (hfit : total d.param_list < 4294967296) :
    d.getNumPermutations = total d.param_list := by
  unfold Dist.getNumPermutations
  rw [if_neg (fun h => hne (List.length_eq_zero_iff.1 h))]
  have aux : ∀ (l : List (List Choice)) (n : Nat), n < 4294967296 → (n * total l < 4294967296 ∨ total l = 0) →
      l.foldl (fun n s => u32 (n * s.length)) n = u32 (n * total l) := by
    intro l
    induction l with
    | nil => intro n h _; simp [total, u32, Nat.mod_eq_of_lt h]
    | cons s l ih =>
      intro n h _
      simp only [List.foldl_cons, total]
      have key : ∀ l : List (List Choice), ∀ n, l.foldl (fun n s => u32 (n * s.length)) (u32 n) = u32 (n * total l) := by
        intro l
        induction l with
        | nil => intro n; simp [total, u32]
        | cons s l ih =>
          intro n
          simp only [List.foldl_cons, total]
          have : u32 (u32 n * s.length) = u32 (n * s.length) := by simp [u32, Nat.mod_mul_mod]
          rw [this, ih, Nat.mul_assoc]
      rw [key, Nat.mul_assoc]
  rw [aux _ 1 (by omega) (Or.inl (by omega))]
  simp [u32, Nat.mod_eq_of_lt hfit]

theorem toInt_small {n : Nat} (h : n < 2147483648) : toInt n = n := if_pos h

/-- **C19**: with permutation `k` selected, the entries that can be read are those of the `k`-th pick, in the order of
declaration. -/
theorem entries_are_pick (d : Dist) (k : Nat) (p : List Choice) (hne : d.param_list ≠ []) (hidx : d.index = k)
    (hfit : total d.param_list < 2147483648) (hp : (picks d.param_list)[k]? = some p)
    (hsz : p.flatten.length < 4294967296) :
    d.getNumParameters = some p.flatten.length ∧
    (∀ i, i < p.flatten.length → d.getParameterEntry i = p.flatten[i]?) ∧
    (∀ i, p.flatten.length ≤ i → d.getParameterEntry i = some ⟨"", ""⟩) := by
  have hk : k < total d.param_list := by
    rw [← picks_length]; exact (List.getElem?_eq_some_iff.1 hp).1
  have hnum : d.getNumParameters = some p.flatten.length := by
    unfold Dist.getNumParameters
    rw [if_neg (by omega), hidx, Int.toNat_natCast, numLoop_spec _ k 0 p hp (by omega)]
    simp
  have hperm := numPermutations_product d hne (by omega)
  refine ⟨hnum, ?_, ?_⟩
  · intro i hi
    unfold Dist.getParameterEntry
    rw [hnum]
    simp only [Option.bind_some]
    rw [if_neg (by omega), hperm, toInt_small hfit, if_neg (by omega), if_neg (by omega), hidx, Int.toNat_natCast,
      entryLoop_spec _ k 0 _ p hp (by omega) (by omega) (by omega)]
    congr 1
    omega
  · intro i hi
    unfold Dist.getParameterEntry
    rw [hnum]
    simp only [Option.bind_some]
    rw [if_pos hi]

/-- **C19**: before the first permutation there is nothing to read. -/
theorem entries_unselected (d : Dist) (h : d.index < 0) (i : Nat) :
    d.getNumParameters = some 0 ∧ d.getParameterEntry i = some ⟨"", ""⟩ := by
  have : d.getNumParameters = some 0 := if_pos h
  refine ⟨this, ?_⟩
  unfold Dist.getParameterEntry
  rw [this]
  simp

/-- Specification: a pick takes one element of each list. -/
def IsPick {α : Type} : List (List α) → List α → Prop
  | [], p => p = []
  | s :: r, p => ∃ a p', p = a :: p' ∧ a ∈ s ∧ IsPick r p'

/-- **C19**: every combination is one of the permutations and nothing else is. -/
theorem picks_complete {α : Type} (l : List (List α)) (p : List α) : p ∈ picks l ↔ IsPick l p := by
  induction l generalizing p with
  | nil => simp [picks, IsPick]
  | cons s r ih =>
    simp only [picks, IsPick, List.mem_flatMap, List.mem_map]
    constructor
    · rintro ⟨a, ha, p', hp', rfl⟩
      exact ⟨a, p', rfl, ha, (ih p').1 hp'⟩
    · rintro ⟨a, p', rfl, ha, hp'⟩
      exact ⟨a, ha, p', (ih p').2 hp', rfl⟩

theorem nodup_flatMap_cons {α : Type} (q : List (List α)) (hq : q.Nodup) : ∀ (s : List α), s.Nodup →
    (s.flatMap (fun a => q.map (a :: ·))).Nodup
  | [], _ => by simp
  | a :: s, hs => by
    rw [List.flatMap_cons, List.nodup_append]
    rw [List.nodup_cons] at hs
    refine ⟨?_, nodup_flatMap_cons q hq s hs.2, ?_⟩
    · unfold List.Nodup
      rw [List.pairwise_map]
      exact hq.imp (fun h e => h (List.cons.inj e).2)
    · intro x hx y hy e
      subst e
      rw [List.mem_map] at hx
      rw [List.mem_flatMap] at hy
      obtain ⟨p, _, rfl⟩ := hx
      obtain ⟨b, hb, hy⟩ := hy
      rw [List.mem_map] at hy
      obtain ⟨p', _, e⟩ := hy
      exact hs.1 ((List.cons.inj e).1 ▸ hb)

/-- **C19**: no combination appears twice, if no value is declared twice. -/
theorem picks_nodup {α : Type} (l : List (List α)) (h : ∀ s ∈ l, s.Nodup) : (picks l).Nodup := by
  induction l with
  | nil => simp [picks]
  | cons s r ih =>
    exact nodup_flatMap_cons _ (ih (fun t ht => h t (by simp [ht]))) s (h s (by simp))

/-! ### Stepping -/

theorem dec_wrap {n : Nat} (h : n < 2147483648) : toInt (u32 (n + 4294967295)) = (n : Int) - 1 := by
  unfold toInt u32
  by_cases h0 : n = 0
  · subst h0; rfl
  · have : (n + 4294967295) % 4294967296 = n - 1 := by omega
    rw [this, if_pos (by omega)]
    omega

/-- The number of permutations reported, in terms of the specification. -/
theorem numPermutations_all (d : Dist) (hfit : total d.param_list < 2147483648) :
    d.getNumPermutations = if d.param_list = [] then 0 else total d.param_list := by
  by_cases h : d.param_list = []
  · rw [if_pos h]; unfold Dist.getNumPermutations; rw [h]; rfl
  · rw [if_neg h]; exact numPermutations_product d h (by omega)

/-- **C19**: stepping advances to the next permutation, until the last. -/
theorem increment_next (d : Dist) (hfit : total d.param_list < 2147483648) (hlo : -1 ≤ d.index) :
    (d.index + 1 < d.getNumPermutations →
      d.incrementIndex = ({ d with index := d.index + 1, requested_index := -1 }, d.index + 1)) ∧
    (d.getNumPermutations ≤ d.index + 1 → d.incrementIndex = (d, -1)) := by
  have hlt : d.getNumPermutations < 2147483648 := by
    rw [numPermutations_all d hfit]; split <;> omega
  unfold Dist.incrementIndex
  rw [dec_wrap hlt]
  constructor
  · intro h; rw [if_neg (by omega)]
  · intro h; rw [if_pos (by omega)]

/-- `n` calls of `IncrementIndex`; the returned values. -/
def increments : Nat → Dist → Dist × List Int
  | 0, d => (d, [])
  | n + 1, d => let r := d.incrementIndex; let q := increments n r.1; (q.1, r.2 :: q.2)

theorem increments_from (d : Dist) (hfit : total d.param_list < 2147483648) (n k : Nat) (hk : d.index = (k : Int) - 1)
    (hn : k + n ≤ d.getNumPermutations) :
    (increments n d).2 = (List.range' k n).map Int.ofNat ∧ (increments n d).1.index = (k + n : Nat) - 1 ∧
    (increments n d).1.param_list = d.param_list := by
  induction n generalizing d k with
  | zero => exact ⟨rfl, by simpa [increments] using hk, rfl⟩
  | succ n ih =>
    have h := (increment_next d hfit (by omega)).1 (by omega)
    simp only [increments, h]
    have := ih { d with index := d.index + 1, requested_index := -1 } hfit (k + 1) (by simp; omega)
      (by show k + 1 + n ≤ d.getNumPermutations; omega)
    refine ⟨?_, ?_, this.2.2⟩
    · rw [this.1, List.range'_succ, List.map_cons]
      congr 1
      show d.index + 1 = (k : Int)
      omega
    · rw [this.2.1]; omega

/-- **C19**: stepping through a freshly loaded distribution returns each number once, in order, and then fails for ever. -/
theorem increments_visit_all (l : List (List Choice)) (hfit : total l < 2147483648) (m : Nat) :
    (increments (Dist.loaded l).getNumPermutations (Dist.loaded l)).2 =
      (List.range (Dist.loaded l).getNumPermutations).map Int.ofNat ∧
    (increments m (increments (Dist.loaded l).getNumPermutations (Dist.loaded l)).1).2 = List.replicate m (-1) := by
  obtain ⟨h1, h2, h3⟩ := increments_from (Dist.loaded l) hfit (Dist.loaded l).getNumPermutations 0 rfl (by omega)
  refine ⟨by rw [h1, List.range_eq_range'], ?_⟩
  generalize hd : (increments (Dist.loaded l).getNumPermutations (Dist.loaded l)).1 = d at *
  have hp : d.getNumPermutations = (Dist.loaded l).getNumPermutations := by
    unfold Dist.getNumPermutations; rw [h3]
  have hf : d.incrementIndex = (d, -1) :=
    (increment_next d (by rw [h3]; exact hfit) (by omega)).2 (by omega)
  clear hd h1
  induction m with
  | zero => rfl
  | succ m ih => simp only [increments, hf, List.replicate_succ, ih]

/-- **C19**: an index is accepted exactly if it is below the number of permutations. -/
theorem setIndex_accepts (d : Dist) (hfit : total d.param_list < 2147483648) (i : Nat) :
    (i < d.getNumPermutations → (d.setIndex i).2 = 0 ∧ (d.setIndex i).1.index = i ∧
      (d.setIndex i).1.param_list = d.param_list) ∧
    (d.getNumPermutations ≤ i → d.setIndex i = (d, -1)) := by
  have hlt : d.getNumPermutations < 2147483648 := by
    rw [numPermutations_all d hfit]; split <;> omega
  unfold Dist.setIndex
  constructor
  · intro h
    rw [if_neg (by omega)]
    exact ⟨rfl, toInt_small (by omega), rfl⟩
  · intro h; rw [if_pos h]

/-- Operations that select a permutation. -/
inductive Op where
  | set (i : Nat)
  | inc
  | request (i : Nat)

def Dist.apply (d : Dist) : Op → Dist
  | .set i => (d.setIndex i).1
  | .inc => d.incrementIndex.1
  | .request i => (d.setRequestedIndex i).1

/-- **C19**: whatever is called, reading the entries is never undefined behaviour. -/
theorem reading_safe (l : List (List Choice)) (hfit : total l < 2147483648)
    (hsz : ∀ p ∈ picks l, p.flatten.length < 4294967296) (ops : List Op) (i : Nat) :
    ((ops.foldl Dist.apply (Dist.loaded l)).getNumParameters).isSome ∧
    ((ops.foldl Dist.apply (Dist.loaded l)).getParameterEntry i).isSome := by
  have inv : ∀ (ops : List Op) (d : Dist), d.param_list = l → -1 ≤ d.index → (d.index = -1 ∨ d.index < d.getNumPermutations) →
      let e := ops.foldl Dist.apply d
      e.param_list = l ∧ (e.index = -1 ∨ (0 ≤ e.index ∧ e.index < e.getNumPermutations)) := by
    intro ops
    induction ops with
    | nil => intro d h1 h2 h3; exact ⟨h1, by simp only [List.foldl_nil]; omega⟩
    | cons o ops ih =>
      intro d h1 h2 h3
      simp only [List.foldl_cons]
      have hf : total d.param_list < 2147483648 := by rw [h1]; exact hfit
      cases o with
      | set j =>
        by_cases hj : j < d.getNumPermutations
        · have := (setIndex_accepts d hf j).1 hj
          have hp : (d.setIndex j).1.getNumPermutations = d.getNumPermutations := by
            unfold Dist.getNumPermutations; rw [this.2.2]
          exact ih _ (this.2.2.trans h1) (by show -1 ≤ (d.setIndex j).1.index; omega)
            (Or.inr (by show (d.setIndex j).1.index < ((d.setIndex j).1.getNumPermutations : Int); omega))
        · have := (setIndex_accepts d hf j).2 (by omega)
          have e : d.apply (.set j) = d := by show (d.setIndex j).1 = d; rw [this]
          rw [e]; exact ih d h1 h2 h3
      | inc =>
        by_cases hj : d.index + 1 < d.getNumPermutations
        · have := (increment_next d hf h2).1 hj
          have e : d.apply .inc = { d with index := d.index + 1, requested_index := -1 } := by
            show d.incrementIndex.1 = _; rw [this]
          rw [e]
          exact ih _ h1 (by simp; omega) (Or.inr hj)
        · have := (increment_next d hf h2).2 (by omega)
          have e : d.apply .inc = d := by show d.incrementIndex.1 = d; rw [this]
          rw [e]; exact ih d h1 h2 h3
      | request j =>
        have e : (d.apply (.request j)).param_list = d.param_list ∧ (d.apply (.request j)).index = d.index := by
          show (d.setRequestedIndex j).1.param_list = _ ∧ (d.setRequestedIndex j).1.index = _
          unfold Dist.setRequestedIndex
          split <;> exact ⟨rfl, rfl⟩
        have hp : (d.apply (.request j)).getNumPermutations = d.getNumPermutations := by
          unfold Dist.getNumPermutations; rw [e.1]
        exact ih _ (e.1.trans h1) (by omega) (by omega)
  have := inv ops (Dist.loaded l) rfl (by show (-1 : Int) ≤ -1; omega) (Or.inl rfl)
  generalize ops.foldl Dist.apply (Dist.loaded l) = e at this
  obtain ⟨h1, h2 | ⟨h2, h3⟩⟩ := this
  · have := entries_unselected e (by omega) i
    rw [this.1, this.2]; exact ⟨rfl, rfl⟩
  · have hf : total e.param_list < 2147483648 := by rw [h1]; exact hfit
    have hnp := numPermutations_all e hf
    have hne : e.param_list ≠ [] := by
      intro hn; rw [if_pos hn] at hnp; omega
    rw [if_neg hne] at hnp
    have hlt : e.index.toNat < (picks e.param_list).length := by rw [picks_length]; omega
    have hp : (picks e.param_list)[e.index.toNat]? = some (picks e.param_list)[e.index.toNat] :=
      List.getElem?_eq_getElem hlt
    have := entries_are_pick e e.index.toNat _ hne (by omega) hf hp
      (hsz _ (by rw [← h1]; exact List.getElem_mem hlt))
    rw [this.1]
    refine ⟨rfl, ?_⟩
    by_cases hi : i < ((picks e.param_list)[e.index.toNat]).flatten.length
    · rw [this.2.1 i hi, List.getElem?_eq_getElem hi]; rfl
    · rw [this.2.2 i (by omega)]; rfl

/-! A distribution with a value set of two parameters and a set of three values. -/

def dlist : List (List Choice) :=
  [[[⟨"a", "1"⟩, ⟨"b", "1"⟩], [⟨"a", "2"⟩, ⟨"b", "2"⟩]], [[⟨"c", "x"⟩], [⟨"c", "y"⟩], [⟨"c", "z"⟩]]]

example : total dlist = 6 := by decide
example : (picks dlist)[4]? = some [[⟨"a", "2"⟩, ⟨"b", "2"⟩], [⟨"c", "y"⟩]] := by decide
example : (increments 8 (Dist.loaded dlist)).2 = [0, 1, 2, 3, 4, 5, -1, -1] := by decide
example : ({ Dist.loaded dlist with index := 4 }).getParameterEntry 2 = some ⟨"c", "y"⟩ := by decide
example : ∀ p ∈ picks dlist, p.flatten.length < 4294967296 := by decide
example : ∀ s ∈ dlist, s.Nodup := by decide

/-- **C19 fails** for many parameters: 32 parameters with two values each are reported as no permutation at all, and
stepping fails at once. -/
theorem permutations_overflow_fails : ∃ l : List (List Choice), l ≠ [] ∧ (∀ s ∈ l, s.length = 2) ∧
    0 < total l ∧ (Dist.loaded l).getNumPermutations = 0 ∧ (Dist.loaded l).incrementIndex.2 = -1 := by
  refine ⟨List.replicate 32 [[⟨"a", "1"⟩], [⟨"a", "2"⟩]], by decide, by decide, by decide +kernel, by decide +kernel,
    by decide +kernel⟩

/-! ### C47: ranges -/

theorem rangeLoop_exact (upper step : Rat) (n : Nat) : ∀ v : Rat,
    (∀ i : Nat, i < n → v + (i : Rat) * step < upper + small) → ¬ v + (n : Rat) * step < upper + small →
    rangeLoop upper step (n + 1) v = some ((List.range n).map (fun i : Nat => v + (i : Rat) * step)) := by
  induction n with
  | zero =>
    intro v _ h
    have : ¬ v < upper + small := by
      intro hv; apply h; simpa using by grind
    simp [rangeLoop, this]
  | succ n ih =>
    intro v h1 h2
    have h0 : v < upper + small := by have := h1 0 (by omega); grind
    have e : ∀ i : Nat, v + ((i + 1 : Nat) : Rat) * step = v + step + (i : Rat) * step := by
      intro i; rw [Rat.natCast_add]; grind
    have := ih (v + step) (fun i hi => by have := h1 (i + 1) (by omega); rw [e] at this; exact this)
      (by rw [← e]; exact h2)
    rw [rangeLoop, if_pos h0, this]
    simp only [Option.map_some, List.range_succ_eq_map, List.map_cons, List.map_map]
    congr 2
    · grind
    · apply List.map_congr_left
      intro i _
      exact (e i).symm

theorem least_fail (P : Nat → Prop) [DecidablePred P] : ∀ N : Nat, ¬ P N → ∃ n, ¬ P n ∧ ∀ i, i < n → P i
  | 0, h => ⟨0, h, fun i hi => by omega⟩
  | N + 1, h => by
    by_cases hall : ∀ i, i < N + 1 → P i
    · exact ⟨N + 1, h, hall⟩
    · by_cases hN : P N
      · have : ∃ i, i < N ∧ ¬ P i := by
          apply Classical.byContradiction
          intro hno
          apply hall
          intro i hi
          by_cases e : i = N
          · subst e; exact hN
          · exact Classical.byContradiction fun hp => hno ⟨i, by omega, hp⟩
        obtain ⟨i, hi, hp⟩ := this
        have : ∀ m, m < N → ¬ P m → ∃ n, ¬ P n ∧ ∀ i, i < n → P i := by
          intro m
          induction m using Nat.strongRecOn with
          | ind m ihm =>
            intro hm hpm
            by_cases hall : ∀ i, i < m → P i
            · exact ⟨m, hpm, hall⟩
            · have : ∃ i, i < m ∧ ¬ P i := by
                apply Classical.byContradiction
                intro hno
                exact hall fun i hi => Classical.byContradiction fun hp => hno ⟨i, hi, hp⟩
              obtain ⟨i, hi, hp⟩ := this
              exact ihm i hi (by omega) hp
        exact this i hi hp
      · exact least_fail P N hN

/-- **C47**: with a positive step the loop ends, and the values are `lower`, `lower + step`, ... up to the upper limit
(within the tolerance), none missing. -/
theorem range_values (lower upper step : Rat) (hs : 0 < step) : ∃ fuel n : Nat,
    rangeLoop upper step fuel lower = some ((List.range n).map (fun i : Nat => lower + (i : Rat) * step)) ∧
    (∀ i : Nat, i < n ↔ lower + (i : Rat) * step < upper + small) := by
  let N := ((upper + small - lower) / step).ceil.toNat
  have hN : ¬ lower + (N : Rat) * step < upper + small := by
    have h1 : (upper + small - lower) / step ≤ (((upper + small - lower) / step).ceil : Rat) := Rat.le_ceil
    have h2 : ((((upper + small - lower) / step).ceil : Int) : Rat) ≤ ((N : Int) : Rat) :=
      Rat.intCast_le_intCast.2 (Int.self_le_toNat _)
    have h3 : (upper + small - lower) / step ≤ (N : Rat) := by
      have : ((N : Int) : Rat) = (N : Rat) := Rat.intCast_natCast N
      grind
    have h4 : (upper + small - lower) / step * step ≤ (N : Rat) * step :=
      Rat.mul_le_mul_of_nonneg_right h3 (by grind)
    rw [Rat.div_mul_cancel (by grind)] at h4
    grind
  obtain ⟨n, h1, h2⟩ := least_fail (fun n : Nat => lower + (n : Rat) * step < upper + small) N hN
  refine ⟨n + 1, n, rangeLoop_exact upper step n lower h2 h1, fun i => ⟨h2 i, fun hi => ?_⟩⟩
  apply Classical.byContradiction
  intro hge
  apply h1
  have : (n : Rat) ≤ (i : Rat) := Rat.natCast_le_natCast.2 (by omega)
  have := Rat.mul_le_mul_of_nonneg_right this (c := step) (by grind)
  grind

/-- **C47**: no value is beyond the upper limit by the tolerance or more, and the lower limit itself is included. -/
theorem range_bounds (lower upper step : Rat) (hs : 0 < step) (hle : lower ≤ upper) :
    ∃ (fuel : Nat) (vs : List Rat), rangeLoop upper step fuel lower = some vs ∧ vs.head? = some lower ∧
      ∀ v ∈ vs, lower ≤ v ∧ v < upper + small := by
  obtain ⟨fuel, n, h1, h2⟩ := range_values lower upper step hs
  refine ⟨fuel, _, h1, ?_, ?_⟩
  · have : 0 < n := (h2 0).2 (by have : (0 : Rat) < small := by decide +kernel
                                 grind)
    obtain ⟨m, rfl⟩ : ∃ m, n = m + 1 := ⟨n - 1, by omega⟩
    rw [List.range_succ_eq_map]
    simp only [List.map_cons, List.head?_cons, Option.some.injEq]
    grind
  · intro v hv
    obtain ⟨i, hi, rfl⟩ := List.mem_map.1 hv
    refine ⟨?_, (h2 i).1 (List.mem_range.1 hi)⟩
    have : (0 : Rat) ≤ (i : Rat) := Rat.natCast_nonneg
    have := Rat.mul_nonneg this (Rat.le_of_lt hs)
    grind

/-- **C47 fails** for a step that is zero or negative (also for a missing or unreadable `stepWidth`, which reads as zero):
the loop never ends, for every accepted range. -/
theorem range_nonpositive_step_fails (lower upper step : Rat) (hs : step ≤ 0) (hle : lower ≤ upper) (fuel : Nat) :
    rangeLoop upper step fuel lower = none := by
  induction fuel generalizing lower with
  | zero => rfl
  | succ n ih =>
    have : (0 : Rat) < small := by decide +kernel
    rw [rangeLoop, if_pos (by grind), ih (lower + step) (by grind)]
    rfl

example : rangeLoop 2 (1/2) 6 0 = some [0, 1/2, 1, 3/2, 2] := by decide +kernel

end Verif.ParamDist
