import Verif.Rm.Model
/-
Identifiers of roads: unique, numbers kept, found again by text and back.
-/
namespace Verif.Rm

/-- All identifiers are below a limit. -/
def Below (l : List (Nat × List Char)) (n : Nat) : Prop := ∀ p ∈ l, p.1 < n

/-- Different entries, different identifiers. -/
def Unique (l : List (Nat × List Char)) : Prop := (l.map (·.1)).Nodup

/-- Replacing an identifier that is not there changes nothing. -/
theorem bump_none {c : Nat} : ∀ {l : List (Nat × List Char)} {n : Nat}, (∀ p ∈ l, p.1 ≠ c) → bump c n l = (l, n)
  | [], _, _ => rfl
  | p :: l, n, h => by
    have h1 := h p (by simp)
    rw [bump, if_neg h1, bump_none (fun q hq => h q (by simp [hq]))]

/-- Replacing a unique identifier: the others stay, this one gets the new one. -/
theorem bump_spec {c : Nat} : ∀ {l : List (Nat × List Char)} {n : Nat}, Unique l → n ≠ idUndefined → c ≠ n →
    (bump c n l).1 = l.map (fun p => if p.1 = c then (n, p.2) else p) ∧ ((bump c n l).2 = n ∧ (∀ p ∈ l, p.1 ≠ c) ∨
      (bump c n l).2 = n + 1 ∧ ∃ p ∈ l, p.1 = c)
  | [], n, _, _, _ => by simp [bump]
  | p :: l, n, hu, hn, hc => by
    have hu2 := List.nodup_cons.1 hu
    by_cases h : p.1 = c
    · have hno : ∀ q ∈ l, q.1 ≠ c := by
        intro q hq e
        exact hu2.1 (List.mem_map.2 ⟨q, hq, by show q.1 = p.1; rw [e, h]⟩)
      rw [bump, if_pos h, bump_none hno]
      refine ⟨?_, Or.inr ⟨by simp [idSucc, hn], p, by simp, h⟩⟩
      simp only [List.map_cons, if_pos h]
      congr 1
      symm
      calc l.map (fun p => if p.1 = c then (n, p.2) else p) = l.map id := List.map_congr_left (fun q hq => by simp [hno q hq])
        _ = l := by simp
    · obtain ⟨h1, h2⟩ := bump_spec (l := l) hu2.2 hn hc
      rw [bump, if_neg h]
      refine ⟨by simp [h, h1], ?_⟩
      rcases h2 with ⟨e, f⟩ | ⟨e, q, hq, f⟩
      · exact Or.inl ⟨e, fun q hq => by
          rcases List.mem_cons.1 hq with rfl | hq
          · exact h
          · exact f q hq⟩
      · exact Or.inr ⟨e, q, by simp [hq], f⟩

/-- What holds between the rounds: `done` are the texts so far. -/
structure Inv (done : List (List Char)) (st : List (Nat × List Char) × Nat) (B : Nat) : Prop where
  below : Below st.1 st.2
  unique : Unique st.1
  names : st.1.map (·.2) = done
  bound : st.2 ≤ B + done.length
  kept : ∀ (i : Nat) (s : List Char) (c : Nat), done[i]? = some s → numeric s = some c →
    (∀ (j : Nat) (s' : List Char), i < j → done[j]? = some s' → numeric s' ≠ some c) → (st.1[i]?).map (·.1) = some c

theorem nodup_append_one {l : List Nat} {a : Nat} (h : l.Nodup) (ha : a ∉ l) : (l ++ [a]).Nodup := by
  rw [List.nodup_append]
  refine ⟨h, by simp, ?_⟩
  intro x hx y hy e
  rw [List.mem_singleton] at hy
  subst hy
  subst e
  exact ha hx

/-- One round keeps it. -/
theorem idStep_inv {done : List (List Char)} {st : List (Nat × List Char) × Nat} {B : Nat} (h : Inv done st B) {s : List Char}
    (hs : ∀ c, numeric s = some c → c < B) (hB : B + done.length < idMax) :
    ∃ st', idStep st s = some st' ∧ Inv (done ++ [s]) st' B := by
  have hlen : st.1.length = done.length := by rw [← h.names, List.length_map]
  have hn : st.2 ≠ idUndefined := by
    have := h.bound
    unfold idMax at hB
    unfold idUndefined
    omega
  cases hnum : numeric s with
  | some c =>
    have hc : c < B := hs c hnum
    have hcm : ¬ idMax < c := by omega
    -- the earlier identifiers after the replacement
    by_cases hcn : c = st.2 ∨ (∀ p ∈ st.1, p.1 ≠ c)
    · have hno : ∀ p ∈ st.1, p.1 ≠ c := by
        rcases hcn with e | e
        · intro p hp
          have := h.below p hp
          omega
        · exact e
      refine ⟨(st.1 ++ [(c, s)], if st.2 ≤ c then idSucc c else st.2), ?_, ?_⟩
      · simp only [idStep, hnum, bump_none hno, if_neg hcm]
      · have hsucc : idSucc c = c + 1 := by
          unfold idSucc
          rw [if_neg]
          unfold idMax at hB
          unfold idUndefined
          omega
        refine ⟨?_, ?_, ?_, ?_, ?_⟩
        · intro p hp
          simp only [List.mem_append, List.mem_singleton] at hp
          simp only
          rcases hp with hp | rfl
          · have := h.below p hp
            split <;> omega
          · simp only
            split <;> omega
        · unfold Unique
          simp only [List.map_append, List.map_cons, List.map_nil]
          apply nodup_append_one h.unique
          intro hm
          obtain ⟨p, hp, e⟩ := List.mem_map.1 hm
          exact hno p hp e
        · simp [h.names]
        · simp only [List.length_append, List.length_cons, List.length_nil]
          have := h.bound
          split <;> omega
        · intro i t d hi ht hl
          by_cases hid : i < done.length
          · rw [List.getElem?_append_left hid] at hi
            have := h.kept i t d hi ht (fun j s' hj hs' => hl j s' hj (by
              have hjl : j < done.length := (List.getElem?_eq_some_iff.1 hs').1
              rw [List.getElem?_append_left hjl]
              exact hs'))
            simp only
            rw [List.getElem?_append_left (by omega)]
            exact this
          · have hil : i = done.length := by
              have := (List.getElem?_eq_some_iff.1 hi).1
              simp only [List.length_append, List.length_cons, List.length_nil] at this
              omega
            subst hil
            simp only [List.getElem?_concat_length, Option.some.injEq] at hi
            subst hi
            rw [hnum] at ht
            cases ht
            simp only
            rw [← hlen]
            simp
    · have hcn' : c ≠ st.2 := fun e => hcn (Or.inl e)
      obtain ⟨b1, b2⟩ := bump_spec (c := c) h.unique hn hcn'
      rcases b2 with ⟨_, e⟩ | ⟨e, p, hp, hpc⟩
      · exact absurd (Or.inr e) hcn
      · have hlt : c < st.2 := by
          have := h.below p hp
          omega
        refine ⟨((bump c st.2 st.1).1 ++ [(c, s)], (bump c st.2 st.1).2), ?_, ?_⟩
        · simp only [idStep, hnum, if_neg hcm]
          rw [if_neg (by omega)]
        · rw [b1, e]
          refine ⟨?_, ?_, ?_, ?_, ?_⟩
          · intro q hq
            simp only [List.mem_append, List.mem_singleton, List.mem_map] at hq
            simp only
            rcases hq with ⟨r, hr, rfl⟩ | rfl
            · have := h.below r hr
              split
              · simp only; omega
              · omega
            · simp only; omega
          · unfold Unique
            simp only [List.map_append, List.map_cons, List.map_nil, List.map_map]
            apply nodup_append_one
            · -- replacing one by a number above all keeps them different
              have hinj : ∀ x ∈ st.1, ∀ y ∈ st.1, ((fun p : Nat × List Char => p.1) ∘ fun p => if p.1 = c then (st.2, p.2) else p) x =
                  ((fun p : Nat × List Char => p.1) ∘ fun p => if p.1 = c then (st.2, p.2) else p) y → x.1 = y.1 := by
                intro x hx y hy
                have h1 := h.below x hx
                have h2 := h.below y hy
                simp only [Function.comp]
                split <;> split <;> (try simp only) <;> omega
              have hu := h.unique
              unfold Unique at hu
              rw [List.Nodup, List.pairwise_map] at hu ⊢
              exact hu.imp_of_mem (fun ha hb hne e => hne (hinj _ ha _ hb e))
            · intro hm
              obtain ⟨q, hq, e⟩ := List.mem_map.1 hm
              simp only [Function.comp] at e
              split at e
              · exact hcn' e.symm
              · rename_i hne; exact hne e
          · simp only [List.map_append, List.map_map, List.map_cons, List.map_nil]
            rw [← h.names]
            congr 1
            apply List.map_congr_left
            intro q _
            simp only [Function.comp]
            split <;> rfl
          · simp only [List.length_append, List.length_cons, List.length_nil]
            have := h.bound
            omega
          · intro i t d hi ht hl
            by_cases hid : i < done.length
            · have hdc : d ≠ c := by
                intro e
                exact hl done.length s hid (by simp) (by rw [hnum, e])
              rw [List.getElem?_append_left hid] at hi
              have := h.kept i t d hi ht (fun j s' hj hs' => hl j s' hj (by
                have hjl : j < done.length := (List.getElem?_eq_some_iff.1 hs').1
                rw [List.getElem?_append_left hjl]
                exact hs'))
              simp only
              rw [List.getElem?_append_left (by simp; omega), List.getElem?_map]
              cases hg : st.1[i]? with
              | none => rw [hg] at this; simp at this
              | some r =>
                rw [hg] at this
                simp only [Option.map_some, Option.some.injEq] at this ⊢
                rw [if_neg (by omega)]
                exact this
            · have hil : i = done.length := by
                have := (List.getElem?_eq_some_iff.1 hi).1
                simp only [List.length_append, List.length_cons, List.length_nil] at this
                omega
              subst hil
              simp only [List.getElem?_concat_length, Option.some.injEq] at hi
              subst hi
              rw [hnum] at ht
              cases ht
              simp only
              rw [List.getElem?_append_right (by simp; omega)]
              simp [hlen]
  | none =>
    have hb := h.bound
    have hcm : ¬ idMax < st.2 := by omega
    refine ⟨(st.1 ++ [(st.2, s)], st.2 + 1), ?_, ?_⟩
    · simp only [idStep, hnum, if_neg hcm]
      simp [idSucc, hn]
    · refine ⟨?_, ?_, ?_, ?_, ?_⟩
      · intro p hp
        simp only [List.mem_append, List.mem_singleton] at hp
        simp only
        rcases hp with hp | rfl
        · have := h.below p hp
          omega
        · simp only; omega
      · unfold Unique
        simp only [List.map_append, List.map_cons, List.map_nil]
        apply nodup_append_one h.unique
        intro hm
        obtain ⟨p, hp, e⟩ := List.mem_map.1 hm
        have := h.below p hp
        omega
      · simp [h.names]
      · simp only [List.length_append, List.length_cons, List.length_nil]
        omega
      · intro i t d hi ht hl
        by_cases hid : i < done.length
        · rw [List.getElem?_append_left hid] at hi
          have := h.kept i t d hi ht (fun j s' hj hs' => hl j s' hj (by
            have hjl : j < done.length := (List.getElem?_eq_some_iff.1 hs').1
            rw [List.getElem?_append_left hjl]
            exact hs'))
          simp only
          rw [List.getElem?_append_left (by omega)]
          exact this
        · have hil : i = done.length := by
            have := (List.getElem?_eq_some_iff.1 hi).1
            simp only [List.length_append, List.length_cons, List.length_nil] at this
            omega
          subst hil
          simp only [List.getElem?_concat_length, Option.some.injEq] at hi
          subst hi
          rw [hnum] at ht
          cases ht

/-- All rounds keep it. -/
theorem idRun_inv {B : Nat} : ∀ (l done : List (List Char)) (st : List (Nat × List Char) × Nat), Inv done st B →
    (∀ s ∈ l, ∀ c, numeric s = some c → c < B) → B + (done ++ l).length < idMax → ∃ st', idRun l st = some st' ∧ Inv (done ++ l) st' B
  | [], done, st, h, _, _ => ⟨st, rfl, by simpa using h⟩
  | s :: l, done, st, h, hs, hB => by
    obtain ⟨st1, e1, h1⟩ := idStep_inv h (hs s (by simp)) (by simp at hB; omega)
    obtain ⟨st2, e2, h2⟩ := idRun_inv l (done ++ [s]) st1 h1 (fun t ht => hs t (by simp [ht])) (by simpa using hB)
    exact ⟨st2, by simp [idRun, e1, e2], by simpa using h2⟩

/-- **Every road gets an identifier of its own**, in the order of the file; a number as identifier is kept, unless a later road has the same number. For
numbers and counts that stay below the largest identifier. -/
theorem ids_unique_partial {B : Nat} (l : List (List Char)) (hs : ∀ s ∈ l, ∀ c, numeric s = some c → c < B) (hB : B + l.length < idMax) :
    ∃ ids, establish l = some ids ∧ Unique ids ∧ ids.map (·.2) = l ∧ (∀ p ∈ ids, p.1 < idMax) ∧
    ∀ (i : Nat) (s : List Char) (c : Nat), l[i]? = some s → numeric s = some c →
      (∀ (j : Nat) (s' : List Char), i < j → l[j]? = some s' → numeric s' ≠ some c) → (ids[i]?).map (·.1) = some c := by
  have h0 : Inv [] (([], 0) : List (Nat × List Char) × Nat) B :=
    ⟨fun p hp => by simp at hp, by simp [Unique], rfl, by simp, fun i s c hi => by simp at hi⟩
  obtain ⟨st, e, h⟩ := idRun_inv l [] _ h0 hs (by simpa using hB)
  simp only [List.nil_append] at h
  refine ⟨st.1, by simp [establish, e], h.unique, h.names, ?_, h.kept⟩
  intro p hp
  have := h.below p hp
  have := h.bound
  omega

/-- **At the upper end a road gets the identifier reserved for `undefined`**: two roads with the largest number. -/
theorem ids_wrap_fails : (establish [['4','2','9','4','9','6','7','2','9','4'], ['4','2','9','4','9','6','7','2','9','4']]).map (·.map (·.1)) =
    some [idUndefined, idMax] := by decide +kernel

/-- Found by identifier. -/
theorem find_id : ∀ {l : List (Nat × List Char)} {r : Nat × List Char}, Unique l → r ∈ l → l.find? (·.1 == r.1) = some r
  | p :: l, r, hu, hr => by
    have hu2 := List.nodup_cons.1 hu
    rcases List.mem_cons.1 hr with rfl | hr
    · simp
    · have : p.1 ≠ r.1 := fun e => hu2.1 (List.mem_map.2 ⟨r, hr, e.symm⟩)
      rw [List.find?_cons_of_neg (by simpa using this)]
      exact find_id hu2.2 hr

/-- Found by text. -/
theorem find_str : ∀ {l : List (Nat × List Char)} {r : Nat × List Char}, (l.map (·.2)).Nodup → r ∈ l → l.find? (·.2 == r.2) = some r
  | p :: l, r, hu, hr => by
    have hu2 := List.nodup_cons.1 hu
    rcases List.mem_cons.1 hr with rfl | hr
    · simp
    · have : p.2 ≠ r.2 := fun e => hu2.1 (List.mem_map.2 ⟨r, hr, e.symm⟩)
      rw [List.find?_cons_of_neg (by simpa using this)]
      exact find_str hu2.2 hr

/-- **Text and identifier of a road lead to each other**, for a file whose roads have different texts, within the limits of the identifiers. -/
theorem ids_round_trip {B : Nat} {l : List (List Char)} (hd : l.Nodup) (hs : ∀ s ∈ l, ∀ c, numeric s = some c → c < B) (hB : B + l.length < idMax) :
    ∃ ids, establish l = some ids ∧ (∀ s ∈ l, idString ids (idFromString ids s) = s ∧ idFromString ids s ≠ idUndefined) ∧
    (∀ p ∈ ids, idFromString ids (idString ids p.1) = p.1) ∧ (∀ s, s ∉ l → idFromString ids s = idUndefined) := by
  obtain ⟨ids, e, hu, hn, hlt, _⟩ := ids_unique_partial l hs hB
  refine ⟨ids, e, ?_, ?_, ?_⟩
  · intro s hs'
    rw [← hn] at hs'
    obtain ⟨p, hp, rfl⟩ := List.mem_map.1 hs'
    have h1 := find_str (by rw [hn]; exact hd) hp
    have h2 := find_id hu hp
    simp only [idFromString, h1, idString, h2, true_and]
    have := hlt p hp
    unfold idMax at this
    unfold idUndefined
    omega
  · intro p hp
    have h1 := find_str (by rw [hn]; exact hd) hp
    have h2 := find_id hu hp
    simp only [idString, h2, idFromString, h1]
  · intro s hs'
    have : ids.find? (·.2 == s) = none := by
      rw [List.find?_eq_none]
      intro p hp
      simp only [beq_iff_eq]
      intro e
      apply hs'
      rw [← hn, ← e]
      exact List.mem_map.2 ⟨p, hp, rfl⟩
    simp [idFromString, this]

/-- Largest of a list. -/
theorem foldl_max : ∀ (l : List (Nat × List Char)) (m : Nat), m ≤ l.foldl (fun m r => max m r.1) m ∧ ∀ p ∈ l, p.1 ≤ l.foldl (fun m r => max m r.1) m
  | [], m => ⟨by simp, fun p hp => by simp at hp⟩
  | r :: l, m => by
    obtain ⟨h1, h2⟩ := foldl_max l (max m r.1)
    simp only [List.foldl_cons]
    refine ⟨by omega, fun p hp => ?_⟩
    rcases List.mem_cons.1 hp with rfl | hp
    · omega
    · exact h2 p hp

theorem foldl_max_lt {n : Nat} : ∀ (l : List (Nat × List Char)) (m : Nat), m < n → (∀ p ∈ l, p.1 < n) → l.foldl (fun m r => max m r.1) m < n
  | [], m, hm, _ => hm
  | r :: l, m, hm, h => by
    have := h r (by simp)
    exact foldl_max_lt l (max m r.1) (by omega) (fun p hp => h p (by simp [hp]))

/-- **A generated identifier is new** and can be used. -/
theorem generate_new {roads : List (Nat × List Char)} (h : ∀ p ∈ roads, p.1 < idMax) : generateId roads ≤ idMax ∧ ∀ p ∈ roads, p.1 ≠ generateId roads := by
  have h1 : maxId roads < idMax := foldl_max_lt roads 0 (by decide) h
  have h2 := (foldl_max roads 0).2
  have e : generateId roads = maxId roads + 1 := by
    unfold generateId idSucc
    rw [if_neg]
    unfold idMax at h1
    unfold idUndefined
    omega
  rw [e]
  refine ⟨by omega, fun p hp => ?_⟩
  have := h2 p hp
  unfold maxId
  omega

/-- **Decimal numbers are recognised**: the decimal text of an allowed number is read as that number. -/
theorem numeric_decimal {n : Nat} (h : n ≤ idMax) : numeric (Nat.toDigits 10 n) = some n := by
  have hv : value (Nat.toDigits 10 n) = n := by
    have := Nat.ofDigitChars_ten_toDigits (n := n)
    rw [Nat.ofDigitChars_eq_foldl] at this
    simpa [value] using this
  have hd : (Nat.toDigits 10 n).all Char.isDigit = true := List.all_eq_true.2 (fun c hc => Nat.isDigit_of_mem_toDigits (by decide) (by decide) hc)
  have hl : (Nat.toDigits 10 n).length ≤ 10 := (Nat.length_toDigits_le_iff (by decide) (by decide)).2 (by unfold idMax at h; omega)
  have hn : (Nat.toDigits 10 n).isEmpty = false := by
    cases e : Nat.toDigits 10 n with
    | nil => exact absurd e Nat.toDigits_ne_nil
    | cons => rfl
  simp [numeric, isNumber, hv, hd, hl, hn, h]

/-- **Other texts are not**: a text with another character than a digit, or none at all, is not a number. -/
theorem numeric_other {s : List Char} (h : s = [] ∨ ∃ c ∈ s, c.isDigit = false) : numeric s = none := by
  rcases h with rfl | ⟨c, hc, hd⟩
  · rfl
  · have : s.all Char.isDigit = false := List.all_eq_false.2 ⟨c, hc, by simp [hd]⟩
    simp [numeric, isNumber, this]

example : establish [['a'], ['0'], ['7'], ['b']] = some [(1, ['a']), (0, ['0']), (7, ['7']), (8, ['b'])] := by decide +kernel

end Verif.Rm
