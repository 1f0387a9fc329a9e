import Verif.Engine.DistanceModel

namespace Verif.Engine

open Verif.Common

/-! ## Specification -/

/-- Where a value of the cache comes from: it was measured in one of the queries for the same two objects and the same type. -/
def Measured (qs : List Query) (a b : Id) (t : DType) (m : Meas) : Prop :=
  ∃ q ∈ qs, q.a = a ∧ q.b = b ∧ q.t = t ∧ m.dist = q.at'.dist a b t ∧ m.stamp = q.at'.now

/-- The two exceptions: never measured, or the square of a distance above 500 m instead of the distance. -/
def Placeholder (qs : List Query) (a b : Id) (t : DType) (m : Meas) : Prop :=
  (m.dist = 10000 ∧ m.stamp = 0) ∨
  (t = .euclidianAbs ∧ ∃ q ∈ qs, ((q.a = a ∧ q.b = b) ∨ (q.a = b ∧ q.b = a)) ∧ m.dist = q.at'.sq q.a q.b ∧ 250000 < m.dist ∧ m.stamp = q.at'.now)

/-! ## Keys -/

/-- Different pairs of ids have different keys. -/
theorem key_inj {a b a' b' : Id} (h : key a b = key a' b') : a = a' ∧ b = b' := by
  constructor
  · apply BitVec.eq_of_getLsbD_eq
    intro i hi
    have := congrArg (fun k : BitVec 64 => k.getLsbD (i + 32)) h
    simp only [key, BitVec.getLsbD_or, BitVec.getLsbD_shiftLeft, BitVec.getLsbD_setWidth, BitVec.getLsbD_signExtend] at this
    simpa [hi, show i + 32 < 64 by omega, show ¬(i + 32 < 32) by omega, show i < 64 by omega] using this
  · apply BitVec.eq_of_getLsbD_eq
    intro i hi
    have := congrArg (fun k : BitVec 64 => k.getLsbD i) h
    simp only [key, BitVec.getLsbD_or, BitVec.getLsbD_shiftLeft, BitVec.getLsbD_setWidth, BitVec.getLsbD_signExtend] at this
    simpa [hi, show i < 64 by omega] using this

theorem key_eq {a b a' b' : Id} : key a b = key a' b' ↔ a = a' ∧ b = b' :=
  ⟨key_inj, fun ⟨h1, h2⟩ => by rw [h1, h2]⟩

/-! ## Effect of one query -/

theorem emplace_self (c : Cache) (k : BitVec 64) : emplace c k k = some (entry c k) := by
  unfold emplace entry
  cases h : c k with
  | some e => simp only; rw [h]; rfl
  | none => simp [put]

theorem emplace_other {c : Cache} {k x : BitVec 64} (h : x ≠ k) : emplace c k x = c x := by
  unfold emplace
  cases hk : c k with
  | some e => rfl
  | none => simp [put, h]

theorem entry_emplace (c : Cache) (k x : BitVec 64) : entry (emplace c k) x = entry c x := by
  by_cases h : x = k
  · subst h; unfold entry; rw [emplace_self]; rfl
  · unfold entry; rw [emplace_other h]

theorem entry_both (a b : Id) (c : Cache) (x : BitVec 64) : entry (both a b c) x = entry c x := by
  unfold both; rw [entry_emplace, entry_emplace]

theorem both_some (a b : Id) (c : Cache) : both a b c (key a b) = some (entry c (key a b)) := by
  unfold both
  by_cases h : key a b = key b a
  · rw [h, emplace_self, entry_emplace]
  · rw [emplace_other h, emplace_self]

theorem both_other {a b : Id} {c : Cache} {x : BitVec 64} (h1 : x ≠ key a b) (h2 : x ≠ key b a) : both a b c x = c x := by
  unfold both; rw [emplace_other h2, emplace_other h1]

theorem put_self (c : Cache) (k : BitVec 64) (e : Entry) : put c k e k = some e := by simp [put]

theorem put_other {c : Cache} {k x : BitVec 64} {e : Entry} (h : x ≠ k) : put c k e x = c x := by simp [put, h]

/-- A query leaves the values of all other pairs of objects alone. -/
theorem others_untouched {m : Moment} {a b : Id} {t : DType} {limit : Rat} {c : Cache} {a' b' : Id}
    (h1 : ¬(a' = a ∧ b' = b)) (h2 : ¬(a' = b ∧ b' = a)) : (getDistance m a b t limit c).1 (key a' b') = c (key a' b') := by
  have k1 : key a' b' ≠ key a b := fun h => h1 (key_eq.1 h)
  have k2 : key a' b' ≠ key b a := fun h => h2 (key_eq.1 h)
  unfold getDistance
  split
  · simp [erase, k1, k2]
  · show (refresh m a b t limit c).1 _ = _
    unfold refresh
    split
    · unfold updateDistance
      split
      · show storeFar m a b (both a b c) _ = _
        unfold storeFar
        rw [put_other k2, put_other k1, both_other k1 k2]
      · show storeNear m a b t limit (both a b c) _ = _
        unfold storeNear
        rw [put_other k1, both_other k1 k2]
    · rfl

/-- An inactive object: no distance, and nothing about the pair is kept. -/
theorem inactive_forgotten {m : Moment} {a b : Id} (t : DType) (limit : Rat) (c : Cache) (h : m.active a = false ∨ m.active b = false) :
    (getDistance m a b t limit c).2 = ⟨-1, none⟩ ∧ (getDistance m a b t limit c).1 (key a b) = none ∧
    (getDistance m a b t limit c).1 (key b a) = none := by
  unfold getDistance
  rw [if_pos (by rcases h with h | h <;> simp [h])]
  simp [erase]

/-- With active objects there is always an answer. -/
theorem active_answered {m : Moment} {a b : Id} (t : DType) (limit : Rat) (c : Cache) (ha : m.active a = true) (hb : m.active b = true) :
    ∃ v, (getDistance m a b t limit c).2.meas = some v ∧ (getDistance m a b t limit c).2.code ≠ -1 := by
  unfold getDistance
  rw [if_neg (by simp [ha, hb])]
  show ∃ v, (read (key a b) t (refresh m a b t limit c)).meas = some v ∧ _
  unfold refresh
  split
  · unfold updateDistance
    split
    · have : storeFar m a b (both a b c) (key a b) ≠ none := by
        unfold storeFar
        by_cases h : key a b = key b a
        · rw [← h, put_self]; simp
        · rw [put_other h, put_self]; simp
      unfold read
      simp only
      split
      · rename_i h; exact absurd h this
      · exact ⟨_, rfl, by simp⟩
    · unfold read storeNear
      simp only [put_self]
      exact ⟨_, rfl, by simp⟩
  · rename_i h
    unfold read
    simp only
    split
    · rename_i hn; unfold needsUpdate at h; rw [hn] at h; simp at h
    · exact ⟨_, rfl, by simp⟩

/-- The return value 0 means: just measured, for these objects in this order, and for this type. -/
theorem success_fresh {m : Moment} {a b : Id} {t : DType} {limit : Rat} {c : Cache} (h : (getDistance m a b t limit c).2.code = 0) :
    m.active a = true ∧ m.active b = true ∧ (getDistance m a b t limit c).2.meas = some ⟨m.dist a b t, m.now⟩ := by
  unfold getDistance at h ⊢
  split at h
  · simp at h
  · rename_i hact
    rw [if_neg hact]
    simp only [Bool.not_eq_true, Bool.or_eq_false_iff, Bool.not_eq_false'] at hact
    refine ⟨hact.1, hact.2, ?_⟩
    simp only at h ⊢
    unfold refresh at h ⊢
    split at h
    · rename_i hn
      rw [if_pos hn]
      unfold updateDistance at h ⊢
      split at h
      · unfold read at h
        simp only at h
        split at h <;> simp at h
      · rename_i hf
        rw [if_neg hf]
        unfold read storeNear
        simp only [put_self]
        simp [setMeas]
    · unfold read at h
      simp only at h
      split at h <;> simp at h

/-- When the last value is outdated, or one of the objects was relocated, or there is none yet, the distance is measured now, unless the objects are more
than 500 m apart. -/
theorem outdated_measured {m : Moment} {a b : Id} {t : DType} {limit : Rat} {c : Cache} (ha : m.active a = true) (hb : m.active b = true)
    (hn : (∀ e, c (key a b) = some e → e.next < m.now) ∨ m.moved a = true ∨ m.moved b = true) (hs : m.sq a b ≤ 250000) :
    (getDistance m a b t limit c).2 = ⟨0, some ⟨m.dist a b t, m.now⟩⟩ := by
  have hnu : needsUpdate m a b c = true := by
    unfold needsUpdate
    split
    · rfl
    · rename_i e he
      rcases hn with hn | hn | hn
      · simp [hn e he]
      · simp [hn]
      · simp [hn]
  have hfar : farOff m a b (both a b c) = false := by
    unfold farOff
    have : ¬m.sq a b > 250000 := by grind
    simp [this]
  unfold getDistance
  rw [if_neg (by simp [ha, hb])]
  simp only [refresh, hnu, if_true, updateDistance, hfar, Bool.false_eq_true, if_false, read, storeNear, put_self]
  simp [setMeas]

/-! ## All queries -/

/-- What is in the cache. -/
def Origin (qs : List Query) (c : Cache) : Prop :=
  ∀ a b e t, c (key a b) = some e → Measured qs a b t (e.meas t) ∨ Placeholder qs a b t (e.meas t)

theorem fresh_origin (qs : List Query) (a b : Id) (t : DType) : Measured qs a b t (fresh.meas t) ∨ Placeholder qs a b t (fresh.meas t) :=
  Or.inr (Or.inl ⟨rfl, rfl⟩)

theorem origin_entry {qs : List Query} {c : Cache} (h : Origin qs c) (a b : Id) (t : DType) :
    Measured qs a b t ((entry c (key a b)).meas t) ∨ Placeholder qs a b t ((entry c (key a b)).meas t) := by
  unfold entry
  cases hc : c (key a b) with
  | none => exact fresh_origin qs a b t
  | some e => exact h a b e t hc

theorem origin_mono {qs : List Query} {q : Query} {c : Cache} (h : Origin qs c) : Origin (qs ++ [q]) c := by
  intro a b e t he
  rcases h a b e t he with ⟨p, hp, r⟩ | hp | ⟨ht, p, hp, r⟩
  · exact Or.inl ⟨p, by simp [hp], r⟩
  · exact Or.inr (Or.inl hp)
  · exact Or.inr (Or.inr ⟨ht, p, by simp [hp], r⟩)

theorem origin_both {qs : List Query} {c : Cache} (h : Origin qs c) (x y : Id) : Origin qs (both x y c) := by
  intro a b e t he
  have : e = entry c (key a b) := by
    have := entry_both x y c (key a b)
    unfold entry at this ⊢
    rw [he] at this
    simpa using this
  subst this
  exact origin_entry h a b t

theorem origin_query {qs : List Query} {c : Cache} (h : Origin qs c) (q : Query) :
    Origin (qs ++ [q]) (getDistance q.at' q.a q.b q.t q.limit c).1 := by
  have h' := origin_mono (q := q) h
  have hb := origin_both h' q.a q.b
  unfold getDistance
  split
  · intro a b e t he
    simp only [erase] at he
    split at he
    · simp at he
    · split at he
      · simp at he
      · exact h' a b e t he
  · simp only [refresh]
    split
    · unfold updateDistance
      split
      · rename_i hfar
        have hsq : 250000 < q.at'.sq q.a q.b := by
          unfold farOff at hfar
          simp only [Bool.and_eq_true, decide_eq_true_eq] at hfar
          exact hfar.2
        intro a b e t he
        simp only [storeFar] at he
        have c1 : ∀ a b t, Measured (qs ++ [q]) a b t ((entry (both q.a q.b c) (key a b)).meas t) ∨
            Placeholder (qs ++ [q]) a b t ((entry (both q.a q.b c) (key a b)).meas t) := fun a b t => origin_entry hb a b t
        -- the first store
        have first : ∀ a b t, ((q.a = a ∧ q.b = b) ∨ (q.a = b ∧ q.b = a)) → ∀ d : Entry,
            (∀ t, Measured (qs ++ [q]) a b t (d.meas t) ∨ Placeholder (qs ++ [q]) a b t (d.meas t)) →
            Measured (qs ++ [q]) a b t ((setMeas d .euclidianAbs ⟨q.at'.sq q.a q.b, q.at'.now⟩ (q.at'.now + 3)).meas t) ∨
            Placeholder (qs ++ [q]) a b t ((setMeas d .euclidianAbs ⟨q.at'.sq q.a q.b, q.at'.now⟩ (q.at'.now + 3)).meas t) := by
          intro a b t hab d hd
          simp only [setMeas]
          split
          · rename_i ht
            exact Or.inr (Or.inr ⟨ht, q, by simp, hab, rfl, hsq, rfl⟩)
          · exact hd t
        have o1 : Origin (qs ++ [q]) (put (both q.a q.b c) (key q.a q.b)
            (setMeas (entry (both q.a q.b c) (key q.a q.b)) .euclidianAbs ⟨q.at'.sq q.a q.b, q.at'.now⟩ (q.at'.now + 3))) := by
          intro a b e t he
          by_cases hk : key a b = key q.a q.b
          · rw [hk, put_self] at he
            obtain ⟨rfl, rfl⟩ := key_eq.1 hk
            obtain rfl := Option.some.inj he
            exact first _ _ t (Or.inl ⟨rfl, rfl⟩) _ (fun t => c1 _ _ t)
          · rw [put_other hk] at he
            exact hb a b e t he
        by_cases hk : key a b = key q.b q.a
        · rw [hk, put_self] at he
          obtain ⟨rfl, rfl⟩ := key_eq.1 hk
          obtain rfl := Option.some.inj he
          exact first _ _ t (Or.inr ⟨rfl, rfl⟩) _ (fun t => origin_entry o1 _ _ t)
        · rw [put_other hk] at he
          exact o1 a b e t he
      · intro a b e t he
        simp only [storeNear] at he
        by_cases hk : key a b = key q.a q.b
        · rw [hk, put_self] at he
          obtain ⟨rfl, rfl⟩ := key_eq.1 hk
          obtain rfl := Option.some.inj he
          simp only [setMeas]
          split
          · rename_i ht
            exact Or.inl ⟨q, by simp, rfl, rfl, ht.symm, by rw [ht], rfl⟩
          · exact origin_entry hb _ _ t
        · rw [put_other hk] at he
          exact hb a b e t he
    · exact h'

theorem after_origin (qs : List Query) : Origin qs (after qs) := by
  have main : ∀ (ps qs : List Query) (c : Cache), Origin ps c →
      Origin (ps ++ qs) (qs.foldl (fun c q => (getDistance q.at' q.a q.b q.t q.limit c).1) c) := by
    intro ps qs
    induction qs generalizing ps with
    | nil => intro c h; simpa using h
    | cons q r ih =>
      intro c h
      have := ih (ps ++ [q]) _ (origin_query h q)
      simpa using this
  have := main [] qs (fun _ => none) (by intro a b e t h; simp at h)
  simpa [after] using this

theorem after_snoc (qs : List Query) (q : Query) : after (qs ++ [q]) = (getDistance q.at' q.a q.b q.t q.limit (after qs)).1 := by
  simp [after]

/-- The answer to any query, after any queries: it was measured for the same objects in the same order and the same type in this query or an earlier
one and has the time of that measurement, or it is one of the two placeholders. -/
theorem answer_origin_partial (qs : List Query) (q : Query) {v : Meas} (h : (getDistance q.at' q.a q.b q.t q.limit (after qs)).2.meas = some v) :
    Measured (qs ++ [q]) q.a q.b q.t v ∨ Placeholder (qs ++ [q]) q.a q.b q.t v := by
  have ho := after_origin (qs ++ [q])
  rw [after_snoc] at ho
  unfold getDistance at h ho
  split at h
  · simp at h
  · rename_i hact
    rw [if_neg hact] at ho
    simp only [read] at h
    split at h
    · simp at h
    · rename_i e he
      simp only [Option.some.injEq] at h
      subst h
      exact ho q.a q.b e q.t he

/-! ## Concrete cases -/

/-- Objects 1 and 2, 30 m apart, 25 m along the road, at time 1. -/
def near (now : Rat) : Moment :=
  ⟨now, fun _ => true, fun _ => false, fun _ _ t => match t with | .longitudinal => 25 | .euclidianAbs => 30 | _ => 0, fun _ _ => 900⟩

/-- Objects 600 m apart. -/
def distant (now : Rat) : Moment := ⟨now, fun _ => true, fun _ => false, fun _ _ _ => 600, fun _ _ => 360000⟩

example : (getDistance (near 2) 1 2 .longitudinal 1000 (after [⟨near 1, 1, 2, .longitudinal, 1000⟩])).2 = ⟨0, some ⟨25, 2⟩⟩ ∧
    (after [⟨near 1, 1, 2, .longitudinal, 1000⟩] (key 1 2)).map Entry.next = some 1 := by decide +kernel

example : (getDistance (near 1) 1 2 .longitudinal 1000 (fun _ => none)).2 = ⟨0, some ⟨25, 1⟩⟩ := by decide +kernel

/-- Two types of distance asked for at the same time: the second is answered by 10000 although the objects are 25 m apart. -/
theorem other_type_witness : (getDistance (near 1) 1 2 .longitudinal 1000 (after [⟨near 1, 1, 2, .euclidianAbs, 1000⟩])).2 = ⟨-2, some ⟨10000, 0⟩⟩ := by
  decide +kernel

/-- Objects 600 m apart: the distance is answered by its square. -/
theorem squared_witness : (getDistance (distant 1) 1 2 .euclidianAbs 1000 (fun _ => none)).2 = ⟨-2, some ⟨360000, 1⟩⟩ := by decide +kernel

/-- The objects are 30 m apart a second later (and have not been teleported): the square is still the answer, for any type the old value. -/
theorem squared_kept_witness : (getDistance (near 2) 1 2 .euclidianAbs 1000 (after [⟨distant 1, 1, 2, .euclidianAbs, 1000⟩])).2 = ⟨-2, some ⟨360000, 1⟩⟩ := by
  decide +kernel

/-- Asking in the reverse direction at time 0 after the first direction: answered by 10000. -/
theorem reverse_witness : (getDistance (near 0) 2 1 .longitudinal 1000 (after [⟨near 0, 1, 2, .longitudinal, 1000⟩])).2 = ⟨-2, some ⟨10000, 0⟩⟩ := by
  decide +kernel

/-- Hence "the answer was measured for the same objects and the same type" is not true of all queries. -/
theorem answer_origin_fails : ¬∀ (qs : List Query) (q : Query) (v : Meas),
    (getDistance q.at' q.a q.b q.t q.limit (after qs)).2.meas = some v → Measured (qs ++ [q]) q.a q.b q.t v := by
  intro h
  obtain ⟨p, hp, -, -, h1, h2, -⟩ := h [⟨near 1, 1, 2, .euclidianAbs, 1000⟩] ⟨near 1, 1, 2, .longitudinal, 1000⟩ ⟨10000, 0⟩ (by rw [other_type_witness])
  simp only [List.cons_append, List.nil_append, List.mem_cons, List.not_mem_nil, or_false] at hp
  rcases hp with rfl | rfl
  · simp at h1
  · simp [near] at h2

end Verif.Engine
