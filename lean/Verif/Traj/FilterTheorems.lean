import Verif.Traj.ShapeModel
import Verif.Traj.PolyLemmas
/-
The filter that drops vertices close to each other.

Spec: `Spaced` relates neighbours of the result; the rest of the statement uses only the vertices as given.
-/
namespace Verif.Traj

variable {α : Type}

/-- Spec: two neighbours differ, or they are the two ends of a stand-still phase. -/
def Spaced (uniq : α → α → Bool) (u v : Raw α) : Prop := uniq u.pos v.pos = true ∨ u.pos = v.pos

/-- What holds before every round of the filter loop. -/
structure FInv (uniq : α → α → Bool) (vs : List (Raw α)) (st : FSt α) : Prop where
  len : st.arr.length = vs.length
  ab : st.a < st.b
  bc : st.b < st.c
  cn : st.c ≤ vs.length + 1
  atB : st.b < vs.length → st.c ≤ vs.length ∧ st.arr[st.b]? = vs[st.c - 1]?
  tail : ∀ k, st.c ≤ k → st.arr[k]? = vs[k]?
  adj : st.b + 1 = st.c ∨ ∃ va vb, st.arr[st.a]? = some va ∧ st.arr[st.b]? = some vb ∧ uniq va.pos vb.pos = false
  first : st.arr[0]? = vs[0]?
  done : vs.length ≤ st.b → st.c = vs.length + 1 ∧ st.arr[st.a]? = vs[vs.length - 1]?
  sub : ((st.arr.take (st.a + 1)).map Raw.time).Sublist ((vs.take (st.c - 1)).map Raw.time)
  pos : ∀ v ∈ st.arr, v.pos ∈ vs.map Raw.pos
  chain : (st.arr.take (st.a + 1)).IsChain (Spaced uniq)

theorem take_set_succ {β : Type} (l : List β) (a : Nat) (x : β) (h : a < l.length) :
    (l.set a x).take (a + 1) = l.take a ++ [x] := by
  rw [List.take_add_one, List.getElem?_set_self h, List.take_set_of_le (Nat.le_refl a)]
  rfl

theorem sublist_snoc {l m : List Rat} {k j : Nat} {x : Rat} (h : l.Sublist (m.take k)) (hkj : k ≤ j)
    (hx : m[j]? = some x) : (l ++ [x]).Sublist (m.take (j + 1)) := by
  rw [List.take_add_one, hx]
  have h1 : (m.take k).Sublist (m.take j) := (List.take_prefix_take_left hkj).sublist
  exact List.Sublist.append (h.trans h1) (List.Sublist.refl _)

theorem chain_snoc {R : β → β → Prop} {l : List β} {a : Nat} {u x : β} (h : (l.take (a + 1)).IsChain R)
    (hu : l[a]? = some u) (hr : R u x) : (l.take (a + 1) ++ [x]).IsChain R := by
  rw [List.isChain_append]
  refine ⟨h, by simp, ?_⟩
  intro y hy z hz
  have hla : a < l.length := by rw [List.getElem?_eq_some_iff] at hu; exact hu.1
  have hgl : (l.take (a + 1)).getLast? = some u := by
    rw [List.take_add_one, hu]; simp
  rw [hgl] at hy
  simp at hy hz
  rw [← hy, ← hz]; exact hr

theorem mem_set_pos {P : β → Prop} {l : List β} {i : Nat} {x : β} (h : ∀ v ∈ l, P v) (hx : P x) :
    ∀ v ∈ l.set i x, P v := by
  intro v hv
  rcases List.mem_or_eq_of_mem_set hv with c | c
  · exact h v c
  · rw [c]; exact hx

theorem filterStep_inv (uniq : α → α → Bool) (vs : List (Raw α)) (st : FSt α) (h : FInv uniq vs st)
    (hc : st.c < vs.length) :
    ∃ st', filterStep uniq st = some st' ∧ FInv uniq vs st' ∧ st.c < st'.c := by
  obtain ⟨arr, a, b, c⟩ := st
  obtain ⟨len, ab, bc, cn, atB, tail, adj, first, done, sub, pos, chain⟩ := h
  simp only at len ab bc cn atB tail adj first done sub pos chain hc ⊢
  have hbn : b < vs.length := by omega
  obtain ⟨va, hva⟩ : ∃ v, arr[a]? = some v := ⟨_, List.getElem?_eq_getElem (by omega)⟩
  obtain ⟨vb, hvb⟩ : ∃ v, arr[b]? = some v := ⟨_, List.getElem?_eq_getElem (by omega)⟩
  obtain ⟨vc, hvc⟩ : ∃ v, arr[c]? = some v := ⟨_, List.getElem?_eq_getElem (by omega)⟩
  have hb' := (atB hbn).2
  have hoc : vs[c]? = some vc := by rw [← tail c (Nat.le_refl _), hvc]
  have hob : vs[c - 1]? = some vb := by rw [← hb', hvb]
  have hva' := List.mem_of_getElem? hva
  have hvb' := List.mem_of_getElem? hvb
  have hvc' := List.mem_of_getElem? hvc
  have hotc : (vs.map Raw.time)[c]? = some vc.time := by simp [hoc]
  have hotb : (vs.map Raw.time)[c - 1]? = some vb.time := by simp [hob]
  have ha1 : a + 1 < arr.length := by omega
  have sub' : ((arr.take (a + 1)).map Raw.time).Sublist ((vs.map Raw.time).take (c - 1)) := by
    rw [← List.map_take]; exact sub
  by_cases hu : uniq va.pos vb.pos = true
  · -- keep B
    have hbc : b + 1 = c := by
      rcases adj with e | ⟨va', vb', e1, e2, e3⟩
      · exact e
      · rw [hva] at e1; rw [hvb] at e2
        simp only [Option.some.injEq] at e1 e2
        subst e1; subst e2
        rw [hu] at e3; cases e3
    refine ⟨⟨arr.set (a + 1) vb, a + 1, b + 1, c + 1⟩, by simp [filterStep, hva, hvb, hvc, hu], ?_, by simp⟩
    have hbe : (arr.set (a + 1) vb)[b + 1]? = vs[c]? := by
      rw [List.getElem?_set_ne (by omega), hbc]; exact tail c (Nat.le_refl _)
    constructor <;> simp only
    · simpa using len
    · omega
    · omega
    · omega
    · intro _; exact ⟨by omega, hbe⟩
    · intro k hk
      rw [List.getElem?_set_ne (by omega)]; exact tail k (by omega)
    · left; omega
    · rw [List.getElem?_set_ne (by omega)]; exact first
    · intro hb; omega
    · rw [take_set_succ _ _ _ ha1, List.map_append, List.map_take]
      have := sublist_snoc sub' (Nat.le_refl _) hotb
      have e : c - 1 + 1 = c := by omega
      rw [e] at this
      simpa using this
    · exact mem_set_pos pos (pos vb hvb')
    · rw [take_set_succ _ _ _ ha1]
      exact chain_snoc chain hva (Or.inl hu)
  · have hu' : uniq va.pos vb.pos = false := by simpa using hu
    by_cases huc : uniq va.pos vc.pos = true
    · by_cases ht : vc.time - va.time < 1 + small
      · -- skip B
        refine ⟨⟨arr.set (a + 1) vc, a + 1, c + 1, c + 2⟩,
          by simp [filterStep, hva, hvb, hvc, hu', huc, ht], ?_, by simp⟩
        constructor <;> simp only
        · simpa using len
        · omega
        · omega
        · omega
        · intro hb
          refine ⟨by omega, ?_⟩
          rw [List.getElem?_set_ne (by omega)]
          exact tail (c + 1) (by omega)
        · intro k hk
          rw [List.getElem?_set_ne (by omega)]; exact tail k (by omega)
        · exact Or.inl trivial
        · rw [List.getElem?_set_ne (by omega)]; exact first
        · intro hb
          refine ⟨by omega, ?_⟩
          rw [List.getElem?_set_self ha1]
          have : vs.length - 1 = c := by omega
          rw [this, hoc]
        · rw [take_set_succ _ _ _ ha1, List.map_append, List.map_take]
          have := sublist_snoc sub' (by omega) hotc
          simpa using this
        · exact mem_set_pos pos (pos vc hvc')
        · rw [take_set_succ _ _ _ ha1]
          exact chain_snoc chain hva (Or.inl huc)
      · -- stand-still phase
        have ha2 : a + 2 < (arr.set (a + 1) (⟨va.pos, vb.time⟩ : Raw α)).length := by simp; omega
        refine ⟨⟨(arr.set (a + 1) ⟨va.pos, vb.time⟩).set (a + 2) vc, a + 2, c + 1, c + 2⟩,
          by simp [filterStep, hva, hvb, hvc, hu', huc, ht], ?_, by simp⟩
        have hpos1 : ∀ v : Raw α, v ∈ arr.set (a + 1) (⟨va.pos, vb.time⟩ : Raw α) → v.pos ∈ vs.map Raw.pos :=
          mem_set_pos (P := fun v : Raw α => v.pos ∈ vs.map Raw.pos) pos (pos va hva')
        constructor <;> simp only
        · simpa using len
        · omega
        · omega
        · omega
        · intro hb
          refine ⟨by omega, ?_⟩
          rw [List.getElem?_set_ne (by omega), List.getElem?_set_ne (by omega)]
          exact tail (c + 1) (by omega)
        · intro k hk
          rw [List.getElem?_set_ne (by omega), List.getElem?_set_ne (by omega)]; exact tail k (by omega)
        · exact Or.inl trivial
        · rw [List.getElem?_set_ne (by omega), List.getElem?_set_ne (by omega)]; exact first
        · intro hb
          refine ⟨by omega, ?_⟩
          rw [List.getElem?_set_self ha2]
          have : vs.length - 1 = c := by omega
          rw [this, hoc]
        · rw [take_set_succ _ _ _ ha2, take_set_succ _ _ _ ha1, List.map_append, List.map_append, List.map_take]
          have h1 := sublist_snoc sub' (Nat.le_refl _) hotb
          have e : c - 1 + 1 = c := by omega
          rw [e] at h1
          have h2 := sublist_snoc h1 (Nat.le_refl _) hotc
          simpa using h2
        · exact mem_set_pos hpos1 (pos vc hvc')
        · rw [take_set_succ _ _ _ ha2]
          refine chain_snoc (u := ⟨va.pos, vb.time⟩) ?_ (by rw [List.getElem?_set_self ha1]) (Or.inl huc)
          rw [take_set_succ _ _ _ ha1]
          exact chain_snoc chain hva (Or.inr rfl)
    · -- merge
      have huc' : uniq va.pos vc.pos = false := by simpa using huc
      have hbl : b < arr.length := by omega
      refine ⟨⟨arr.set b vc, a, b, c + 1⟩, by simp [filterStep, hva, hvb, hvc, hu', huc'], ?_, by simp⟩
      have htk : (arr.set b vc).take (a + 1) = arr.take (a + 1) := List.take_set_of_le (by omega)
      constructor <;> simp only
      · simpa using len
      · omega
      · omega
      · omega
      · intro _
        refine ⟨by omega, ?_⟩
        rw [List.getElem?_set_self hbl, Nat.add_sub_cancel, hoc]
      · intro k hk
        rw [List.getElem?_set_ne (by omega)]; exact tail k (by omega)
      · right
        exact ⟨va, vc, by rw [List.getElem?_set_ne (by omega), hva], List.getElem?_set_self hbl, huc'⟩
      · rw [List.getElem?_set_ne (by omega)]; exact first
      · intro hb; omega
      · rw [htk]
        refine sub.trans ?_
        rw [List.map_take, List.map_take]
        exact (List.take_prefix_take_left (by omega)).sublist
      · exact mem_set_pos pos (pos vc hvc')
      · rw [htk]; exact chain

theorem filterLoop_inv (uniq : α → α → Bool) (vs : List (Raw α)) : ∀ (fuel : Nat) (st : FSt α),
    FInv uniq vs st → vs.length ≤ fuel + st.c →
    ∃ st', filterLoop uniq fuel st = some st' ∧ FInv uniq vs st' ∧ vs.length ≤ st'.c := by
  intro fuel
  induction fuel with
  | zero => intro st h hf; exact ⟨st, rfl, h, by omega⟩
  | succ n ih =>
    intro st h hf
    by_cases hc : st.c < vs.length
    · obtain ⟨st', h1, h2, h3⟩ := filterStep_inv uniq vs st h hc
      obtain ⟨st'', g1, g2⟩ := ih st' h2 (by omega)
      refine ⟨st'', ?_, g2⟩
      simp only [filterLoop]
      rw [if_pos (by rw [h.len]; exact hc), h1]
      exact g1
    · refine ⟨st, ?_, h, by omega⟩
      simp only [filterLoop]
      rw [if_neg (by rw [h.len]; exact hc)]

theorem init_inv (uniq : α → α → Bool) (vs : List (Raw α)) (h2 : 2 < vs.length) :
    FInv uniq vs ⟨vs, 0, 1, 2⟩ := by
  constructor <;> simp only
  · omega
  · omega
  · omega
  · intro _; exact ⟨by omega, trivial⟩
  · intro k _; trivial
  · left; trivial
  · intro h; omega
  · exact List.Sublist.refl _
  · intro v hv; exact List.mem_map_of_mem hv
  · cases vs with
    | nil => simp
    | cons a t => simp

/-- The filter never reads outside the array. It keeps the first and the last vertex, it keeps time stamps
in their order and makes up none, it moves no vertex to a place that was not in the list, and it leaves no
two neighbours close to each other before the last one, except the two ends of a stand-still phase. -/
theorem filter_result (uniq : α → α → Bool) (vs : List (Raw α)) (h2 : 2 < vs.length) :
    ∃ r, filterVertices uniq vs = some r ∧ r.head? = vs.head? ∧ r.getLast? = vs.getLast? ∧
      (r.map Raw.time).Sublist (vs.map Raw.time) ∧ (∀ v ∈ r, v.pos ∈ vs.map Raw.pos) ∧
      r.dropLast.IsChain (Spaced uniq) := by
  obtain ⟨st, h1, inv, hc⟩ := filterLoop_inv uniq vs vs.length _ (init_inv uniq vs h2) (by simp)
  obtain ⟨len, ab, bc, cn, atB, tail, adj, first, done, sub, pos, chain⟩ := inv
  have hsub : ∀ k, ((vs.take k).map Raw.time).Sublist (vs.map Raw.time) := fun k =>
    (List.take_sublist _ _).map _
  have hlast : vs.getLast? = vs[vs.length - 1]? := List.getLast?_eq_getElem?
  simp only [filterVertices, if_pos h2, h1]
  by_cases hb : st.b < vs.length
  · obtain ⟨hcn, hbe⟩ := atB hb
    have hcl : st.c - 1 = vs.length - 1 := by omega
    obtain ⟨vb, hvb⟩ : ∃ v, st.arr[st.b]? = some v := ⟨_, List.getElem?_eq_getElem (by omega)⟩
    have ha1 : st.a + 1 < st.arr.length := by omega
    have htk : (st.arr.set (st.a + 1) vb).take (st.a + 2) = st.arr.take (st.a + 1) ++ [vb] :=
      take_set_succ _ _ _ ha1
    simp only [hvb, htk]
    refine ⟨_, rfl, ?_, ?_, ?_, ?_, ?_⟩
    · rw [List.head?_eq_getElem?, List.getElem?_append_left (by simp; omega), List.getElem?_take_of_lt (by omega),
        first, List.head?_eq_getElem?]
    · rw [hlast, ← hcl, ← hbe, hvb]; simp
    · have hx : (vs.map Raw.time)[st.c - 1]? = some vb.time := by simp [← hbe, hvb]
      rw [List.map_append]
      have := sublist_snoc (l := (st.arr.take (st.a + 1)).map Raw.time) (m := vs.map Raw.time)
        (k := st.c - 1) (by rw [← List.map_take]; exact sub) (Nat.le_refl _) hx
      exact this.trans (List.take_sublist _ _)
    · intro v hv
      rcases List.mem_append.mp hv with h | h
      · exact pos v (List.mem_of_mem_take h)
      · simp only [List.mem_singleton] at h
        rw [h]; exact pos vb (List.mem_of_getElem? hvb)
    · rw [List.dropLast_concat]; exact chain
  · have hbn : vs.length ≤ st.b := by omega
    obtain ⟨hcn, hae⟩ := done hbn
    have hnone : st.arr[st.b]? = none := List.getElem?_eq_none (by omega)
    simp only [hnone]
    have hal : st.a < vs.length := by
      by_contra hn
      rw [List.getElem?_eq_none (by omega)] at hae
      have := List.getElem?_eq_getElem (l := vs) (i := vs.length - 1) (by omega)
      rw [this] at hae; cases hae
    refine ⟨_, rfl, ?_, ?_, ?_, ?_, ?_⟩
    · rw [List.head?_eq_getElem?, List.getElem?_take_of_lt (by omega), first, List.head?_eq_getElem?]
    · rw [hlast, ← hae, List.getLast?_eq_getElem?]
      have : (List.take (st.a + 1) st.arr).length = st.a + 1 := by
        rw [List.length_take, len]; omega
      rw [this, Nat.add_sub_cancel, List.getElem?_take_of_lt (by omega)]
    · exact sub.trans (hsub _)
    · intro v hv; exact pos v (List.mem_of_mem_take hv)
    · rw [List.dropLast_eq_take]
      exact chain.prefix (List.take_prefix _ _)

example : ∃ r, filterVertices (fun a b : Nat => decide (a ≠ b))
      [⟨0, 0⟩, ⟨0, 1⟩, ⟨0, 2⟩, ⟨1, 3⟩, ⟨1, 7/2⟩, ⟨2, 15/4⟩, ⟨3, 5⟩] = some r ∧ r.map Raw.time = [0, 2, 3, 15/4, 5] := by
  refine ⟨[⟨0, 0⟩, ⟨0, 2⟩, ⟨1, 3⟩, ⟨2, 15/4⟩, ⟨3, 5⟩], by decide +kernel, rfl⟩

/-- A list of at most two vertices is left as it is. -/
theorem filter_short (uniq : α → α → Bool) (vs : List (Raw α)) (h : vs.length ≤ 2) :
    filterVertices uniq vs = some vs := by
  simp [filterVertices, Nat.not_lt.mpr h]

/-- Two places of the same position count as different only if the heading falls by more than the
limit; if it grows, however much up to half a turn, they count as equal. -/
theorem vertsUnique_signed_fails :
    (∃ ha hb : Rat, vertsUnique (22 / 7) 0 ha hb 1 (1 / 10) = false ∧
      vertsUnique (22 / 7) 0 hb ha 1 (1 / 10) = true ∧ hb - ha = 3 / 2) := by
  exact ⟨0, 3 / 2, by decide +kernel, by decide +kernel, by norm_num⟩

/-- Places further apart than the radius always count as different. -/
theorem vertsUnique_far (pi dist ha hb r hr : Rat) (h : r + small ≤ dist) :
    vertsUnique pi dist ha hb r hr = true := by
  simp [vertsUnique, not_lt.mpr h]

end Verif.Traj
