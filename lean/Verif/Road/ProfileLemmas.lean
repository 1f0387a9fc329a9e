import Verif.Road.ProfileModel
/-
Lemmas on the profile model: sorted insertion, closed forms of the profile lists, the index loops.
-/
namespace Verif.Road

section Sorted
variable {α : Type} (key : α → Rat)

theorem insertFirst_none (x : α) (l : List α) (h : insertFirst key x l = none) :
    ∀ y ∈ l, key y ≤ key x := by
  induction l with
  | nil => simp
  | cons y ys ih =>
    simp only [insertFirst] at h
    by_cases hc : key x < key y
    · simp [hc] at h
    · simp only [hc, if_false, Option.map_eq_none_iff] at h
      intro z hz
      rcases List.mem_cons.mp hz with rfl | hz
      · grind
      · exact ih h z hz

theorem insertFirst_some (x : α) (l r : List α) (h : insertFirst key x l = some r)
    (hs : l.Pairwise (fun a b => key a ≤ key b)) :
    r.Pairwise (fun a b => key a ≤ key b) ∧ r.Perm (x :: l) ∧
      ∀ k, r.filter (fun a => decide (key a = k)) =
        l.filter (fun a => decide (key a = k)) ++ (if key x = k then [x] else []) := by
  induction l generalizing r with
  | nil => simp [insertFirst] at h
  | cons y ys ih =>
    simp only [insertFirst] at h
    rw [List.pairwise_cons] at hs
    by_cases hc : key x < key y
    · simp only [hc, if_true, Option.some.injEq] at h
      subst h
      refine ⟨?_, List.Perm.refl _, ?_⟩
      · rw [List.pairwise_cons, List.pairwise_cons]
        refine ⟨?_, hs.1, hs.2⟩
        intro z hz
        rcases List.mem_cons.mp hz with rfl | hz
        · grind
        · have := hs.1 z hz; grind
      · intro k
        by_cases hk : key x = k
        · have hnil : (y :: ys).filter (fun a => decide (key a = k)) = [] := by
            rw [List.filter_eq_nil_iff]
            intro z hz
            rcases List.mem_cons.mp hz with rfl | hz
            · simp; grind
            · have := hs.1 z hz; simp; grind
          rw [List.filter_cons]
          simp only [hk, decide_true, if_true]
          rw [hnil]; rfl
        · rw [List.filter_cons]; simp [hk]
    · simp only [hc, if_false, Option.map_eq_some_iff] at h
      obtain ⟨r', hr', rfl⟩ := h
      obtain ⟨h1, h2, h3⟩ := ih r' hr' hs.2
      refine ⟨?_, ?_, ?_⟩
      · rw [List.pairwise_cons]
        refine ⟨?_, h1⟩
        intro z hz
        rcases List.mem_cons.mp (h2.mem_iff.mp hz) with rfl | hz
        · grind
        · exact hs.1 z hz
      · exact (List.Perm.cons y h2).trans (List.Perm.swap x y ys)
      · intro k
        rw [List.filter_cons, List.filter_cons, h3 k]
        split <;> simp

theorem addEntry_spec (l : List α) (x : α) (hs : l.Pairwise (fun a b => key a ≤ key b)) :
    (addEntry key l x).Pairwise (fun a b => key a ≤ key b) ∧ (addEntry key l x).Perm (x :: l) ∧
      ∀ k, (addEntry key l x).filter (fun a => decide (key a = k)) =
        l.filter (fun a => decide (key a = k)) ++ (if key x = k then [x] else []) := by
  have happ : (∀ y ∈ l, key y ≤ key x) →
      (l ++ [x]).Pairwise (fun a b => key a ≤ key b) ∧ (l ++ [x]).Perm (x :: l) ∧
      ∀ k, (l ++ [x]).filter (fun a => decide (key a = k)) =
        l.filter (fun a => decide (key a = k)) ++ (if key x = k then [x] else []) := by
    intro hy
    refine ⟨?_, List.perm_append_singleton x l, ?_⟩
    · rw [List.pairwise_append]
      refine ⟨hs, List.pairwise_singleton _ _, ?_⟩
      intro a ha b hb
      rw [List.mem_singleton] at hb; subst hb; exact hy a ha
    · intro k; rw [List.filter_append]; simp [List.filter_cons]
  unfold addEntry
  cases hl : l.getLast? with
  | none =>
    rw [List.getLast?_eq_none_iff] at hl; subst hl
    exact happ (by simp)
  | some b =>
    have hbl : ∀ y ∈ l, key y ≤ key b := by
      obtain ⟨l', rfl⟩ := List.getLast?_eq_some_iff.mp hl
      intro y hy
      rw [List.pairwise_append] at hs
      rcases List.mem_append.mp hy with hy | hy
      · exact hs.2.2 y hy b (by simp)
      · rw [List.mem_singleton] at hy; subst hy; exact Rat.le_refl
    simp only
    by_cases hc : key x < key b
    · simp only [hc, if_true]
      cases hi : insertFirst key x l with
      | none => exact happ (insertFirst_none key x l hi)
      | some r => exact insertFirst_some key x l r hi hs
    · simp only [hc, if_false]
      refine happ (fun y hy => ?_)
      have := hbl y hy; grind

theorem foldl_addEntry (xs : List α) (l : List α) (hs : l.Pairwise (fun a b => key a ≤ key b)) :
    (xs.foldl (addEntry key) l).Pairwise (fun a b => key a ≤ key b) ∧
      (xs.foldl (addEntry key) l).Perm (l ++ xs) ∧
      ∀ k, (xs.foldl (addEntry key) l).filter (fun a => decide (key a = k)) =
        (l ++ xs).filter (fun a => decide (key a = k)) := by
  induction xs generalizing l with
  | nil => simpa using hs
  | cons x xs ih =>
    obtain ⟨h1, h2, h3⟩ := addEntry_spec key l x hs
    obtain ⟨i1, i2, i3⟩ := ih (addEntry key l x) h1
    rw [List.foldl_cons]
    refine ⟨i1, ?_, ?_⟩
    · refine i2.trans ?_
      refine (h2.append_right xs).trans ?_
      exact (List.perm_middle).symm
    · intro k
      rw [i3 k, List.filter_append, h3 k, List.filter_append, List.filter_cons]
      by_cases hk : key x = k <;> simp [hk]

theorem entryByS_cons_cons (w v : α) (rest : List α) (s : Rat) :
    entryByS key (w :: v :: rest) s =
      if s < key v then some w else entryByS key (v :: rest) s := by
  unfold entryByS
  simp only [List.findIdx_cons]
  by_cases hc : s < key v
  · simp [hc]
  · simp [hc]

/-- What the look-up finds in a sorted list. -/
theorem entryByS_sorted (l : List α) (s : Rat) (hs : l.Pairwise (fun a b => key a ≤ key b))
    (hne : l ≠ []) :
    ∃ w, entryByS key l s = some w ∧ w ∈ l ∧
      ((∃ v ∈ l, key v ≤ s) → key w ≤ s ∧ (∀ v ∈ l, key v ≤ s → key v ≤ key w) ∧
        (l.filter (fun a => decide (key a = key w))).getLast? = some w) ∧
      ((∀ v ∈ l, s < key v) → ∀ v ∈ l, key w ≤ key v) := by
  induction l with
  | nil => exact absurd rfl hne
  | cons w rest ih =>
    cases rest with
    | nil =>
      refine ⟨w, by simp [entryByS], by simp, ?_, ?_⟩
      · rintro ⟨v, hv, hvs⟩
        rw [List.mem_singleton] at hv; subst hv
        refine ⟨hvs, by simp, by simp⟩
      · intro _ v hv
        rw [List.mem_singleton] at hv; subst hv; exact Rat.le_refl
    | cons v rest =>
      rw [entryByS_cons_cons]
      rw [List.pairwise_cons] at hs
      by_cases hc : s < key v
      · simp only [hc, if_true]
        have hall : ∀ z ∈ v :: rest, s < key z := by
          intro z hz
          rcases List.mem_cons.mp hz with rfl | hz
          · exact hc
          · have := (List.pairwise_cons.mp hs.2).1 z hz; grind
        refine ⟨w, rfl, by simp, ?_, ?_⟩
        · rintro ⟨u, hu, hus⟩
          have hw : key w ≤ s := by
            rcases List.mem_cons.mp hu with rfl | hu
            · exact hus
            · have := hall u hu; grind
          refine ⟨hw, ?_, ?_⟩
          · intro u hu hus
            rcases List.mem_cons.mp hu with rfl | hu
            · exact Rat.le_refl
            · have := hall u hu; grind
          · have hnil : (v :: rest).filter (fun a => decide (key a = key w)) = [] := by
              rw [List.filter_eq_nil_iff]
              intro z hz
              have := hall z hz; simp; grind
            rw [List.filter_cons]; simp only [decide_true, if_true]
            rw [hnil]; rfl
        · intro _ u hu
          rcases List.mem_cons.mp hu with rfl | hu
          · exact Rat.le_refl
          · exact hs.1 u hu
      · simp only [hc, if_false]
        obtain ⟨r, h1, h2, h3, h4⟩ := ih hs.2 (by simp)
        refine ⟨r, h1, List.mem_cons_of_mem _ h2, ?_, ?_⟩
        · intro _
          obtain ⟨g1, g2, g3⟩ := h3 ⟨v, by simp, by grind⟩
          refine ⟨g1, ?_, ?_⟩
          · intro u hu hus
            rcases List.mem_cons.mp hu with rfl | hu
            · exact hs.1 r h2
            · exact g2 u hu hus
          · rw [List.filter_cons]
            by_cases hk : key w = key r
            · simp only [hk, decide_true, if_true]
              rw [List.getLast?_cons]; rw [g3]; rfl
            · simp only [hk, decide_false]
              exact g3
        · intro hb
          have := hb v (by simp); grind

end Sorted

/-! ## Closed forms -/

/-- Elevation entries with the lengths set. -/
def mkElev (L : Rat) : List (Rat × Poly) → List Elev
  | [] => []
  | [x] => [⟨x.1, L - x.1, x.2⟩]
  | x :: y :: r => ⟨x.1, y.1 - x.1, x.2⟩ :: mkElev L (y :: r)

theorem mkElev_cons_ne (L : Rat) (x : Rat × Poly) (r : List (Rat × Poly)) :
    mkElev L (x :: r) ≠ [] := by cases r <;> simp [mkElev]

theorem addElev_cons (L : Rat) (e : Elev) (l : List Elev) (x : Elev) (h : l ≠ []) :
    addElev L (e :: l) x = e :: addElev L l x := by
  cases l with
  | nil => exact absurd rfl h
  | cons f r => simp [addElev, List.getLast?_cons_cons]; split <;> simp

theorem addElev_mkElev (L : Rat) (xs : List (Rat × Poly)) (x : Rat × Poly) :
    addElev L (mkElev L xs) ⟨x.1, 0, x.2⟩ = mkElev L (xs ++ [x]) := by
  induction xs with
  | nil => simp [mkElev, addElev]
  | cons y ys ih =>
    cases ys with
    | nil => simp [mkElev, addElev]
    | cons z zs =>
      rw [mkElev, addElev_cons L _ _ _ (mkElev_cons_ne L z zs), ih]
      simp [mkElev]

theorem elevs_eq (L : Rat) (xs : List (Rat × Poly)) : elevs L xs = mkElev L xs := by
  have : ∀ (ys pre : List (Rat × Poly)),
      ys.foldl (fun l x => addElev L l ⟨x.1, 0, x.2⟩) (mkElev L pre) = mkElev L (pre ++ ys) := by
    intro ys
    induction ys with
    | nil => simp
    | cons y ys ih =>
      intro pre
      rw [List.foldl_cons, addElev_mkElev, ih]; simp
  simpa [elevs, mkElev] using this xs []

theorem mkElev_length (L : Rat) (xs : List (Rat × Poly)) : (mkElev L xs).length = xs.length := by
  induction xs with
  | nil => rfl
  | cons x r ih => cases r with
    | nil => rfl
    | cons y r => simp [mkElev, ih]

theorem mkElev_get (L : Rat) (xs : List (Rat × Poly)) (i : Nat) (h : i < xs.length) :
    (mkElev L xs)[i]? = some ⟨xs[i].1, (if h' : i + 1 < xs.length then xs[i + 1].1 else L) - xs[i].1, xs[i].2⟩ := by
  induction xs generalizing i with
  | nil => simp at h
  | cons x r ih => cases r with
    | nil =>
      have : i = 0 := by simp at h; omega
      subst this; simp [mkElev]
    | cons y r =>
      cases i with
      | zero => simp [mkElev]
      | succ i =>
        simp only [mkElev, List.getElem?_cons_succ]
        rw [ih i (by simpa using h)]
        simp

/-- Lane sections with the lengths set. -/
def mkSpans (L : Rat) : List Rat → List Span
  | [] => []
  | [x] => [⟨x, cmin (L - x) L⟩]
  | x :: y :: r => ⟨x, cmin (y - x) L⟩ :: mkSpans L (y :: r)

theorem mkSpans_cons_ne (L x : Rat) (r : List Rat) : mkSpans L (x :: r) ≠ [] := by
  cases r <;> simp [mkSpans]

theorem addSection_cons (L : Rat) (e : Span) (l : List Span) (x : Rat) (h : l ≠ []) :
    addSection L (e :: l) x = e :: addSection L l x := by
  cases l with
  | nil => exact absurd rfl h
  | cons f r => simp [addSection, List.getLast?_cons_cons]; split <;> simp

theorem addSection_mkSpans (L : Rat) (xs : List Rat) (x : Rat) :
    addSection L (mkSpans L xs) x = mkSpans L (xs ++ [x]) := by
  induction xs with
  | nil => simp [mkSpans, addSection]
  | cons y ys ih =>
    cases ys with
    | nil => simp [mkSpans, addSection]
    | cons z zs =>
      rw [mkSpans, addSection_cons L _ _ _ (mkSpans_cons_ne L z zs), ih]
      simp [mkSpans]

theorem spans_eq (L : Rat) (xs : List Rat) : spans L xs = mkSpans L xs := by
  have : ∀ (ys pre : List Rat),
      ys.foldl (addSection L) (mkSpans L pre) = mkSpans L (pre ++ ys) := by
    intro ys
    induction ys with
    | nil => simp
    | cons y ys ih =>
      intro pre
      rw [List.foldl_cons, addSection_mkSpans, ih]; simp
  simpa [spans, mkSpans] using this xs []

theorem mkSpans_length (L : Rat) (xs : List Rat) : (mkSpans L xs).length = xs.length := by
  induction xs with
  | nil => rfl
  | cons x r ih => cases r with
    | nil => rfl
    | cons y r => simp [mkSpans, ih]

theorem mkSpans_get (L : Rat) (xs : List Rat) (i : Nat) (h : i < xs.length) :
    (mkSpans L xs)[i]? = some ⟨xs[i], cmin ((if h' : i + 1 < xs.length then xs[i + 1] else L) - xs[i]) L⟩ := by
  induction xs generalizing i with
  | nil => simp at h
  | cons x r ih => cases r with
    | nil =>
      have : i = 0 := by simp at h; omega
      subst this; simp [mkSpans]
    | cons y r =>
      cases i with
      | zero => simp [mkSpans]
      | succ i =>
        simp only [mkSpans, List.getElem?_cons_succ]
        rw [ih i (by simpa using h)]
        simp

/-! ## Index loops -/

theorem elevFwd_spec (l : List Elev) (tol s : Rat) (i : Nat) (hi : i < l.length) :
    i ≤ elevFwd l tol s i ∧ ∃ h : elevFwd l tol s i < l.length,
      (elevFwd l tol s i + 1 < l.length → s ≤ l[elevFwd l tol s i].s + l[elevFwd l tol s i].len - tol) ∧
      ∀ j (hj : j < l.length), i ≤ j → j < elevFwd l tol s i → s > l[j].s + l[j].len - tol := by
  induction hn : l.length - i generalizing i with
  | zero => omega
  | succ n ih =>
    rw [elevFwd]
    simp only [hi, dif_pos]
    by_cases hc : s > l[i].s + l[i].len - tol ∧ i < l.length - 1
    · simp only [hc, and_self, if_true]
      obtain ⟨h1, h2, h3, h4⟩ := ih (i + 1) (by omega) (by omega)
      refine ⟨by omega, h2, h3, ?_⟩
      intro j hj hij hjl
      by_cases hji : j = i
      · subst hji; exact hc.1
      · exact h4 j hj (by omega) hjl
    · simp only [hc, if_false]
      refine ⟨Nat.le_refl _, hi, ?_, ?_⟩
      · intro hlt
        by_cases hs : s > l[i].s + l[i].len - tol
        · exact absurd ⟨hs, by omega⟩ hc
        · grind
      · intro j _ h1 h2; omega

theorem elevBwd_spec (l : List Elev) (s : Rat) (i : Nat) (hi : i < l.length) :
    elevBwd l s i ≤ i ∧ ∃ h : elevBwd l s i < l.length,
      (elevBwd l s i > 0 → ¬ s < l[elevBwd l s i].s) ∧
      ∀ j (hj : j < l.length), elevBwd l s i < j → j ≤ i → s < l[j].s := by
  induction i with
  | zero =>
    refine ⟨Nat.le_refl _, hi, ?_, ?_⟩
    · intro h; simp [elevBwd] at h
    · intro j _ h1 h2; simp [elevBwd] at h1; omega
  | succ i ih =>
    rw [elevBwd, List.getElem?_eq_getElem hi]
    simp only
    by_cases hc : s < l[i + 1].s
    · simp only [hc, if_true]
      obtain ⟨h1, h2, h3, h4⟩ := ih (by omega)
      refine ⟨by omega, h2, h3, ?_⟩
      intro j hj h5 h6
      by_cases hji : j = i + 1
      · subst hji; exact hc
      · exact h4 j hj h5 (by omega)
    · simp only [hc, if_false]
      exact ⟨Nat.le_refl _, hi, fun _ => not_false, fun j _ h1 h2 => by omega⟩

theorem secFwd_spec (l : List Span) (s : Rat) (i : Nat) (hi : i ≤ l.length) :
    i ≤ secFwd l s i ∧ secFwd l s i ≤ l.length ∧
      (∀ h : secFwd l s i < l.length, s < l[secFwd l s i].s + l[secFwd l s i].len) ∧
      ∀ j (hj : j < l.length), i ≤ j → j < secFwd l s i → ¬ s < l[j].s + l[j].len := by
  induction hn : l.length - i generalizing i with
  | zero =>
    have : ¬ i < l.length := by omega
    rw [secFwd]
    simp only [this, dif_neg, not_false_eq_true]
    exact ⟨Nat.le_refl _, hi, fun h => h.elim, fun j _ h1 h2 => by omega⟩
  | succ n ih =>
    have hlt : i < l.length := by omega
    rw [secFwd]
    simp only [hlt, dif_pos]
    by_cases hc : s < l[i].s + l[i].len
    · simp only [hc, if_true]
      exact ⟨Nat.le_refl _, by omega, fun _ => trivial, fun j _ h1 h2 => by omega⟩
    · simp only [hc, if_false]
      obtain ⟨h1, h2, h3, h4⟩ := ih (i + 1) (by omega) (by omega)
      refine ⟨by omega, h2, h3, ?_⟩
      intro j hj hij hjl
      by_cases hji : j = i
      · subst hji; exact hc
      · exact h4 j hj (by omega) hjl

theorem secBwd_spec (l : List Span) (s : Rat) (i : Nat) (hi : i < l.length) :
    secBwd l s i ≤ i ∧ ∃ h : secBwd l s i < l.length,
      (secBwd l s i > 0 → s > l[secBwd l s i].s) ∧
      ∀ j (hj : j < l.length), secBwd l s i < j → j ≤ i → ¬ s > l[j].s := by
  induction i with
  | zero =>
    refine ⟨Nat.le_refl _, hi, ?_, ?_⟩
    · intro h; simp [secBwd] at h
    · intro j _ h1 h2; simp [secBwd] at h1; omega
  | succ i ih =>
    rw [secBwd, List.getElem?_eq_getElem hi]
    simp only
    by_cases hc : s > l[i + 1].s
    · simp only [hc, if_true]
      exact ⟨Nat.le_refl _, hi, fun _ => trivial, fun j _ h1 h2 => by omega⟩
    · simp only [hc, if_false]
      obtain ⟨h1, h2, h3, h4⟩ := ih (by omega)
      refine ⟨by omega, h2, h3, ?_⟩
      intro j hj h5 h6
      by_cases hji : j = i + 1
      · subst hji; exact hc
      · exact h4 j hj h5 (by omega)

end Verif.Road
