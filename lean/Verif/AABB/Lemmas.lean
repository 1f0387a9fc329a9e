import Verif.AABB.Model

namespace Verif.AABB

/-! ## Rearranging a part of the vector -/

/-- The vector is rearranged between `f` and `l` only. -/
structure SegPerm (f l : Nat) (v v' : Array Box) : Prop where
  perm : v'.toList.Perm v.toList
  same : ∀ i, i < f ∨ l ≤ i → v'[i]? = v[i]?

theorem SegPerm.refl (f l : Nat) (v : Array Box) : SegPerm f l v v := ⟨List.Perm.refl _, fun _ _ => rfl⟩

theorem SegPerm.trans {f l : Nat} {a b c : Array Box} (h : SegPerm f l a b) (h' : SegPerm f l b c) : SegPerm f l a c :=
  ⟨h'.perm.trans h.perm, fun i hi => (h'.same i hi).trans (h.same i hi)⟩

theorem SegPerm.size {f l : Nat} {a b : Array Box} (h : SegPerm f l a b) : b.size = a.size := by
  have := h.perm.length_eq
  simpa using this

theorem SegPerm.mono {f l f' l' : Nat} {a b : Array Box} (h : SegPerm f l a b) (hf : f' ≤ f) (hl : l ≤ l') : SegPerm f' l' a b :=
  ⟨h.perm, fun i hi => h.same i (by omega)⟩

theorem split_segment (v : Array Box) {f l : Nat} (h : f ≤ l) :
    v.toList = v.toList.take f ++ segment v f l ++ v.toList.drop l := by
  unfold segment
  have h1 : (v.toList.take l).take f = v.toList.take f := by rw [List.take_take, Nat.min_eq_left h]
  have h2 := List.take_append_drop f (v.toList.take l)
  rw [h1] at h2
  rw [h2, List.take_append_drop]

theorem SegPerm.seg {f l : Nat} {a b : Array Box} (h : SegPerm f l a b) (hfl : f ≤ l) : (segment b f l).Perm (segment a f l) := by
  have ha := split_segment a hfl
  have hb := split_segment b hfl
  have h1 : b.toList.take f = a.toList.take f := by
    apply List.ext_getElem?
    intro i
    rw [List.getElem?_take, List.getElem?_take]
    split
    · have := h.same i (Or.inl (by omega)); simpa using this
    · rfl
  have h2 : b.toList.drop l = a.toList.drop l := by
    apply List.ext_getElem?
    intro i
    rw [List.getElem?_drop, List.getElem?_drop]
    have := h.same (l + i) (Or.inr (by omega)); simpa using this
  have hp := h.perm
  rw [ha, hb, h1, h2] at hp
  rw [List.perm_append_right_iff, List.perm_append_left_iff] at hp
  exact hp

/-- A part that lies outside of the rearranged one is unchanged. -/
theorem SegPerm.seg_same {f l f' l' : Nat} {a b : Array Box} (h : SegPerm f l a b) (hd : l' ≤ f ∨ l ≤ f') :
    segment b f' l' = segment a f' l' := by
  unfold segment
  apply List.ext_getElem?
  intro i
  simp only [List.getElem?_drop, List.getElem?_take]
  split
  · have := h.same (f' + i) (by omega); simpa using this
  · rfl

theorem segPerm_swap {f l i j : Nat} {v : Array Box} (hi : f ≤ i) (hi' : i < l) (hj : f ≤ j) (hj' : j < l) (hl : l ≤ v.size) :
    SegPerm f l v (v.swapIfInBounds i j) := by
  have h1 : i < v.size := by omega
  have h2 : j < v.size := by omega
  have e : v.swapIfInBounds i j = v.swap i j := by simp [Array.swapIfInBounds, h1, h2]
  rw [e]
  refine ⟨?_, ?_⟩
  · have := Array.swap_perm h1 h2
    exact Array.perm_iff_toList_perm.1 this
  · intro k hk
    rw [Array.getElem?_swap]
    split
    · omega
    · split
      · omega
      · rfl

/-! ## Partition -/

theorem scanUp_spec (cmp : Box → Bool) (v : Array Box) (fuel first last : Nat) (hl : last ≤ v.size) (h : first ≤ last)
    (hf : last - first < fuel) : ∃ k, scanUp cmp v fuel first last = some k ∧ first ≤ k ∧ k ≤ last ∧
      (∀ i, first ≤ i → i < k → ∃ b, v[i]? = some b ∧ cmp b = true) ∧ (k < last → ∃ b, v[k]? = some b ∧ cmp b = false) := by
  induction fuel generalizing first with
  | zero => omega
  | succ fuel ih =>
    unfold scanUp
    by_cases hlt : first < last
    · have hb : v[first]? = some v[first] := by simp
      simp only [hlt, if_true, hb]
      by_cases hc : cmp v[first] = true
      · simp only [hc, if_true]
        obtain ⟨k, h1, h2, h3, h4, h5⟩ := ih (first + 1) (by omega) (by omega)
        refine ⟨k, h1, by omega, h3, fun i hi hi' => ?_, h5⟩
        by_cases e : i = first
        · subst e; exact ⟨_, hb, hc⟩
        · exact h4 i (by omega) hi'
      · simp only [hc]
        exact ⟨first, rfl, Nat.le_refl _, h, fun i hi hi' => by omega, fun _ => ⟨_, hb, by simpa using hc⟩⟩
    · simp only [hlt, if_false]
      exact ⟨first, rfl, Nat.le_refl _, h, fun i hi hi' => by omega, fun h' => absurd h' hlt⟩

theorem scanDown_spec (cmp : Box → Bool) (v : Array Box) (fuel first : Nat) (last : Int) (hl : last < v.size)
    (hf : last - first < fuel) (hfuel : 0 < fuel) : ∃ k, scanDown cmp v fuel first last = some k ∧ k ≤ last ∧ (first ≤ last → (first : Int) ≤ k) ∧ (last < first → k = last) ∧
      (∀ i : Nat, k < i → (i : Int) ≤ last → ∃ b, v[i]? = some b ∧ cmp b = false) ∧
      ((first : Int) < k → ∃ b, v[k.toNat]? = some b ∧ cmp b = true) := by
  induction fuel generalizing last with
  | zero => omega
  | succ fuel ih =>
    unfold scanDown
    by_cases hlt : (first : Int) < last
    · have hin : last.toNat < v.size := by omega
      have hb : v[last.toNat]? = some v[last.toNat] := by simp [hin]
      simp only [hlt, if_true, hb]
      by_cases hc : cmp v[last.toNat] = true
      · simp only [hc, Bool.not_true]
        refine ⟨last, rfl, by omega, fun h => h, fun _ => rfl, fun i hi hi' => by omega, fun _ => ⟨_, hb, hc⟩⟩
      · have hc' : cmp v[last.toNat] = false := by simpa using hc
        simp only [hc', Bool.not_false, if_true]
        obtain ⟨k, h1, h2, h3, h4, h5, h6⟩ := ih (last - 1) (by omega) (by omega) (by omega)
        refine ⟨k, h1, by omega, fun _ => h3 (by omega), fun h => by omega, fun i hi hi' => ?_, h6⟩
        by_cases e : (i : Int) = last
        · have : i = last.toNat := by omega
          subst this; exact ⟨_, hb, hc'⟩
        · exact h5 i hi (by omega)
    · simp only [hlt, if_false]
      exact ⟨last, rfl, by omega, fun h => h, fun _ => rfl, fun i hi hi' => by omega, fun h' => absurd h' hlt⟩

/-- Elements `i` with `a ≤ i < b` all compare as `r`. -/
def AllCmp (cmp : Box → Bool) (v : Array Box) (a b : Nat) (r : Bool) : Prop :=
  ∀ i, a ≤ i → i < b → ∃ x, v[i]? = some x ∧ cmp x = r

theorem partitionLoop_spec (cmp : Box → Bool) (start stop : Nat) (fuel : Nat) (v : Array Box) (first last : Nat)
    (hs : stop ≤ v.size) (h1 : start ≤ first) (h2 : first ≤ last) (h3 : last ≤ stop) (hf : last - first < fuel)
    (hlow : AllCmp cmp v start first true) (hhigh : AllCmp cmp v last stop false) :
    ∃ v' cut, partitionLoop cmp fuel v first last = some (v', cut) ∧ SegPerm start stop v v' ∧ start ≤ cut ∧ cut ≤ stop ∧
      AllCmp cmp v' start cut true ∧ AllCmp cmp v' cut stop false := by
  induction fuel generalizing v first last with
  | zero => omega
  | succ fuel ih =>
    unfold partitionLoop
    obtain ⟨k, e1, a1, a2, a3, a4⟩ := scanUp_spec cmp v (last + 1) first last (by omega) h2 (by omega)
    simp only [e1]
    obtain ⟨m, e2, b1, b2, b5, b3, b4⟩ := scanDown_spec cmp v (last + 1) k ((last : Int) - 1) (by omega) (by omega) (by omega)
    simp only [e2]
    by_cases hlt : (k : Int) < m
    · simp only [hlt, if_true]
      have hk : k < last := by omega
      have hm0 : m.toNat < v.size := by omega
      have hk0 : k < v.size := by omega
      have sw := segPerm_swap (f := start) (l := stop) (i := k) (j := m.toNat) (v := v) (by omega) (by omega) (by omega) (by omega) hs
      have esw : v.swapIfInBounds k m.toNat = v.swap k m.toNat := by simp [Array.swapIfInBounds, hk0, hm0]
      have gk : (v.swapIfInBounds k m.toNat)[k]? = v[m.toNat]? := by rw [esw, Array.getElem?_swap]; split <;> simp_all
      have gm : (v.swapIfInBounds k m.toNat)[m.toNat]? = v[k]? := by rw [esw, Array.getElem?_swap]; split <;> simp_all
      have go : ∀ i, i ≠ k → i ≠ m.toNat → (v.swapIfInBounds k m.toNat)[i]? = v[i]? := by
        intro i hi hi'
        rw [esw, Array.getElem?_swap]
        split
        · omega
        · split
          · omega
          · rfl
      obtain ⟨v', cut, f1, f2, f3⟩ := ih (v.swapIfInBounds k m.toNat) (k + 1) m.toNat (by rw [sw.size]; exact hs) (by omega) (by omega)
        (by omega) (by omega)
        (by
          intro i hi hi'
          by_cases e : i = k
          · subst e; rw [gk]; exact b4 hlt
          · rw [go i e (by omega)]
            by_cases h : i < first
            · exact hlow i hi h
            · exact a3 i (by omega) (by omega))
        (by
          intro i hi hi'
          by_cases e : i = m.toNat
          · subst e; rw [gm]; exact a4 hk
          · rw [go i (by omega) e]
            by_cases h : i < last
            · exact b3 i (by omega) (by omega)
            · exact hhigh i (by omega) hi')
      exact ⟨v', cut, f1, sw.trans f2, f3⟩
    · simp only [hlt, if_false]
      refine ⟨v, k, rfl, SegPerm.refl _ _ _, by omega, by omega, ?_, ?_⟩
      · intro i hi hi'
        by_cases h : i < first
        · exact hlow i hi h
        · exact a3 i (by omega) hi'
      · intro i hi hi'
        by_cases h : i < last
        · by_cases e : i = k
          · subst e; exact a4 h
          · exact b3 i (by omega) (by omega)
        · exact hhigh i (by omega) hi'

/-- `divide` rearranges the boxes between `start` and `stop`: first those below the middle, then the others. -/
theorem divide_spec (v : Array Box) (start stop : Nat) (box : Box) (h : start + 2 ≤ stop) (hs : stop ≤ v.size) :
    ∃ v' cut, divide v start stop box = some (v', cut) ∧ SegPerm start stop v v' ∧ start ≤ cut ∧ cut ≤ stop ∧
      AllCmp (below box) v' start cut true ∧ AllCmp (below box) v' cut stop false := by
  unfold divide
  have h0 : ¬(stop - start = 0) := by omega
  have h1 : ¬(stop - start = 1) := by omega
  simp only [h0, h1, if_false]
  exact partitionLoop_spec (below box) start stop (stop + 1) v start stop hs (Nat.le_refl _) (by omega) (Nat.le_refl _) (by omega)
    (fun i hi hi' => by omega) (fun i hi hi' => by omega)

/-! ## Trees in the heap -/

/-- The tree at position `i`, with all positions visited in `S`. -/
inductive Reads (h : Heap) (S : Nat → Prop) : Nat → Tree → Prop
  | nil {i} : S i → h[i]? = some ⟨none, []⟩ → Reads h S i .nil
  | leaf {i b} : S i → h[i]? = some ⟨some b, []⟩ → Reads h S i (.leaf b)
  | node {i b p q l r} : S i → h[i]? = some ⟨some b, [p, q]⟩ → Reads h S p l → Reads h S q r → Reads h S i (.node b l r)

theorem Reads.frame {h h' : Heap} {S S' : Nat → Prop} {i : Nat} {t : Tree} (hr : Reads h S i t)
    (hs : ∀ j, S j → j < h.length → S' j ∧ h'[j]? = h[j]?) : Reads h' S' i t := by
  have lt : ∀ {i : Nat} {c : Cell}, h[i]? = some c → i < h.length := by
    intro i c e
    rcases Nat.lt_or_ge i h.length with hl | hl
    · exact hl
    · rw [List.getElem?_eq_none hl] at e; cases e
  induction hr with
  | nil a b => exact .nil (hs _ a (lt b)).1 ((hs _ a (lt b)).2.trans b)
  | leaf a b => exact .leaf (hs _ a (lt b)).1 ((hs _ a (lt b)).2.trans b)
  | node a b _ _ ih1 ih2 => exact .node (hs _ a (lt b)).1 ((hs _ a (lt b)).2.trans b) ih1 ih2

/-- The boxes at the leaves, from left to right. -/
def Tree.leaves : Tree → List Box
  | .nil => []
  | .leaf b => [b]
  | .node _ l r => l.leaves ++ r.leaves

/-- The smallest box around the given ones. -/
structure IsHull (m : Box) (l : List Box) : Prop where
  inside : ∀ b, b ∈ l → m.lo.x ≤ b.lo.x ∧ m.lo.y ≤ b.lo.y ∧ b.hi.x ≤ m.hi.x ∧ b.hi.y ≤ m.hi.y
  tight : (∃ b, b ∈ l ∧ b.lo.x = m.lo.x) ∧ (∃ b, b ∈ l ∧ b.lo.y = m.lo.y) ∧ (∃ b, b ∈ l ∧ b.hi.x = m.hi.x) ∧ (∃ b, b ∈ l ∧ b.hi.y = m.hi.y)

/-- Every inner node carries the smallest box around its leaves and no triangle. -/
def Tree.Hulls : Tree → Prop
  | .nil => True
  | .leaf _ => True
  | .node b l r => IsHull b (l.leaves ++ r.leaves) ∧ b.tri = none ∧ l.Hulls ∧ r.Hulls

theorem IsHull.perm {m : Box} {l l' : List Box} (h : IsHull m l) (hp : l.Perm l') : IsHull m l' := by
  constructor
  · intro b hb; exact h.inside b (hp.mem_iff.2 hb)
  · obtain ⟨⟨a, ha⟩, ⟨b, hb⟩, ⟨c, hc⟩, ⟨d, hd⟩⟩ := h.tight
    exact ⟨⟨a, hp.mem_iff.1 ha.1, ha.2⟩, ⟨b, hp.mem_iff.1 hb.1, hb.2⟩, ⟨c, hp.mem_iff.1 hc.1, hc.2⟩, ⟨d, hp.mem_iff.1 hd.1, hd.2⟩⟩

theorem grow_hull {m b : Box} {l : List Box} (h : IsHull m l) : IsHull (grow m b) (l ++ [b]) := by
  obtain ⟨hi, ⟨a1, ha1, ea1⟩, ⟨a2, ha2, ea2⟩, ⟨a3, ha3, ea3⟩, ⟨a4, ha4, ea4⟩⟩ := h
  constructor
  · intro c hc
    simp only [List.mem_append, List.mem_singleton] at hc
    simp only [grow, min2, max2]
    rcases hc with hc | rfl
    · have := hi c hc
      grind
    · grind
  · refine ⟨?_, ?_, ?_, ?_⟩ <;> simp only [grow, min2, max2] <;> split
    · exact ⟨b, by simp, rfl⟩
    · exact ⟨a1, by simp [ha1], ea1⟩
    · exact ⟨b, by simp, rfl⟩
    · exact ⟨a2, by simp [ha2], ea2⟩
    · exact ⟨b, by simp, rfl⟩
    · exact ⟨a3, by simp [ha3], ea3⟩
    · exact ⟨b, by simp, rfl⟩
    · exact ⟨a4, by simp [ha4], ea4⟩

theorem foldl_grow_hull (l l0 : List Box) (m : Box) (h : IsHull m l0) (ht : m.tri = none) :
    IsHull (l.foldl grow m) (l0 ++ l) ∧ (l.foldl grow m).tri = none := by
  induction l generalizing m l0 with
  | nil => simpa using ⟨h, ht⟩
  | cons b l ih =>
    have := ih (l0 ++ [b]) (grow m b) (grow_hull h) rfl
    simpa using this

theorem merge_hull {l : List Box} (h : l ≠ []) : ∃ m, merge l = some m ∧ IsHull m l ∧ m.tri = none := by
  cases l with
  | nil => exact absurd rfl h
  | cons b l =>
    refine ⟨_, rfl, ?_⟩
    have := foldl_grow_hull l [b] { lo := b.lo, hi := b.hi, tri := none }
      ⟨by simp [Rat.le_refl], ⟨b, by simp, rfl⟩, ⟨b, by simp, rfl⟩, ⟨b, by simp, rfl⟩, ⟨b, by simp, rfl⟩⟩ rfl
    simpa using this

/-! ## Build -/

/-- Back from a finished part to the next record of the stack. -/
def pop (fuel : Nat) (s : State) : Option State :=
  match s.stack with
  | [] => some s
  | r :: rest => buildLoop fuel { s with stack := rest, first := r.first, last := r.last, cur := r.tree }

theorem segment_length (v : Array Box) {f l : Nat} (hl : l ≤ v.size) : (segment v f l).length = l - f := by
  simp [segment]; omega

theorem segment_append (v : Array Box) {f m l : Nat} (h1 : f ≤ m) (h2 : m ≤ l) : segment v f m ++ segment v m l = segment v f l := by
  unfold segment
  have : v.toList.take m = (v.toList.take l).take m := by rw [List.take_take, Nat.min_eq_left h2]
  rw [this]
  generalize v.toList.take l = L
  apply List.ext_getElem?
  intro i
  rw [List.getElem?_append]
  simp only [List.length_drop, List.length_take, List.getElem?_drop, List.getElem?_take]
  split
  · rw [if_pos (by omega)]
  · rename_i h
    by_cases hm : m ≤ L.length
    · congr 1; omega
    · rw [List.getElem?_eq_none (by omega), List.getElem?_eq_none (by omega)]

theorem segment_one (v : Array Box) (f : Nat) (b : Box) (h : v[f]? = some b) : segment v f (f + 1) = [b] := by
  unfold segment
  apply List.ext_getElem?
  intro i
  simp only [List.getElem?_drop, List.getElem?_take]
  cases i with
  | zero => simpa using h
  | succ i => rw [if_neg (by omega)]; simp

theorem setBox_length (h : Heap) (i : Nat) (b : Box) : (h.setBox i b).length = h.length := by simp [Heap.setBox]

theorem setBox_get (h : Heap) (i : Nat) (b : Box) {o : Option Box} {k : List Nat} (hi : h[i]? = some ⟨o, k⟩) :
    (h.setBox i b)[i]? = some ⟨some b, k⟩ := by
  simp [Heap.setBox, List.getElem?_modify, hi]

theorem setBox_other (h : Heap) {i j : Nat} (b : Box) (hi : j ≠ i) : (h.setBox i b)[j]? = h[j]? := by
  have : ¬(i = j) := fun e => hi e.symm
  simp [Heap.setBox, List.getElem?_modify, this]

theorem addKids_get (h : Heap) (i p q : Nat) {o : Option Box} {k : List Nat} (hi : h[i]? = some ⟨o, k⟩) :
    (h.addKids i p q)[i]? = some ⟨o, k ++ [p, q]⟩ := by
  simp [Heap.addKids, List.getElem?_modify, hi]

theorem addKids_other (h : Heap) {i j : Nat} (p q : Nat) (hi : j ≠ i) : (h.addKids i p q)[j]? = h[j]? := by
  have : ¬(i = j) := fun e => hi e.symm
  simp [Heap.addKids, List.getElem?_modify, this]

theorem addKids_length (h : Heap) (i p q : Nat) : (h.addKids i p q).length = h.length := by simp [Heap.addKids]

theorem cutPoint_between {cut first last : Nat} (h : first + 2 ≤ last) (hc : first ≤ cut) (hc' : cut ≤ last) :
    first < cutPoint cut first last ∧ cutPoint cut first last < last := by
  unfold cutPoint; split <;> omega

/-- What building the part from `first` to `last` at position `cur` does. -/
structure Done (s s' : State) (n : Nat) (T : Tree) : Prop where
  stack : s'.stack = s.stack
  perm : SegPerm s.first s.last s.v s'.v
  size : s'.heap.length = s.heap.length + 2 * (n - 1)
  others : ∀ j, j < s.heap.length → j ≠ s.cur → s'.heap[j]? = s.heap[j]?
  reads : Reads s'.heap (fun i => i = s.cur ∨ s.heap.length ≤ i) s.cur T
  leaves : T.leaves.Perm (segment s.v s.first s.last)
  hulls : T.Hulls
  nodes : s'.nodes = s.nodes + 2 * (n - 1)
  count : s'.leaves = s.leaves + n

theorem build_part (n : Nat) : ∀ (s : State), s.last - s.first = n → s.first < s.last → s.last ≤ s.v.size →
    (∃ o, s.heap[s.cur]? = some ⟨o, []⟩) →
    ∃ s' T, (∀ fuel, buildLoop (fuel + (2 * n - 1)) s = pop fuel s') ∧ Done s s' n T := by
  induction n using Nat.strongRecOn with
  | ind n ih =>
    intro s hn hlt hsz ⟨o, hcur⟩
    have hcl : s.cur < s.heap.length := by
      rcases Nat.lt_or_ge s.cur s.heap.length with h | h
      · exact h
      · rw [List.getElem?_eq_none h] at hcur; cases hcur
    by_cases h1 : n = 1
    · subst h1
      have hb : s.v[s.first]? = some (s.v[s.first]'(by omega)) := by simp
      refine ⟨{ s with heap := s.heap.setBox s.cur (s.v[s.first]'(by omega)), leaves := s.leaves + 1 }, .leaf (s.v[s.first]'(by omega)),
        ?_, ?_⟩
      · intro fuel
        show buildLoop (fuel + 1) s = _
        rw [buildLoop]
        simp only [hlt, if_true, hn, hb]
        unfold pop
        cases hst : s.stack <;> rfl
      · refine ⟨rfl, SegPerm.refl _ _ _, by simp [setBox_length], fun j _ hj => setBox_other _ _ hj, ?_, ?_, trivial, by simp, rfl⟩
        · exact .leaf (Or.inl rfl) (setBox_get _ _ _ hcur)
        · have : s.last = s.first + 1 := by omega
          rw [this, segment_one _ _ _ hb]
          exact List.Perm.refl _
    · have hne : segment s.v s.first s.last ≠ [] := by
        intro e
        have := segment_length s.v (f := s.first) hsz
        rw [e] at this; simp at this; omega
      obtain ⟨box, hm, hh, ht⟩ := merge_hull hne
      obtain ⟨v, cut, hd, hp, hc1, hc2, _, _⟩ := divide_spec s.v s.first s.last box (by omega) hsz
      have hcp := cutPoint_between (cut := cut) (first := s.first) (last := s.last) (by omega) hc1 hc2
      generalize hcd : cutPoint cut s.first s.last = c at hcp
      let h0 : Heap := Heap.addKids ((s.heap.setBox s.cur box : List Cell) ++ [⟨none, []⟩, ⟨none, []⟩]) s.cur s.heap.length (s.heap.length + 1)
      let s1 : State := ⟨v, h0, ⟨c, s.last, s.heap.length + 1⟩ :: s.stack, s.first, c, s.heap.length, s.nodes + 2, s.leaves⟩
      have hstep : ∀ fuel, buildLoop (fuel + 1) s = buildLoop fuel s1 := by
        intro fuel
        rw [buildLoop]
        have : ¬(s.last - s.first = 1) := by omega
        simp only [hlt, if_true, this, if_false, hm, hd, hcd]
        rfl
      have h0len : h0.length = s.heap.length + 2 := by
        simp only [h0, addKids_length]; simp [setBox_length]
      have g0 : ∀ j, j ≠ s.cur → h0[j]? = ((s.heap.setBox s.cur box : List Cell) ++ [⟨none, []⟩, ⟨none, []⟩])[j]? := by
        intro j hj; exact addKids_other _ _ _ hj
      have gcur : h0[s.cur]? = some ⟨some box, [s.heap.length, s.heap.length + 1]⟩ := by
        have : ((s.heap.setBox s.cur box : List Cell) ++ [⟨none, []⟩, ⟨none, []⟩])[s.cur]? = some ⟨some box, []⟩ := by
          rw [List.getElem?_append_left (by rw [setBox_length]; exact hcl)]
          exact setBox_get _ _ _ hcur
        exact addKids_get _ _ _ _ this
      have gp : h0[s.heap.length]? = some ⟨none, []⟩ := by
        rw [g0 _ (by omega), List.getElem?_append_right (by rw [setBox_length]; omega), setBox_length]; simp
      have gq : h0[s.heap.length + 1]? = some ⟨none, []⟩ := by
        rw [g0 _ (by omega), List.getElem?_append_right (by rw [setBox_length]; omega), setBox_length]; simp
      have gold : ∀ j, j < s.heap.length → j ≠ s.cur → h0[j]? = s.heap[j]? := by
        intro j hj hj'
        rw [g0 _ hj', List.getElem?_append_left (by rw [setBox_length]; exact hj), setBox_other _ _ hj']
      have vs : v.size = s.v.size := hp.size
      obtain ⟨s1', T1, r1, d1⟩ := ih (c - s.first) (by omega) s1 rfl hcp.1 (show c ≤ v.size by omega) ⟨none, gp⟩
      have d1stack : s1'.stack = ⟨c, s.last, s.heap.length + 1⟩ :: s.stack := d1.stack
      have d1len : s1'.heap.length = h0.length + 2 * (c - s.first - 1) := d1.size
      let s2 : State := { s1' with stack := s.stack, first := c, last := s.last, cur := s.heap.length + 1 }
      have d1perm : SegPerm s.first c v s1'.v := d1.perm
      have d1v : s1'.v.size = s.v.size := d1perm.size.trans vs
      have d1q : s1'.heap[s.heap.length + 1]? = some ⟨none, []⟩ :=
        (d1.others (s.heap.length + 1) (show _ < h0.length by omega) (show _ ≠ s.heap.length by omega)).trans gq
      obtain ⟨s2', T2, r2, d2⟩ := ih (s.last - c) (by omega) s2 rfl hcp.2 (show s.last ≤ s1'.v.size by omega) ⟨none, d1q⟩
      have d2perm : SegPerm c s.last s1'.v s2'.v := d2.perm
      have d2len : s2'.heap.length = s1'.heap.length + 2 * (s.last - c - 1) := d2.size
      have d2o : ∀ j, j < s1'.heap.length → j ≠ s.heap.length + 1 → s2'.heap[j]? = s1'.heap[j]? := d2.others
      have d1o : ∀ j, j < h0.length → j ≠ s.heap.length → s1'.heap[j]? = h0[j]? := d1.others
      have lv1 : T1.leaves.Perm (segment v s.first c) := d1.leaves
      have lv2 : T2.leaves.Perm (segment v c s.last) := by
        have : T2.leaves.Perm (segment s1'.v c s.last) := d2.leaves
        rwa [d1perm.seg_same (Or.inr (Nat.le_refl _))] at this
      have lv : (T1.leaves ++ T2.leaves).Perm (segment s.v s.first s.last) := by
        have := lv1.append lv2
        rw [segment_append v (by omega) (by omega)] at this
        exact this.trans (hp.seg (by omega))
      refine ⟨s2', .node box T1 T2, ?_, ?_⟩
      · intro fuel
        have e : fuel + (2 * n - 1) = ((fuel + (2 * (s.last - c) - 1)) + (2 * (c - s.first) - 1)) + 1 := by omega
        rw [e, hstep, r1, pop, d1stack]
        exact r2 fuel
      · refine ⟨d2.stack, ?_, by omega, ?_, ?_, lv, ⟨hh.perm lv.symm, ht, d1.hulls, d2.hulls⟩, ?_, ?_⟩
        · exact hp.trans ((d1perm.mono (Nat.le_refl _) (by omega)).trans (d2perm.mono (by omega) (Nat.le_refl _)))
        · intro j hj hj'
          rw [d2o j (by omega) (by omega), d1o j (by omega) (by omega), gold j hj hj']
        · refine .node (p := s.heap.length) (q := s.heap.length + 1) (Or.inl rfl) ?_ ?_ ?_
          · rw [d2o _ (by omega) (by omega), d1o _ (by omega) (by omega)]; exact gcur
          · refine d1.reads.frame ?_
            intro j hj hlt'
            have hj : j = s.heap.length ∨ h0.length ≤ j := hj
            exact ⟨Or.inr (by omega), d2o j hlt' (by omega)⟩
          · refine d2.reads.frame ?_
            intro j hj _
            have hj : j = s.heap.length + 1 ∨ s1'.heap.length ≤ j := hj
            exact ⟨Or.inr (by omega), rfl⟩
        · have a1 : s1'.nodes = s.nodes + 2 + 2 * (c - s.first - 1) := d1.nodes
          have a2 : s2'.nodes = s1'.nodes + 2 * (s.last - c - 1) := d2.nodes
          omega
        · have a1 : s1'.leaves = s.leaves + (c - s.first) := d1.count
          have a2 : s2'.leaves = s1'.leaves + (s.last - c) := d2.count
          omega

end Verif.AABB
