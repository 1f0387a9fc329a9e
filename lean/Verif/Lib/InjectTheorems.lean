import Verif.Lib.Model
/-! Injected actions: replacement, removal and what is reported as ongoing. -/
namespace Verif.Lib

/-! ### Specification -/

/-- An action that has not ended. -/
def Live (a : Act) : Prop := a.st ≠ .complete

instance (a : Act) : Decidable (Live a) := inferInstanceAs (Decidable (_ ≠ _))

/-- Same type of action on the same object. -/
def Rival (a b : Act) : Prop := a.typ = b.typ ∧ a.obj = b.obj

/-- Of any two actions of the same type on the same object at most one has not ended. -/
def OneLive (l : List Act) : Prop := l.Pairwise fun a b => Rival a b → ¬ (Live a ∧ Live b)

/-- The number of frames among events. -/
def frames : List Ev → Nat
  | [] => 0
  | .inject _ :: es => frames es
  | .frame _ :: es => frames es + 1

/-- No event injects an action of that number. -/
def Fresh (k : Nat) (es : List Ev) : Prop := ∀ a, Ev.inject a ∈ es → a.id ≠ k

/-! ### The loop of the server -/

/-- The loop as a function of the rest of the list. -/
def sweep : List Act → List Act
  | [] => []
  | a :: t => bif decide (a.st = .complete) then t.take 2 ++ sweep (t.drop 2) else a :: sweep t
termination_by l => l.length
decreasing_by all_goals simp; try omega

theorem sweep_complete {a : Act} {t : List Act} (h : a.st = .complete) : sweep (a :: t) = t.take 2 ++ sweep (t.drop 2) := by
  rw [sweep]; simp [h]

theorem sweep_live {a : Act} {t : List Act} (h : a.st ≠ .complete) : sweep (a :: t) = a :: sweep t := by
  rw [sweep]; simp [h]

theorem sweep_nil : sweep [] = [] := by rw [sweep]

theorem serverLoop_end {l : List Act} {i : Nat} (h : l.length ≤ i) : serverLoop l i = l := by
  rw [serverLoop]; simp [Nat.not_lt.2 h]

theorem serverLoop_sweep : ∀ (n : Nat) (l pre : List Act), l.length ≤ n → serverLoop (pre ++ l) pre.length = pre ++ sweep l
  | _, [], pre, _ => by rw [serverLoop_end (by simp), sweep_nil]
  | 0, a :: t, pre, h => by simp at h
  | n + 1, a :: t, pre, h => by
    have hlt : pre.length < (pre ++ a :: t).length := by simp
    rw [serverLoop, dif_pos hlt]
    have hget : (pre ++ a :: t)[pre.length] = a := by simp
    rw [hget]
    by_cases hc : a.st = .complete
    · simp only [hc, decide_true, cond_true]
      rw [sweep_complete hc]
      have he : (pre ++ a :: t).eraseIdx pre.length = pre ++ t := by simp [List.eraseIdx_append_of_length_le]
      rw [he]
      rcases t with _ | ⟨b, _ | ⟨c, u⟩⟩
      · rw [serverLoop_end (by simp)]; simp [sweep_nil]
      · rw [serverLoop_end (by simp)]; simp [sweep_nil]
      · have := serverLoop_sweep n u (pre ++ [b, c]) (by simp at h; omega)
        simpa using this
    · simp only [hc, decide_false, cond_false]
      rw [sweep_live hc]
      have := serverLoop_sweep n t (pre ++ [a]) (by simp at h; omega)
      simpa using this

theorem frame_eq (fin : Nat → Bool) (l : List Act) : frame fin l = sweep (engineStep fin l) := by
  have := serverLoop_sweep _ (engineStep fin l) [] (Nat.le_refl _)
  simpa [frame] using this

/-! ### Lemmas -/

theorem sweep_filter_aux : ∀ (n : Nat) (l : List Act), l.length ≤ n →
    (sweep l).filter (fun a => decide (Live a)) = l.filter fun a => decide (Live a)
  | _, [], _ => by rw [sweep_nil]
  | 0, a :: t, h => by simp at h
  | n + 1, a :: t, h => by
    by_cases hc : a.st = .complete
    · rw [sweep_complete hc, List.filter_append, sweep_filter_aux n (t.drop 2) (by simp at h ⊢; omega), ← List.filter_append,
        List.take_append_drop, List.filter_cons_of_neg (by simp [Live, hc])]
    · rw [sweep_live hc, List.filter_cons_of_pos (by simp [Live, hc]), List.filter_cons_of_pos (by simp [Live, hc]),
        sweep_filter_aux n t (by simp at h; omega)]

theorem sweep_sublist_aux : ∀ (n : Nat) (l : List Act), l.length ≤ n → (sweep l).Sublist l
  | _, [], _ => by rw [sweep_nil]; exact List.Sublist.refl _
  | 0, a :: t, h => by simp at h
  | n + 1, a :: t, h => by
    by_cases hc : a.st = .complete
    · rw [sweep_complete hc]
      have h1 := sweep_sublist_aux n (t.drop 2) (by simp at h ⊢; omega)
      have h2 := (List.Sublist.refl (t.take 2)).append h1
      rw [List.take_append_drop] at h2
      exact h2.trans (List.sublist_cons_self a t)
    · rw [sweep_live hc]
      exact (sweep_sublist_aux n t (by simp at h; omega)).cons_cons a

theorem sweep_sublist (l : List Act) : (sweep l).Sublist l := sweep_sublist_aux _ l (Nat.le_refl _)

/-- An element of the swept list comes from the same place or one further back; past an ended action, from further back. -/
theorem sweep_index_aux : ∀ (n : Nat) (l : List Act), l.length ≤ n → ∀ i a, (sweep l)[i]? = some a →
    ∃ j, i ≤ j ∧ l[j]? = some a ∧ ((∃ (k : Nat) (c : Act), k ≤ j ∧ l[k]? = some c ∧ c.st = .complete) → i < j)
  | _, [], _, i, a, h => by rw [sweep_nil] at h; simp at h
  | 0, a :: t, h, _, _, _ => by simp at h
  | n + 1, x :: t, hl, i, a, h => by
    by_cases hc : x.st = .complete
    · rw [sweep_complete hc] at h
      by_cases hi : i < (t.take 2).length
      · rw [List.getElem?_append_left hi, List.getElem?_take_of_lt (by simp at hi; omega)] at h
        exact ⟨i + 1, by omega, by simpa using h, fun _ => by omega⟩
      · rw [List.getElem?_append_right (by omega)] at h
        obtain ⟨j, hj, hja, -⟩ := sweep_index_aux n (t.drop 2) (by simp at hl ⊢; omega) _ a h
        rw [List.getElem?_drop] at hja
        have hlen : (t.take 2).length = 2 := by
          have : 2 + j < t.length := by
            rcases Nat.lt_or_ge (2 + j) t.length with hh | hh
            · exact hh
            · rw [List.getElem?_eq_none hh] at hja
              simp at hja
          simp; omega
        refine ⟨2 + j + 1, by omega, by simpa using hja, fun _ => by omega⟩
    · rw [sweep_live hc] at h
      rcases i with _ | i
      · refine ⟨0, by omega, by simpa using h, ?_⟩
        rintro ⟨k, c, hk, hkc, hcc⟩
        have : k = 0 := by omega
        subst this
        simp at hkc
        exact absurd (hkc ▸ hcc) hc
      · simp only [List.getElem?_cons_succ] at h
        obtain ⟨j, hj, hja, hjk⟩ := sweep_index_aux n t (by simp at hl; omega) i a h
        refine ⟨j + 1, by omega, by simpa using hja, ?_⟩
        rintro ⟨k, c, hk, hkc, hcc⟩
        rcases k with _ | k
        · simp at hkc
          exact absurd (hkc ▸ hcc) hc
        · have := hjk ⟨k, c, by omega, by simpa using hkc, hcc⟩
          omega

theorem sweep_index {l : List Act} {i : Nat} {a : Act} (h : (sweep l)[i]? = some a) :
    ∃ j, i ≤ j ∧ l[j]? = some a ∧ ((∃ (k : Nat) (c : Act), k ≤ j ∧ l[k]? = some c ∧ c.st = .complete) → i < j) :=
  sweep_index_aux _ l (Nat.le_refl _) i a h

theorem nextSt_complete (f : Bool) (s : St) : nextSt f s = .complete ↔ s = .complete ∨ f = true := by
  cases s <;> cases f <;> simp [nextSt]

theorem stepAct_live {fin : Nat → Bool} {a : Act} : Live (stepAct fin a) ↔ Live a ∧ fin a.id = false := by
  simp [Live, stepAct, nextSt_complete]

theorem live_filter_eq {l : List Act} : (∀ a, a ∈ l → Live a) → l.filter (fun a => decide (Live a)) = l := by
  intro h
  exact List.filter_eq_self.2 fun a ha => by simpa using h a ha

/-! ### Theorems -/

/-- Nothing that has not ended is dropped or reordered in a frame, whatever ends beside it. -/
theorem unfinished_kept (fin : Nat → Bool) (l : List Act) :
    (frame fin l).filter (fun a => decide (Live a)) = (l.map (stepAct fin)).filter fun a => decide (Live a) := by
  rw [frame_eq, sweep_filter_aux _ _ (Nat.le_refl _)]; rfl

/-- An action in the list ends only by its own doing or by a rival being injected. -/
theorem ended_by_own_or_rival {e : Ev} {l : List Act} {a : Act} (ha : a ∈ l) (hr : a.st = .running) :
    (∃ b, e = .inject b ∧ Rival a b) ∨ (∃ fin, e = .frame fin ∧ fin a.id = true) ∨ a ∈ step e l := by
  rcases e with b | fin
  · by_cases h : Rival a b
    · exact .inl ⟨b, rfl, h⟩
    · refine .inr (.inr ?_)
      refine List.mem_append_left _ (List.mem_map.2 ⟨a, ha, ?_⟩)
      have : sameKey a b = false := by
        simp only [sameKey, Bool.and_eq_false_iff, decide_eq_false_iff_not]
        by_cases ht : a.typ = b.typ
        · exact .inr fun ho => h ⟨ht, ho⟩
        · exact .inl ht
      simp [stopOld, this]
  · by_cases h : fin a.id = true
    · exact .inr (.inl ⟨fin, rfl, h⟩)
    · refine .inr (.inr ?_)
      have hm : stepAct fin a ∈ (l.map (stepAct fin)).filter fun a => decide (Live a) := by
        refine List.mem_filter.2 ⟨List.mem_map.2 ⟨a, ha, rfl⟩, ?_⟩
        have : Live (stepAct fin a) := stepAct_live.2 ⟨by simp [Live, hr], by simpa using h⟩
        simpa using this
      rw [← unfinished_kept] at hm
      have h2 := (List.mem_filter.1 hm).1
      have h3 : stepAct fin a = a := by
        cases a; simp_all [stepAct, nextSt]
      rwa [h3] at h2

/-- A new action replaces a running one of the same type and object: both are never unfinished together. Missing: an earlier one
that is not yet started. -/
theorem replaced_partial {l : List Act} {new : Act} (h : OneLive l) (hs : ∀ a, a ∈ l → Rival a new → a.st ≠ .init) :
    OneLive (inject new l) := by
  refine List.pairwise_append.2 ⟨?_, List.pairwise_singleton _ _, ?_⟩
  · refine List.pairwise_map.2 (h.imp ?_)
    intro a b hab hr hl
    have e1 : ∀ c : Act, (stopOld new c).typ = c.typ ∧ (stopOld new c).obj = c.obj := by
      intro c; unfold stopOld; cases sameKey c new <;> exact ⟨rfl, rfl⟩
    have e2 : ∀ c : Act, Live (stopOld new c) → Live c := by
      intro c hc hcc
      apply hc
      unfold stopOld
      cases sameKey c new <;> simp [hcc, endSt]
    refine hab ⟨?_, ?_⟩ ⟨e2 _ hl.1, e2 _ hl.2⟩
    · rw [← (e1 a).1, ← (e1 b).1]; exact hr.1
    · rw [← (e1 a).2, ← (e1 b).2]; exact hr.2
  · intro a ha b hb hr hl
    obtain ⟨c, hc, rfl⟩ := List.mem_map.1 ha
    rw [List.mem_singleton] at hb
    subst hb
    have e1 : (stopOld new c).typ = c.typ ∧ (stopOld new c).obj = c.obj := by
      unfold stopOld; cases sameKey c new <;> exact ⟨rfl, rfl⟩
    have hk : Rival c new := ⟨by rw [← e1.1]; exact hr.1, by rw [← e1.2]; exact hr.2⟩
    have hsk : sameKey c new = true := by simp [sameKey, hk.1, hk.2]
    have h0 := hs c hc hk
    apply hl.1
    simp only [stopOld, hsk, cond_true]
    revert h0
    cases c.st <;> simp [endSt]

/-- Frames keep it that way. -/
theorem frame_oneLive {l : List Act} (fin : Nat → Bool) (h : OneLive l) : OneLive (frame fin l) := by
  rw [frame_eq]
  refine List.Pairwise.sublist (sweep_sublist _) (List.pairwise_map.2 (h.imp ?_))
  intro a b hab hr hl
  exact hab hr ⟨(stepAct_live.1 hl.1).1, (stepAct_live.1 hl.2).1⟩

/-- After a frame no action waits to be started, so that an injection per frame always replaces. -/
theorem frame_started {l : List Act} (fin : Nat → Bool) {a : Act} (ha : a ∈ frame fin l) : a.st ≠ .init := by
  rw [frame_eq] at ha
  obtain ⟨b, -, rfl⟩ := List.mem_map.1 ((sweep_sublist _).subset ha)
  simp only [stepAct]
  cases b.st <;> cases fin b.id <;> simp [nextSt]

/-- With at most one injection before each frame at most one action per type and object is unfinished, in every run. -/
theorem one_per_frame_partial (n : Nat) (ps : Fin n → Option Act × (Nat → Bool)) :
    OneLive (run ((List.ofFn ps).flatMap fun p => (p.1.map Ev.inject).toList ++ [Ev.frame p.2]) []) := by
  suffices hh : ∀ (qs : List (Option Act × (Nat → Bool))) (l : List Act), OneLive l → (∀ a, a ∈ l → a.st ≠ .init) →
      OneLive (run (qs.flatMap fun p => (p.1.map Ev.inject).toList ++ [Ev.frame p.2]) l) from
    hh _ [] List.Pairwise.nil (by simp)
  intro qs
  induction qs with
  | nil => intro l h _; exact h
  | cons q qs ih =>
    intro l h hs
    obtain ⟨o, fin⟩ := q
    rw [List.flatMap_cons]
    cases o with
    | none =>
      exact ih (frame fin l) (frame_oneLive fin h) fun a ha => frame_started fin ha
    | some a =>
      exact ih (frame fin (inject a l)) (frame_oneLive fin (replaced_partial h fun b hb _ => hs b hb)) fun a ha => frame_started fin ha

/-- Two injections before the same frame: the first is not stopped. Both run, and when the second ends the first is still at work. -/
theorem replaced_fails : ∃ (a b : Act) (fin : Nat → Bool), Rival a b ∧
    run [.inject a, .inject b, .frame fun _ => false, .frame fin] [] = [{ a with st := .running }] := by
  refine ⟨⟨0, 1, 7, .init⟩, ⟨1, 1, 7, .init⟩, fun k => decide (k = 1), ⟨rfl, rfl⟩, ?_⟩
  simp [run, step, inject, stopOld, sameKey, endSt, frame_eq, engineStep, stepAct, nextSt, sweep_nil, sweep_live, sweep_complete]

/-- Whatever has ended is out of the list after as many frames as its place in the list, whatever is injected meanwhile. Missing:
out of it after the frame in which it ends. -/
theorem finished_gone_partial {es : List Ev} {pre post : List Act} {a : Act} (hc : a.st = .complete)
    (hu : ∀ b, b ∈ pre ++ post → b.id ≠ a.id) (hf : Fresh a.id es) (hn : pre.length < frames es) :
    ∀ b, b ∈ run es (pre ++ a :: post) → b.id ≠ a.id := by
  suffices hh : ∀ (es : List Ev) (l : List Act) (n : Nat), Fresh a.id es → n ≤ frames es →
      (∀ i b, l[i]? = some b → b.id = a.id → i < n ∧ b.st = .complete) → ∀ b, b ∈ run es l → b.id ≠ a.id by
    refine hh es _ (pre.length + 1) hf hn ?_
    intro i b hb hid
    rcases Nat.lt_trichotomy i pre.length with hi | hi | hi
    · rw [List.getElem?_append_left hi] at hb
      exact absurd hid (hu b (List.mem_append_left _ (List.mem_of_getElem? hb)))
    · subst hi
      simp at hb
      exact ⟨by omega, hb ▸ hc⟩
    · rw [List.getElem?_append_right (by omega)] at hb
      obtain ⟨k, hk⟩ : ∃ k, i - pre.length = k + 1 := ⟨i - pre.length - 1, by omega⟩
      rw [hk] at hb
      simp at hb
      exact absurd hid (hu b (List.mem_append_right _ (List.mem_of_getElem? hb)))
  intro es
  induction es with
  | nil =>
    intro l n _ hn hl b hb hid
    change b ∈ l at hb
    obtain ⟨i, hi, rfl⟩ := List.getElem_of_mem hb
    have := hl i l[i] (by simp [hi]) hid
    simp [frames] at hn
    omega
  | cons e es ih =>
    intro l n hf hn hl
    have hf' : Fresh a.id es := fun x hx => hf x (List.mem_cons_of_mem _ hx)
    rcases e with x | fin
    · refine ih (inject x l) n hf' hn ?_
      intro i b hb hid
      by_cases hi : i < (l.map (stopOld x)).length
      · rw [inject, List.getElem?_append_left hi, List.getElem?_map] at hb
        rcases hlb : l[i]? with _ | c
        · rw [hlb] at hb; simp at hb
        · rw [hlb] at hb
          simp only [Option.map_some, Option.some.injEq] at hb
          have hcid : c.id = b.id := by
            rw [← hb]; unfold stopOld; cases sameKey c x <;> rfl
          obtain ⟨h1, h2⟩ := hl i c hlb (hcid.trans hid)
          refine ⟨h1, ?_⟩
          rw [← hb]; unfold stopOld; cases sameKey c x <;> simp [h2, endSt]
      · rw [inject, List.getElem?_append_right (by omega)] at hb
        rw [List.getElem?_singleton] at hb
        split at hb
        · simp only [Option.some.injEq] at hb
          subst hb
          exact absurd hid (hf x (List.mem_cons_self ..))
        · simp at hb
    · refine ih (frame fin l) (n - 1) hf' (by simp [frames] at hn; omega) ?_
      intro i b hb hid
      rw [frame_eq] at hb
      obtain ⟨j, hij, hjb, hlt⟩ := sweep_index hb
      rw [engineStep, List.getElem?_map] at hjb
      rcases hlc : l[j]? with _ | c
      · rw [hlc] at hjb; simp at hjb
      · rw [hlc] at hjb
        simp only [Option.map_some, Option.some.injEq] at hjb
        have hcid : c.id = b.id := by rw [← hjb]; rfl
        obtain ⟨h1, h2⟩ := hl j c hlc (hcid.trans hid)
        have hbc : b.st = .complete := by
          rw [← hjb]; exact (nextSt_complete _ _).2 (.inl h2)
        have := hlt ⟨j, b, Nat.le_refl _, by rw [engineStep, List.getElem?_map, hlc]; simp [hjb], hbc⟩
        exact ⟨by omega, hbc⟩

/-- What has not ended is reported as ongoing. -/
theorem ongoing_live {l : List Act} {a : Act} (ha : a ∈ l) : ongoing a.typ l = true ∧ ongoingAny l = true := by
  refine ⟨List.any_eq_true.2 ⟨a, ha, by simp⟩, ?_⟩
  simp only [ongoingAny, decide_eq_true_eq]
  exact List.length_pos_of_mem ha

/-- If at most one action ends in a frame, exactly the types with an unfinished action are ongoing after it. Missing: several actions
ending in the same frame. -/
theorem ongoing_partial {fin : Nat → Bool} {l pre post : List Act} {a : Act} (he : engineStep fin l = pre ++ a :: post)
    (hp : ∀ b, b ∈ pre ++ post → Live b) :
    (∀ t, ongoing t (frame fin l) = true ↔ ∃ b, b ∈ frame fin l ∧ Live b ∧ b.typ = t) ∧
    (ongoingAny (frame fin l) = true ↔ ∃ b, b ∈ frame fin l ∧ Live b) := by
  have hall : ∀ b, b ∈ frame fin l → Live b := by
    have hpre : ∀ (pre : List Act), (∀ b, b ∈ pre → Live b) → ∀ r, sweep (pre ++ r) = pre ++ sweep r := by
      intro pre
      induction pre with
      | nil => intro _ r; rfl
      | cons x xs ih =>
        intro h r
        rw [List.cons_append, sweep_live (h x (List.mem_cons_self ..)), ih (fun b hb => h b (List.mem_cons_of_mem _ hb)) r]
        rfl
    intro b hb
    rw [frame_eq, he, hpre pre (fun b hb => hp b (List.mem_append_left _ hb))] at hb
    rcases List.mem_append.1 hb with h | h
    · exact hp b (List.mem_append_left _ h)
    · by_cases hc : a.st = .complete
      · rw [sweep_complete hc] at h
        have hs : (post.take 2 ++ sweep (post.drop 2)).Sublist post := by
          have := (List.Sublist.refl (post.take 2)).append (sweep_sublist (post.drop 2))
          rwa [List.take_append_drop] at this
        exact hp b (List.mem_append_right _ (hs.subset h))
      · have := (sweep_sublist _).subset h
        rcases List.mem_cons.1 this with h1 | h1
        · rw [h1]; exact hc
        · exact hp b (List.mem_append_right _ h1)
  constructor
  · intro t
    simp only [ongoing, List.any_eq_true, decide_eq_true_eq]
    constructor
    · rintro ⟨b, hb, ht⟩; exact ⟨b, hb, hall b hb, ht⟩
    · rintro ⟨b, hb, -, ht⟩; exact ⟨b, hb, ht⟩
  · simp only [ongoingAny, decide_eq_true_eq]
    constructor
    · intro h
      obtain ⟨b, hb⟩ := List.exists_mem_of_length_pos h
      exact ⟨b, hb, hall b hb⟩
    · rintro ⟨b, hb, -⟩; exact List.length_pos_of_mem hb

/-- Two actions on different objects ending in the same frame: the second is still reported as ongoing after it, and its `Step` is
called again in the next frame. -/
theorem ongoing_fails : ∃ (a b : Act), ¬ Rival a b ∧
    ongoing b.typ (run [.inject a, .frame fun _ => false, .inject b, .frame fun _ => false, .frame fun _ => true] []) = true ∧
    (∀ c, c ∈ run [.inject a, .frame fun _ => false, .inject b, .frame fun _ => false, .frame fun _ => true] [] → ¬ Live c) ∧
    { b with st := .complete } ∈
      stepped (run [.inject a, .frame fun _ => false, .inject b, .frame fun _ => false, .frame fun _ => true] []) := by
  refine ⟨⟨0, 1, 7, .init⟩, ⟨1, 2, 8, .init⟩, by simp [Rival], ?_⟩
  have h : run [.inject ⟨0, 1, 7, .init⟩, .frame fun _ => false, .inject ⟨1, 2, 8, .init⟩, .frame fun _ => false, .frame fun _ => true] []
      = [⟨1, 2, 8, .complete⟩] := by
    simp [run, step, inject, stopOld, sameKey, frame_eq, engineStep, stepAct, nextSt, sweep_nil, sweep_live, sweep_complete]
  rw [h]
  decide

/-- A stopped action is carried out once more: after every injection that replaces a running action, the next frame calls `Step` of
the stopped one. -/
theorem stopped_stepped_fails {l : List Act} {a new : Act} (ha : a ∈ l) (hr : a.st = .running) (hk : Rival a new) :
    { a with st := .complete } ∈ stepped (inject new l) := by
  refine List.mem_filter.2 ⟨List.mem_append_left _ (List.mem_map.2 ⟨a, ha, ?_⟩), by simp⟩
  have hsk : sameKey a new = true := by simp [sameKey, hk.1, hk.2]
  simp [stopOld, hsk, hr, endSt]

/-! ### The hypotheses are met -/

example : OneLive [⟨0, 1, 7, .running⟩, ⟨1, 2, 7, .running⟩] ∧
    (∀ a, a ∈ [(⟨0, 1, 7, .running⟩ : Act), ⟨1, 2, 7, .running⟩] → Rival a ⟨2, 1, 7, .init⟩ → a.st ≠ .init) ∧
    inject ⟨2, 1, 7, .init⟩ [⟨0, 1, 7, .running⟩, ⟨1, 2, 7, .running⟩] =
      [⟨0, 1, 7, .complete⟩, ⟨1, 2, 7, .running⟩, ⟨2, 1, 7, .init⟩] := by
  refine ⟨by simp [OneLive, Rival], by simp, by decide⟩

example : run [.frame fun _ => false, .inject ⟨9, 3, 3, .init⟩, .frame fun _ => false]
    ([⟨0, 1, 7, .complete⟩] ++ (⟨1, 2, 8, .complete⟩ : Act) :: [⟨2, 3, 7, .running⟩]) = [⟨2, 3, 7, .running⟩, ⟨9, 3, 3, .running⟩] := by
  simp [run, step, inject, stopOld, sameKey, frame_eq, engineStep, stepAct, nextSt, sweep_nil, sweep_complete]

example : engineStep (fun k => decide (k = 1)) [⟨0, 1, 7, .running⟩, ⟨1, 2, 7, .running⟩, ⟨2, 1, 8, .init⟩] =
      [⟨0, 1, 7, .running⟩] ++ (⟨1, 2, 7, .complete⟩ : Act) :: [⟨2, 1, 8, .running⟩] ∧
    frame (fun k => decide (k = 1)) [⟨0, 1, 7, .running⟩, ⟨1, 2, 7, .running⟩, ⟨2, 1, 8, .init⟩] =
      [⟨0, 1, 7, .running⟩, ⟨2, 1, 8, .running⟩] := by
  refine ⟨by decide, ?_⟩
  simp [frame_eq, engineStep, stepAct, nextSt, sweep_nil, sweep_live, sweep_complete]

end Verif.Lib
