import Verif.Dat.RecordingFrames
import Verif.Replay.TimelineTheorems

/-
C16: a change-only recording replays what was recorded.
-/
namespace Verif.Dat
open Verif.Common Verif.Replay

/-- Specification: two values which count as equal. Numbers that move in every frame are recorded when they have moved
by the tolerance, everything else exactly. -/
def Close (q : Quantity) (recorded actual : Val) : Prop :=
  recorded = actual ∨ (q.kind = .near ∧ ∃ x y, recorded = .nums [x] ∧ actual = .nums [y] ∧ -small < x - y ∧ x - y < small)

/-- Specification: the times of the frames. -/
def Increasing (fs : List Frame) : Prop := fs.Pairwise (fun f g => f.time + 2 * small ≤ g.time)

/-- Specification: the object is part of the frame. -/
def Present (f : Frame) (id : Int) : Prop := id ∈ f.objs.map (·.1)

theorem close_of_unchanged {q : Quantity} {a b : Val} (hk : q.kind ≠ .once) (h : changed q a b = false) : Close q a b := by
  unfold changed at h
  cases hq : q.kind with
  | once => exact absurd hq hk
  | exact =>
    rw [hq] at h
    left
    simpa using h
  | near =>
    rw [hq] at h
    right
    refine ⟨hq, ?_⟩
    simp only at h
    split at h
    · next x y =>
      refine ⟨x, y, rfl, rfl, ?_⟩
      have : nearNumbers x y = true := by simpa using h
      rw [near_iff] at this
      constructor <;> grind
    · simp at h

theorem unchanged_default {q : Quantity} {b : Val} (hk : q.kind ≠ .once) (h : changed q q.default b = false) :
    b = q.default := by
  cases q <;> simp_all [changed, Quantity.kind, Quantity.default]

theorem inForce_append {α : Type} {l l' : List (Rat × α)} {t : Rat} {e : Rat × α} (h : InForce l t e)
    (h' : ∀ f ∈ l', t + small < f.1) : InForce (l ++ l') t e := by
  obtain ⟨i, h1, h2, h3⟩ := h
  have hi := (List.getElem?_eq_some_iff.1 h1).1
  refine ⟨i, by rw [List.getElem?_append_left hi]; exact h1, h2, ?_⟩
  intro j f hj hf
  by_cases hl : j < l.length
  · rw [List.getElem?_append_left hl] at hf
    exact h3 j f hj hf
  · rw [List.getElem?_append_right (by omega)] at hf
    exact h' f (List.mem_of_getElem? hf)

theorem inForce_last {α : Type} {l : List (Rat × α)} {t : Rat} {e : Rat × α} (h : l.getLast? = some e)
    (ht : e.1 ≤ t + small) : InForce l t e := by
  have hne : l ≠ [] := by intro hn; simp [hn] at h
  have hlen : 0 < l.length := List.length_pos_iff.2 hne
  refine ⟨l.length - 1, by rw [← List.getLast?_eq_getElem?]; exact h, Or.inl ht, ?_⟩
  intro j f hj hf
  have := (List.getElem?_eq_some_iff.1 hf).1
  omega

/-- What holds between two frames. -/
structure Inv (done : List Frame) (w : Writer) (r : Reader) : Prop where
  parsed : parse {} w.out = .ok r
  ts : w.tsWritten = false
  idw : w.idWritten = false
  nodup : w.prev.Nodup
  cachePrev : ∀ id, (w.cache id).isSome = true ↔ id ∈ w.prev
  link : ∀ id q, w.cached id q = q.default ∨ ∃ τ, (r.tl id q).getLast? = some (τ, w.cached id q)
  origin : ∀ id q, w.cached id q = q.default ∨ ∃ f ∈ done, ∃ v, (id, v) ∈ f.objs ∧ v q = w.cached id q
  times : ∀ id q e, e ∈ r.tl id q → ∃ f ∈ done, f.time = e.1
  sep : ∀ id q, Separated (r.tl id q)
  right : ∀ f ∈ done, ∀ id v q, (id, v) ∈ f.objs → q.kind ≠ .once → v q ≠ q.default →
    ∃ e, InForce (r.tl id q) f.time e ∧ Close q e.2 (v q)
  unknown : ∀ id, r.known id = false → ∀ f ∈ done, ¬Present f id
  prevKnown : ∀ id ∈ w.prev, r.known id = true
  actTimes : ∀ id e, r.known id = true → e ∈ r.active id → e.1 = 0 ∨ ∃ f ∈ done, f.time = e.1
  actLast : ∀ id, r.known id = true → ∃ τ, (r.active id).getLast? = some (τ, decide (id ∈ w.prev))
  act : ∀ f ∈ done, ∀ id, r.known id = true →
    ∃ e, InForce (r.active id) f.time e ∧ (e.2 = true ↔ Present f id)

theorem anyChanged_default (v : Values) : anyChanged Quantity.default v = true := by
  simp [anyChanged, quantities, changed, Quantity.kind, Quantity.default]

/-- Specification: every quantity has its type. -/
def Typed : Quantity → Val → Prop
  | .speed, v | .wheelAngle, v | .wheelRot, v | .posOffset, v | .posT, v | .posS, v | .refpointX, v | .modelX, v =>
    ∃ x, v = .nums [x]
  | .name, v | .model3d, v | .bbColor, v => ∃ s, v = .str s
  | .pose, v | .boundingBox, v | .outline, v => ∃ l, v = .nums l
  | _, v => ∃ i, v = .int i

theorem blank_unchanged {q : Quantity} {v : Val} (hv : Typed q v) (hb : blank v = true) :
    changed q v v = false ∧ q.default = v := by
  have hbq : v = .str [] := by
    revert hb; unfold blank; split <;> simp_all
  subst hbq
  cases q <;> simp [Typed] at hv <;> decide

theorem added_times {t : Rat} {q : Quantity} {a b : Val} {e : Rat × Val} (h : e ∈ added t q a b) : e = (t, b) := by
  unfold added at h; split at h <;> simp_all

theorem Inv.step {done : List Frame} {w : Writer} {r : Reader} (h : Inv done w r) (f : Frame)
    (hnd : (f.objs.map (·.1)).Nodup) (ht0 : 0 ≤ f.time) (hty : ∀ o ∈ f.objs, ∀ q, Typed q (o.2 q))
    (hd0 : ∀ g ∈ done, 0 ≤ g.time) (ht : ∀ g ∈ done, g.time + 2 * small ≤ f.time) :
    (Rejected (w.writeFrame f) ∧
      ∃ j v q g v', (j, v) ∈ f.objs ∧ g ∈ done ∧ (j, v') ∈ g.objs ∧ blank (v q) = true ∧ v' q ≠ v q) ∨
    ∃ r', Inv (done ++ [f]) (w.writeFrame f) r' := by
  have hsp := small_pos
  rcases writeFrame_spec f hnd h.parsed h.ts h.idw h.nodup with ⟨hr, j, v, q, ha, hb, hc⟩ | ⟨r', a1, a2, a3, a4, a5, a6⟩
  · left
    refine ⟨hr, j, v, q, ?_⟩
    obtain ⟨hu, hd⟩ := blank_unchanged (hty _ ha q) hb
    simp only at hu hd
    rcases h.origin j q with ho | ⟨g, hg, v', hv', ho⟩
    · exfalso
      rw [ho, hd, hu] at hc
      simp at hc
    · refine ⟨g, v', ha, hg, hv', hb, ?_⟩
      rw [ho]
      intro he
      rw [he, hu] at hc
      simp at hc
  right
  have hmem : ∀ {j v}, (j, v) ∈ f.objs → j ∈ f.objs.map (·.1) := fun hv => List.mem_map_of_mem (f := (·.1)) hv
  have hpres : ∀ {j}, j ∈ f.objs.map (·.1) → ∃ v, (j, v) ∈ f.objs := by
    intro j hj
    obtain ⟨⟨x, v⟩, h1, rfl⟩ := List.mem_map.1 hj
    exact ⟨v, h1⟩
  have hcached : ∀ {j v}, (j, v) ∈ f.objs → (w.writeFrame f).cached j = fun q => updated q (w.cached j q) (v q) := by
    intro j v hv
    simp [Writer.cached, (a5 j v hv).1]
  have hcached' : ∀ {j}, j ∉ f.objs.map (·.1) → (w.writeFrame f).cached j = Quantity.default := by
    intro j hj
    rw [Writer.cached, (a6 j hj).1]
    by_cases hp : j ∈ w.prev
    · simp [hp]
    · have : w.cache j = none := by
        have := (not_congr (h.cachePrev j)).2 hp
        simpa using this
      simp [hp, this]
  have hfresh : ∀ {j}, j ∉ w.prev → w.cached j = Quantity.default := by
    intro j hp
    have : w.cache j = none := by
      have := (not_congr (h.cachePrev j)).2 hp
      simpa using this
    simp [Writer.cached, this]
  -- the new timelines
  have htl : ∀ j q, ∃ l, r'.tl j q = r.tl j q ++ l ∧ (∀ e ∈ l, e.1 = f.time) ∧ l.length ≤ 1 := by
    intro j q
    by_cases hj : j ∈ f.objs.map (·.1)
    · obtain ⟨v, hv⟩ := hpres hj
      refine ⟨_, (a5 j v hv).2.1 q, fun e he => by rw [added_times he], ?_⟩
      unfold added; split <;> simp
    · exact ⟨[], by rw [(a6 j hj).2.1 q]; simp, by simp, by simp⟩
  -- the new activity
  have hac : ∀ j, r'.known j = true → (r.known j = true ∧ ∃ l, r'.active j = r.active j ++ l ∧ (∀ e ∈ l, e.1 = f.time)) ∨
      (r.known j = false ∧ j ∈ f.objs.map (·.1) ∧
        r'.active j = if f.time > 0 then [(0, false), (f.time, true)] else [(f.time, true)]) := by
    intro j hk
    by_cases hj : j ∈ f.objs.map (·.1)
    · obtain ⟨v, hv⟩ := hpres hj
      obtain ⟨_, _, b3, b4⟩ := a5 j v hv
      cases hkn : r.known j with
      | true =>
        left
        refine ⟨rfl, ?_⟩
        rw [b3]
        unfold activateAt
        rw [hkn]
        split
        · simp only [Bool.true_eq_false, if_false]
          split
          · exact ⟨[], by simp, by simp⟩
          · exact ⟨_, rfl, by simp⟩
        · exact ⟨[], by simp, by simp⟩
      | false =>
        right
        refine ⟨rfl, hj, ?_⟩
        rw [hkn, Bool.or_false] at b4
        rw [b3]
        rw [b4] at hk
        simp [hk, activateAt, hkn]
    · obtain ⟨_, _, b3, b4⟩ := a6 j hj
      by_cases hp : j ∈ w.prev
      · left
        have hkn := h.prevKnown j hp
        refine ⟨hkn, ?_⟩
        rw [b3, if_pos hp]
        unfold activateAt
        rw [hkn]
        simp only [Bool.true_eq_false, if_false]
        split
        · exact ⟨_, rfl, by simp⟩
        · exact ⟨_, List.append_assoc _ _ _, by simp⟩
      · left
        rw [b4, if_neg hp] at hk
        exact ⟨hk, [], by rw [b3, if_neg hp]; simp, by simp⟩
  have hlast : ∀ id, r'.known id = true → ∃ τ, (r'.active id).getLast? = some (τ, decide (id ∈ f.objs.map (·.1))) ∧
      τ ≤ f.time := by
    intro id hk
    have hbound : ∀ τ b, r.known id = true → (r.active id).getLast? = some (τ, b) → τ ≤ f.time := by
      intro τ b hkn hτ
      rcases h.actTimes id _ hkn (List.mem_of_getLast? hτ) with h0 | ⟨g, hg, he⟩
      · simp only at h0; grind
      · have := ht g hg; simp only at he; grind
    by_cases hj : id ∈ f.objs.map (·.1)
    · obtain ⟨v, hv⟩ := hpres hj
      obtain ⟨_, _, b3, b4⟩ := a5 id v hv
      simp only [hj, decide_true]
      by_cases hp : id ∈ w.prev
      · have hkn := h.prevKnown id hp
        obtain ⟨τ, hτ⟩ := h.actLast id hkn
        simp only [hp, decide_true] at hτ
        refine ⟨τ, ?_, hbound τ _ hkn hτ⟩
        rw [b3]
        unfold activateAt
        simp [hkn, hτ]
      · rw [b3, hfresh hp, if_pos (anyChanged_default v)]
        unfold activateAt
        cases hkn : r.known id with
        | false =>
          simp only [if_true]
          refine ⟨f.time, ?_, Rat.le_refl⟩
          split <;> simp
        | true =>
          obtain ⟨τ, hτ⟩ := h.actLast id hkn
          simp only [hp, decide_false] at hτ
          refine ⟨f.time, ?_, Rat.le_refl⟩
          simp [hτ]
    · obtain ⟨_, _, b3, b4⟩ := a6 id hj
      simp only [hj, decide_false]
      by_cases hp : id ∈ w.prev
      · exact ⟨f.time, by rw [b3, if_pos hp]; simp, Rat.le_refl⟩
      · rw [b4, if_neg hp] at hk
        obtain ⟨τ, hτ⟩ := h.actLast id hk
        simp only [hp, decide_false] at hτ
        exact ⟨τ, by rw [b3, if_neg hp]; exact hτ, hbound τ _ hk hτ⟩
  refine ⟨r', a1, a2, a3, by rw [a4]; exact hnd, ?_, ?_, ?_, ?_, ?_, ?_, ?_, ?_, ?_, ?_, ?_⟩
  · -- cachePrev
    intro id
    rw [a4]
    by_cases hj : id ∈ f.objs.map (·.1)
    · obtain ⟨v, hv⟩ := hpres hj
      simp [(a5 id v hv).1, hj]
    · have : (w.writeFrame f).cache id = none := by
        rw [(a6 id hj).1]
        by_cases hp : id ∈ w.prev
        · simp [hp]
        · have := (not_congr (h.cachePrev id)).2 hp
          simpa [hp] using this
      simp only [this, hj, Option.isSome_none, Bool.false_eq_true]
  · -- link
    intro id q
    by_cases hj : id ∈ f.objs.map (·.1)
    · obtain ⟨v, hv⟩ := hpres hj
      rw [hcached hv, (a5 id v hv).2.1 q]
      unfold updated added
      by_cases hc : changed q (w.cached id q) (v q) = true
      · right; simp [hc]
      · simp only [hc]
        rcases h.link id q with h1 | h1
        · exact Or.inl h1
        · right; simpa using h1
    · left; rw [hcached' hj]
  · -- origin
    intro id q
    by_cases hj : id ∈ f.objs.map (·.1)
    · obtain ⟨v, hv⟩ := hpres hj
      rw [hcached hv]
      unfold updated
      by_cases hc : changed q (w.cached id q) (v q) = true
      · right; exact ⟨f, by simp, v, hv, by simp [hc]⟩
      · simp only [hc]
        rcases h.origin id q with h1 | ⟨g, hg, v', h1, h2⟩
        · exact Or.inl h1
        · right; exact ⟨g, by simp [hg], v', h1, by simpa using h2⟩
    · left; rw [hcached' hj]
  · -- times
    intro id q e he
    obtain ⟨l, h1, h2, _⟩ := htl id q
    rw [h1, List.mem_append] at he
    rcases he with he | he
    · obtain ⟨g, hg, hge⟩ := h.times id q e he
      exact ⟨g, by simp [hg], hge⟩
    · exact ⟨f, by simp, (h2 e he).symm⟩
  · -- sep
    intro id q
    obtain ⟨l, h1, h2, h3⟩ := htl id q
    rw [h1]
    refine List.pairwise_append.2 ⟨h.sep id q, ?_, ?_⟩
    · match l, h3 with
      | [], _ => exact List.Pairwise.nil
      | [x], _ => exact List.pairwise_singleton _ _
    · intro a ha b hb
      obtain ⟨g, hg, hge⟩ := h.times id q a ha
      rw [h2 b hb, ← hge]
      exact ht g hg
  · -- right
    intro g hg id v q hv hk hd
    rw [List.mem_append, List.mem_singleton] at hg
    rcases hg with hg | rfl
    · obtain ⟨e, h1, h2⟩ := h.right g hg id v q hv hk hd
      obtain ⟨l, k1, k2, _⟩ := htl id q
      refine ⟨e, ?_, h2⟩
      rw [k1]
      refine inForce_append h1 ?_
      intro x hx
      rw [k2 x hx]
      have := ht g hg
      grind
    · rw [(a5 id v hv).2.1 q]
      unfold added
      by_cases hc : changed q (w.cached id q) (v q) = true
      · rw [if_pos hc]
        exact ⟨(g.time, v q), inForce_last (by simp) (by simp only; grind), Or.inl rfl⟩
      · rw [if_neg hc, List.append_nil]
        have hc' : changed q (w.cached id q) (v q) = false := by simpa using hc
        rcases h.link id q with h1 | ⟨τ, h1⟩
        · exfalso
          rw [h1] at hc'
          exact hd (unchanged_default hk hc')
        · refine ⟨_, inForce_last h1 ?_, close_of_unchanged hk hc'⟩
          obtain ⟨g', hg', he⟩ := h.times id q _ (List.mem_of_getLast? h1)
          have := ht g' hg'
          simp only at he ⊢
          grind
  · -- unknown
    intro id hk g hg
    rw [List.mem_append, List.mem_singleton] at hg
    have hnotin : id ∉ f.objs.map (·.1) := by
      intro hj
      obtain ⟨v, hv⟩ := hpres hj
      have hk' := (a5 id v hv).2.2.2
      rw [hk'] at hk
      have hkn : r.known id = false := by
        cases hh : r.known id <;> simp [hh] at hk ⊢
      have hp : id ∉ w.prev := fun hp => by simp [h.prevKnown id hp] at hkn
      rw [hfresh hp, anyChanged_default] at hk
      simp at hk
    rcases hg with hg | rfl
    · have hk' := (a6 id hnotin).2.2.2
      rw [hk'] at hk
      refine h.unknown id ?_ g hg
      by_cases hp : id ∈ w.prev
      · simp [hp] at hk
      · simpa [hp] using hk
    · exact hnotin
  · -- prevKnown
    intro id hid
    rw [a4] at hid
    obtain ⟨v, hv⟩ := hpres hid
    rw [(a5 id v hv).2.2.2]
    by_cases hp : id ∈ w.prev
    · simp [h.prevKnown id hp]
    · rw [hfresh hp, anyChanged_default]; rfl
  · -- actTimes
    intro id e hk he
    rcases hac id hk with ⟨hkn, l, h1, h2⟩ | ⟨hkn, hj, h1⟩
    · rw [h1, List.mem_append] at he
      rcases he with he | he
      · rcases h.actTimes id e hkn he with h0 | ⟨g, hg, hge⟩
        · exact Or.inl h0
        · exact Or.inr ⟨g, by simp [hg], hge⟩
      · exact Or.inr ⟨f, by simp, (h2 e he).symm⟩
    · rw [h1] at he
      split at he
      · simp only [List.mem_cons, List.not_mem_nil, or_false] at he
        rcases he with rfl | rfl
        · exact Or.inl rfl
        · exact Or.inr ⟨f, by simp, rfl⟩
      · simp only [List.mem_cons, List.not_mem_nil, or_false] at he
        subst he
        exact Or.inr ⟨f, by simp, rfl⟩
  · -- actLast
    intro id hk
    obtain ⟨τ, h1, _⟩ := hlast id hk
    rw [a4]
    exact ⟨τ, h1⟩
  · -- act
    intro g hg id hk
    rw [List.mem_append, List.mem_singleton] at hg
    rcases hg with hg | rfl
    · have htg := ht g hg
      rcases hac id hk with ⟨hkn, l, h1, h2⟩ | ⟨hkn, hj, h1⟩
      · obtain ⟨e, k1, k2⟩ := h.act g hg id hkn
        refine ⟨e, ?_, k2⟩
        rw [h1]
        refine inForce_append k1 ?_
        intro x hx
        rw [h2 x hx]
        grind
      · have h0 := hd0 g hg
        have hpos : f.time > 0 := by grind
        rw [h1, if_pos hpos]
        refine ⟨(0, false), ⟨0, rfl, Or.inr rfl, ?_⟩, ?_⟩
        · intro j x hj hx
          match j with
          | 1 => simp at hx; subst hx; simp only; grind
          | j + 2 => simp at hx
        · simp [h.unknown id hkn g hg]
    · obtain ⟨τ, h1, h2⟩ := hlast id hk
      refine ⟨_, inForce_last h1 (by simp only; grind), ?_⟩
      simp [Present]

/-- Specification: the frames handed to the recorder: times apart by twice the tolerance and not negative, each object
once per frame, values of the right type. -/
structure Recordable (fs : List Frame) : Prop where
  times : Increasing fs
  nonneg : ∀ f ∈ fs, 0 ≤ f.time
  once : ∀ f ∈ fs, (f.objs.map (·.1)).Nodup
  typed : ∀ f ∈ fs, ∀ o ∈ f.objs, ∀ q, Typed q (o.2 q)

/-- Specification: a text of an object that was not empty is empty later. -/
def Emptied (fs : List Frame) : Prop :=
  ∃ g ∈ fs, ∃ f ∈ fs, ∃ j v v' q, (j, v') ∈ g.objs ∧ (j, v) ∈ f.objs ∧ blank (v q) = true ∧ v' q ≠ v q

theorem frames_out (fs : List Frame) (w : Writer) : ∃ l, (fs.foldl Writer.writeFrame w).out = w.out ++ l := by
  induction fs generalizing w with
  | nil => exact ⟨[], by simp⟩
  | cons f fs ih =>
    obtain ⟨l, hl⟩ := ih (w.writeFrame f)
    obtain ⟨l', hl'⟩ := writeFrame_out f w
    exact ⟨l' ++ l, by simp [hl, hl']⟩

theorem Inv.frames {done fs : List Frame} (hrec : Recordable (done ++ fs)) {w : Writer} {r : Reader} (h : Inv done w r) :
    (Rejected (fs.foldl Writer.writeFrame w) ∧ Emptied (done ++ fs)) ∨
    ∃ r', Inv (done ++ fs) (fs.foldl Writer.writeFrame w) r' := by
  induction fs generalizing done w r with
  | nil => exact Or.inr ⟨r, by simpa using h⟩
  | cons f fs ih =>
    have hf : f ∈ done ++ f :: fs := by simp
    have hd : ∀ g ∈ done, g ∈ done ++ f :: fs := fun g hg => by simp [hg]
    have e : done ++ f :: fs = (done ++ [f]) ++ fs := by simp
    have htimes := (List.pairwise_append.1 hrec.times).2.2
    rcases h.step f (hrec.once f hf) (hrec.nonneg f hf) (hrec.typed f hf) (fun g hg => hrec.nonneg g (hd g hg))
      (fun g hg => htimes g hg f (by simp)) with ⟨hr, j, v, q, g, v', h1, h2, h3, h4, h5⟩ | ⟨r', h'⟩
    · left
      obtain ⟨l, hl⟩ := frames_out fs (w.writeFrame f)
      exact ⟨hr.append l hl, g, hd g h2, f, hf, j, v, v', q, h3, h1, h4, h5⟩
    · rw [e] at hrec ⊢
      exact ih hrec h'

theorem Inv.initial : Inv [] {} {} where
  parsed := rfl
  ts := rfl
  idw := rfl
  nodup := List.nodup_nil
  cachePrev := by simp
  link := by simp [Writer.cached]
  origin := by simp [Writer.cached]
  times := by simp
  sep := by intro id q; exact List.Pairwise.nil
  right := by simp
  unknown := by simp
  prevKnown := by simp
  actTimes := by simp
  actLast := by simp
  act := by simp

theorem parse_end {w : Writer} {r : Reader} (t : Rat) (h : parse {} w.out = .ok r) :
    parse {} (w.write (.endOfScenario t)).out = .ok r := by
  simp only [Writer.write, Pkt.needsObjId, Pkt.isEnd]
  simp only [if_true, Bool.false_eq_true, if_false]
  rw [parse_snoc, h]
  rfl

theorem record_inv (fs : List Frame) (hrec : Recordable fs) :
    (parse {} (record fs) = .error .rejected ∧ Emptied fs) ∨
    ∃ w R, parse {} (record fs) = .ok R ∧ Inv fs w R := by
  rcases Inv.frames (done := []) (fs := fs) (by simpa using hrec) Inv.initial with ⟨h1, h2⟩ | ⟨r, h⟩
  · left
    simp only [List.nil_append] at h2
    refine ⟨?_, h2⟩
    unfold record
    simp only
    obtain ⟨l, hl⟩ := write_out (fs.foldl Writer.writeFrame {}) (.endOfScenario (fs.foldl Writer.writeFrame {}).simTime)
    exact h1.append l hl
  · right
    simp only [List.nil_append] at h
    exact ⟨_, r, parse_end _ h.parsed, h⟩

/-- **C16**: unless a text of an object becomes empty, the recording is accepted when it is replayed. -/
theorem recording_accepted (fs : List Frame) (hrec : Recordable fs) (hne : ¬Emptied fs) :
    ∃ R, parse {} (record fs) = .ok R := by
  rcases record_inv fs hrec with ⟨_, h⟩ | ⟨_, R, h, _⟩
  · exact absurd h hne
  · exact ⟨R, h⟩

/-- **C16**: the recorder never writes a value that belongs to no object. -/
theorem recording_defined (fs : List Frame) (hrec : Recordable fs) : parse {} (record fs) ≠ .error .undefined := by
  rcases record_inv fs hrec with ⟨h, _⟩ | ⟨_, R, h, _⟩ <;> rw [h] <;> simp

/-- **C16** (partial): what is in force in the replay at the time of a frame is what was recorded in that frame, for
values other than the recorder's initial ones and other than outline and box colour. -/
theorem replay_faithful_partial (fs : List Frame) (hrec : Recordable fs) (R : Reader)
    (hR : parse {} (record fs) = .ok R) (f : Frame) (hf : f ∈ fs) (id : Int) (v : Values) (hv : (id, v) ∈ f.objs)
    (q : Quantity) (hk : q.kind ≠ .once) (hd : v q ≠ q.default) :
    ∃ e, InForce (R.tl id q) f.time e ∧ Close q e.2 (v q) := by
  rcases record_inv fs hrec with ⟨h, _⟩ | ⟨_, R', h, hinv⟩
  · rw [hR] at h; simp at h
  · rw [hR] at h
    obtain rfl : R = R' := by simpa using h
    exact hinv.right f hf id v q hv hk hd

/-- **C16**, with the lookup: asking the replay for the quantity at the time of the frame gives the recorded value. -/
theorem replay_lookup_partial (fs : List Frame) (hrec : Recordable fs) (R : Reader)
    (hR : parse {} (record fs) = .ok R) (f : Frame) (hf : f ∈ fs) (id : Int) (v : Values) (hv : (id, v) ∈ f.objs)
    (q : Quantity) (hk : q.kind ≠ .once) (hd : v q ≠ q.default) (tl : Timeline Val) (htl : tl.values = R.tl id q)
    (hinv : tl.Inv) (hlarge : f.time + small ≤ large) :
    ∃ tl' x, getValueIncremental tl f.time = some (tl', some x) ∧ Close q x (v q) ∧ tl'.Inv ∧ tl'.values = R.tl id q := by
  rcases record_inv fs hrec with ⟨h, _⟩ | ⟨_, R', h, hi⟩
  · rw [hR] at h; simp at h
  · rw [hR] at h
    obtain rfl : R = R' := by simpa using h
    obtain ⟨e, h1, h2⟩ := hi.right f hf id v q hv hk hd
    have hsep : Separated tl.values := by rw [htl]; exact hi.sep id q
    have hne : tl.values ≠ [] := by
      rw [htl]
      intro hn
      rw [hn] at h1
      obtain ⟨i, h1, _⟩ := h1
      simp at h1
    obtain ⟨tl', e', k1, k2, k3, k4⟩ := lookup_in_force tl hsep hne hinv f.time hlarge
    rw [htl] at k2
    rw [inForce_unique h1 k2] at h2
    exact ⟨tl', e'.2, k1, h2, k3, k4.trans htl⟩

/-- **C16**: between two frames the replay shows the state of the earlier one. -/
theorem replay_between_partial (fs : List Frame) (hrec : Recordable fs) (R : Reader)
    (hR : parse {} (record fs) = .ok R) (f : Frame) (hf : f ∈ fs) (id : Int) (v : Values) (hv : (id, v) ∈ f.objs)
    (q : Quantity) (hk : q.kind ≠ .once) (hd : v q ≠ q.default) (t : Rat) (ht : f.time ≤ t)
    (hnext : ∀ g ∈ fs, g.time ≤ f.time ∨ t + small < g.time) :
    ∃ e, InForce (R.tl id q) t e ∧ Close q e.2 (v q) := by
  have hsp := small_pos
  rcases record_inv fs hrec with ⟨h, _⟩ | ⟨_, R', h, hi⟩
  · rw [hR] at h; simp at h
  · rw [hR] at h
    obtain rfl : R = R' := by simpa using h
    obtain ⟨e, ⟨i, h1, h2, h3⟩, h4⟩ := hi.right f hf id v q hv hk hd
    refine ⟨e, ⟨i, h1, ?_, ?_⟩, h4⟩
    · rcases h2 with h2 | h2
      · left; grind
      · exact Or.inr h2
    · intro j x hj hx
      have h5 := h3 j x hj hx
      obtain ⟨g, hg, he⟩ := hi.times id q x (List.mem_of_getElem? hx)
      rcases hnext g hg with h6 | h6
      · grind
      · rw [← he]; exact h6

/-- **C16**: an object that is ever replayed is shown at the time of a frame exactly when it was part of that frame. -/
theorem replay_presence (fs : List Frame) (hrec : Recordable fs) (R : Reader) (hR : parse {} (record fs) = .ok R)
    (f : Frame) (hf : f ∈ fs) (id : Int) :
    (R.known id = true ∧ ∃ e, InForce (R.active id) f.time e ∧ (e.2 = true ↔ Present f id)) ∨
    (R.known id = false ∧ ∀ g ∈ fs, ¬Present g id) := by
  rcases record_inv fs hrec with ⟨h, _⟩ | ⟨_, R', h, hi⟩
  · rw [hR] at h; simp at h
  · rw [hR] at h
    obtain rfl : R = R' := by simpa using h
    cases hk : R.known id with
    | true => exact Or.inl ⟨rfl, hi.act f hf id hk⟩
    | false => exact Or.inr ⟨rfl, hi.unknown id hk⟩

/-! ### A recording, and where the claim fails -/

/-- Values of an object on road `road`, with text `name` and outline `outline`. -/
def sample (road : Int) (name : List Char) (outline : List Rat) (speed : Rat) : Values
  | .speed => .nums [speed]
  | .wheelAngle | .wheelRot | .posOffset | .posT | .posS | .refpointX | .modelX => .nums [0]
  | .name => .str name
  | .model3d => .str ['m']
  | .bbColor => .str []
  | .pose | .boundingBox => .nums [0, 0]
  | .outline => .nums outline
  | .roadId => .int road
  | _ => .int 0

theorem sample_typed (road : Int) (name : List Char) (outline : List Rat) (speed : Rat) (q : Quantity) :
    Typed q (sample road name outline speed q) := by
  cases q <;> exact ⟨_, rfl⟩

/-- An object that speeds up, is removed and comes back. -/
def sampleFrames : List Frame :=
  [⟨0, 1, 2, [(7, sample 1 ['a'] [] 10), (8, sample 1 ['b'] [] 0)]⟩,
   ⟨1, 1, 0, [(7, sample 1 ['a'] [] 12), (8, sample 1 ['b'] [] 0)]⟩,
   ⟨2, 1, 1, [(8, sample 1 ['b'] [] 0)]⟩,
   ⟨3, 1, 0, [(7, sample 2 ['a'] [] 12), (8, sample 1 ['b'] [] 0)]⟩]

theorem recordable_of {fs : List Frame} (h1 : fs.Pairwise (fun f g => f.time + 2 * small ≤ g.time))
    (h2 : ∀ f ∈ fs, 0 ≤ f.time) (h3 : ∀ f ∈ fs, (f.objs.map (·.1)).Nodup)
    (h4 : ∀ f ∈ fs, ∀ o ∈ f.objs, ∃ a b c d, o.2 = sample a b c d) : Recordable fs :=
  ⟨h1, h2, h3, fun f hf o ho q => by
    obtain ⟨a, b, c, d, h⟩ := h4 f hf o ho
    rw [h]; exact sample_typed a b c d q⟩

theorem sampleFrames_recordable : Recordable sampleFrames := by
  unfold sampleFrames
  refine recordable_of ?_ ?_ ?_ ?_
  · simp only [List.pairwise_cons]; decide +kernel
  · decide +kernel
  · decide +kernel
  · intro f hf o ho
    simp only [List.mem_cons, List.not_mem_nil, or_false] at hf
    rcases hf with rfl | rfl | rfl | rfl <;> simp only [List.mem_cons, List.not_mem_nil, or_false] at ho
    · rcases ho with rfl | rfl <;> exact ⟨_, _, _, _, rfl⟩
    · rcases ho with rfl | rfl <;> exact ⟨_, _, _, _, rfl⟩
    · subst ho; exact ⟨_, _, _, _, rfl⟩
    · rcases ho with rfl | rfl <;> exact ⟨_, _, _, _, rfl⟩

/-- What the replay of a recording holds for one object. -/
def replayed (fs : List Frame) (id : Int) (q : Quantity) : Option (List (Rat × Val)) :=
  match parse {} (record fs) with
  | .ok R => some (R.tl id q)
  | .error _ => none

def replayedActive (fs : List Frame) (id : Int) : Option (List (Rat × Bool)) :=
  match parse {} (record fs) with
  | .ok R => some (R.active id)
  | .error _ => none

example : replayed sampleFrames 7 .speed = some [(0, .nums [10]), (1, .nums [12]), (3, .nums [12])] ∧
    replayed sampleFrames 8 .speed = some [(0, .nums [0])] ∧
    replayedActive sampleFrames 7 = some [(0, true), (2, false), (3, true)] := by decide +kernel

/-- **C16** violated: an object that is on no road at first is replayed on the road it reaches later, from the start. -/
theorem initial_value_fails : ∃ fs f v, Recordable fs ∧ f ∈ fs ∧ ((7 : Int), v) ∈ f.objs ∧ v .roadId = .int 0xffffffff ∧
    ∃ R e, parse {} (record fs) = .ok R ∧ InForce (R.tl 7 .roadId) f.time e ∧ e.2 = .int 5 := by
  let fs : List Frame := [⟨0, 1, 0, [(7, sample 0xffffffff ['a'] [] 0)]⟩, ⟨1, 1, 0, [(7, sample 5 ['a'] [] 0)]⟩]
  have hrec : Recordable fs := by
    refine recordable_of ?_ ?_ ?_ ?_
    · simp only [fs, List.pairwise_cons]; decide +kernel
    · decide +kernel
    · decide +kernel
    · intro f hf o ho
      simp only [fs, List.mem_cons, List.not_mem_nil, or_false] at hf
      rcases hf with rfl | rfl <;> simp only [List.mem_cons, List.not_mem_nil, or_false] at ho <;>
        (subst ho; exact ⟨_, _, _, _, rfl⟩)
  have hrep : replayed fs 7 .roadId = some [(1, .int 5)] := by decide +kernel
  refine ⟨fs, ⟨0, 1, 0, [(7, sample 0xffffffff ['a'] [] 0)]⟩, _, hrec, by simp [fs], by simp; rfl, rfl, ?_⟩
  unfold replayed at hrep
  split at hrep
  · next R hR =>
    have hR' : R.tl 7 .roadId = [(1, .int 5)] := by simpa using hrep
    refine ⟨R, (1, .int 5), hR, ?_, rfl⟩
    rw [hR']
    refine ⟨0, rfl, Or.inr rfl, ?_⟩
    intro j f hj hf
    match j with
    | j + 1 => simp at hf
  · simp at hrep

/-- **C16** violated: an object that is removed and comes back without a road is replayed on its former road. -/
theorem reappearing_value_fails : ∃ fs f v, Recordable fs ∧ f ∈ fs ∧ ((7 : Int), v) ∈ f.objs ∧
    v .roadId = .int 0xffffffff ∧
    ∃ R e, parse {} (record fs) = .ok R ∧ InForce (R.tl 7 .roadId) f.time e ∧ e.2 = .int 5 := by
  let fs : List Frame := [⟨0, 1, 0, [(7, sample 5 ['a'] [] 0)]⟩, ⟨1, 1, 0, []⟩,
    ⟨2, 1, 0, [(7, sample 0xffffffff ['a'] [] 0)]⟩]
  have hrec : Recordable fs := by
    refine recordable_of ?_ ?_ ?_ ?_
    · simp only [fs, List.pairwise_cons]; decide +kernel
    · decide +kernel
    · decide +kernel
    · intro f hf o ho
      simp only [fs, List.mem_cons, List.not_mem_nil, or_false] at hf
      rcases hf with rfl | rfl | rfl <;> simp only [List.mem_cons, List.not_mem_nil, or_false] at ho <;>
        (subst ho; exact ⟨_, _, _, _, rfl⟩)
  have hrep : replayed fs 7 .roadId = some [(0, .int 5)] := by decide +kernel
  refine ⟨fs, ⟨2, 1, 0, [(7, sample 0xffffffff ['a'] [] 0)]⟩, _, hrec, by simp [fs], by simp; rfl, rfl, ?_⟩
  unfold replayed at hrep
  split at hrep
  · next R hR =>
    have hR' : R.tl 7 .roadId = [(0, .int 5)] := by simpa using hrep
    refine ⟨R, (0, .int 5), hR, ?_, rfl⟩
    rw [hR']
    refine ⟨0, rfl, Or.inr rfl, ?_⟩
    intro j f hj hf
    match j with
    | j + 1 => simp at hf
  · simp at hrep

/-- **C16** violated: a changed outline is not recorded. -/
theorem outline_change_fails : ∃ fs f v, Recordable fs ∧ f ∈ fs ∧ ((7 : Int), v) ∈ f.objs ∧
    v .outline = .nums [3, 4] ∧ v .outline ≠ Quantity.outline.default ∧
    ∃ R e, parse {} (record fs) = .ok R ∧ InForce (R.tl 7 .outline) f.time e ∧ e.2 = .nums [1, 2] := by
  let fs : List Frame := [⟨0, 1, 0, [(7, sample 5 ['a'] [1, 2] 0)]⟩, ⟨1, 1, 0, [(7, sample 5 ['a'] [3, 4] 0)]⟩]
  have hrec : Recordable fs := by
    refine recordable_of ?_ ?_ ?_ ?_
    · simp only [fs, List.pairwise_cons]; decide +kernel
    · decide +kernel
    · decide +kernel
    · intro f hf o ho
      simp only [fs, List.mem_cons, List.not_mem_nil, or_false] at hf
      rcases hf with rfl | rfl <;> simp only [List.mem_cons, List.not_mem_nil, or_false] at ho <;>
        (subst ho; exact ⟨_, _, _, _, rfl⟩)
  have hrep : replayed fs 7 .outline = some [(0, .nums [1, 2])] := by decide +kernel
  refine ⟨fs, ⟨1, 1, 0, [(7, sample 5 ['a'] [3, 4] 0)]⟩, _, hrec, by simp [fs], by simp; rfl, rfl, by decide, ?_⟩
  unfold replayed at hrep
  split at hrep
  · next R hR =>
    have hR' : R.tl 7 .outline = [(0, .nums [1, 2])] := by simpa using hrep
    refine ⟨R, (0, .nums [1, 2]), hR, ?_, rfl⟩
    rw [hR']
    refine ⟨0, rfl, Or.inr rfl, ?_⟩
    intro j f hj hf
    match j with
    | j + 1 => simp at hf
  · simp at hrep

def rejects : Except Err Reader → Bool
  | .error .rejected => true
  | _ => false

/-- **C16** violated: a recording in which a name becomes empty is not accepted by the replayer. -/
theorem emptied_text_fails : ∃ fs, Recordable fs ∧ parse {} (record fs) = .error .rejected := by
  let fs : List Frame := [⟨0, 1, 0, [(7, sample 5 ['a'] [] 0)]⟩, ⟨1, 1, 0, [(7, sample 5 [] [] 0)]⟩]
  have hrec : Recordable fs := by
    refine recordable_of ?_ ?_ ?_ ?_
    · simp only [fs, List.pairwise_cons]; decide +kernel
    · decide +kernel
    · decide +kernel
    · intro f hf o ho
      simp only [fs, List.mem_cons, List.not_mem_nil, or_false] at hf
      rcases hf with rfl | rfl <;> simp only [List.mem_cons, List.not_mem_nil, or_false] at ho <;>
        (subst ho; exact ⟨_, _, _, _, rfl⟩)
  refine ⟨fs, hrec, ?_⟩
  have h : rejects (parse {} (record fs)) = true := by decide +kernel
  generalize parse {} (record fs) = x at h
  cases x with
  | ok R => simp [rejects] at h
  | error e => cases e <;> simp [rejects] at h ⊢

end Verif.Dat
