import Verif.Storyboard.Examples
/-
C167: of the running private actions of an entity no two compete, in every execution.
-/
namespace Verif.Storyboard

/-- The engine finds a private action by its entity: in the list of init actions or in the list of
events of the entity. -/
def Known (sh : Shape) (b : Nat) : Prop :=
  ∃ o, sh.object b = some o ∧
    (b ∈ sh.initActionsOf o ∨ ∃ e ∈ sh.objectEvents o, b ∈ sh.children e)

/-- No action of an event runs beside another action it competes with. -/
def Exclusive (sh : Shape) (s : SB) : Prop :=
  ∀ a b, a ≠ b → sh.parent a ≠ none → Known sh a → Known sh b → Compete sh a b →
    ¬ (s.st a = .running ∧ s.st b = .running)

/-- Light actions have the light domain only (OSCPrivateAction.hpp:1468-1470) and conflicts between
them are symmetric (C33). -/
structure Shape.Sym (sh : Shape) : Prop where
  light : ∀ a b, sh.lightConflict a b = sh.lightConflict b a
  only : ∀ a, (sh.domains a &&& maskLight) ≠ 0#4 → sh.domains a = maskLight

theorem overlap_light : ∀ d : BitVec 4, (d &&& maskLight) ≠ 0#4 ↔ (maskLight &&& d) ≠ 0#4 := by
  decide

theorem conflicts_symm {sh : Shape} (hy : sh.Sym) {a b : Nat} (h : conflicts sh a b = true) :
    conflicts sh b a = true := by
  unfold conflicts at *
  simp only [Bool.and_eq_true, decide_eq_true_eq] at *
  obtain ⟨h1, h2⟩ := h
  have h1' : (sh.domains a &&& sh.domains b) ≠ 0#4 := by rwa [BitVec.and_comm]
  refine ⟨h1', ?_⟩
  split
  · next hl =>
    have hb : (sh.domains b &&& maskLight) ≠ 0#4 := by rw [hy.only a hl] at h1; exact h1
    rw [if_pos hb] at h2
    rw [hy.light]; exact h2
  · rfl

theorem Compete.symm {sh : Shape} (hy : sh.Sym) {a b : Nat} (h : Compete sh a b) :
    Compete sh b a := by
  obtain ⟨h1, h2, h3, h4, h5⟩ := (compete_iff ..).1 h
  exact (compete_iff ..).2 ⟨h2, h1, by rw [h4]; exact h3, h4.symm, conflicts_symm hy h5⟩

theorem Exclusive.of_less {sh : Shape} {s t : SB} (h : Exclusive sh s)
    (hst : ∀ x, t.st x = .running → sh.etype x = .action → s.st x = .running)
    (wf : sh.WF) : Exclusive sh t := by
  intro a b hab hp ha hb hc hr
  have ht : ∀ x, Known sh x → sh.etype x = .action := by
    rintro x ⟨o, _, h | ⟨e, he, h⟩⟩
    · exact wf.initAct _ _ h
    · exact child_action wf (wf.objEv _ _ he) ((wf.tree _ _).1 h)
  exact h a b hab hp ha hb hc ⟨hst a hr.1 (ht a ha), hst b hr.2 (ht b hb)⟩

theorem Exclusive.ends {sh : Shape} (wf : sh.WF) {s t : SB} (h : Exclusive sh s)
    (hs : EndSteps sh s t) : Exclusive sh t :=
  h.of_less (fun x hx _ => Classical.byContradiction fun hn => hs.notRunning x hn hx) wf

theorem Exclusive.congr {sh : Shape} {s t : SB} (h : Exclusive sh s) (hst : t.st = s.st) :
    Exclusive sh t := by
  unfold Exclusive at *; rw [hst]; exact h

/-- After the actions in conflict with `a` have been ended, none of them is running. -/
theorem endConflicting_done {sh : Shape} (wf : sh.WF) {f e a : Nat} {post : List Nat} {s s' : SB}
    (he : sh.etype e = .event) (hL : LoopInv sh e (a :: post) s)
    (hmem : ∀ x ∈ a :: post, sh.parent x = some e)
    (h1 : endConflicting sh f a s = some s') {b : Nat} (hab : a ≠ b) (hk : Known sh b)
    (hc : Compete sh a b) : s'.st b ≠ .running := by
  have hae := hmem a (by simp)
  obtain ⟨c1, c2, c3, c4, c5⟩ := (compete_iff ..).1 hc
  obtain ⟨o, ho, hk⟩ := hk
  have hoa : sh.object a = some o := by rw [← c4, ho]
  let Q : SB → Prop := fun t => Inv sh none t ∧ t.st e = .running ∧ EndSteps sh s t
  have key : ∀ t x t', Q t → sh.etype x = .action → t.st x = .running →
      endE sh f x t = some t' → Q t' ∧ EndSteps sh t t' ∧ t'.st x ≠ .running := by
    rintro t x t' ⟨q1, q2, q3⟩ hx hxr ht
    obtain ⟨k1, k2, k3⟩ := endOther_inv wf q1 he q2 hae (q3.init a (hL.todo a (by simp))) hx hxr ht
    exact ⟨⟨k1, k3, q3.trans k2⟩, k2, (endAction_inv wf q1 hx ht).2.2⟩
  have hQ0 : Q s := ⟨hL.inv, hL.run (by simp), .refl⟩
  unfold endConflicting at h1
  simp only [c1, if_true, hoa, bind, Option.bind_eq_some_iff] at h1
  obtain ⟨s1, h3, h4⟩ := h1
  unfold endConflictingInit at h3
  unfold endConflictingEvents at h4
  have hi := foldlM_post (P := Q) (Q := fun x t => x = b → t.st b ≠ .running)
    (sh.initActionsOf o) s s1
    (by
      intro t x t' hx hQt ht
      split at ht
      · next hcd =>
        obtain ⟨k1, k2, k3⟩ := key t x t' hQt (wf.initAct _ _ hx) hcd.2.1 ht
        exact ⟨k1, by rintro rfl; exact k3⟩
      · next hcd =>
        cases ht
        exact ⟨hQt, by rintro rfl hr; exact hcd ⟨c2, hr, c5⟩⟩)
    (by
      intro t x t' y hx hy hQt ht hq hyb
      split at ht
      · next hcd =>
        exact (key t x t' hQt (wf.initAct _ _ hx) hcd.2.1 ht).2.1.notRunning b (hq hyb)
      · cases ht; exact hq hyb) h3 hQ0
  have hinner : ∀ t ev t', ev ∈ sh.objectEvents o → Q t →
      (sh.children ev).foldlM (fun s pa2 =>
        if sh.isPrivate pa2 = true ∧ pa2 ≠ a ∧ sh.object pa2 = some o ∧ s.st pa2 = .running ∧
          conflicts sh a pa2 = true
        then endE sh f pa2 s else some s) t = some t' →
      (Q t' ∧ EndSteps sh t t') ∧ (b ∈ sh.children ev → t'.st b ≠ .running) := by
    intro t ev t' hev hQt ht
    have := foldlM_post (P := fun u => Q u ∧ EndSteps sh t u)
      (Q := fun x u => x = b → u.st b ≠ .running) (sh.children ev) t t'
      (by
        rintro u x u' hx ⟨hQu, hE⟩ hu
        have hxt := child_action wf (wf.objEv _ _ hev) ((wf.tree _ _).1 hx)
        split at hu
        · next hcd =>
          obtain ⟨k1, k2, k3⟩ := key u x u' hQu hxt hcd.2.2.2.1 hu
          exact ⟨⟨k1, hE.trans k2⟩, by rintro rfl; exact k3⟩
        · next hcd =>
          cases hu
          exact ⟨⟨hQu, hE⟩, by rintro rfl hr; exact hcd ⟨c2, hab.symm, ho, hr, c5⟩⟩)
      (by
        rintro u x u' y hx hy ⟨hQu, hE⟩ hu hq hyb
        have hxt := child_action wf (wf.objEv _ _ hev) ((wf.tree _ _).1 hx)
        split at hu
        · next hcd => exact (key u x u' hQu hxt hcd.2.2.2.1 hu).2.1.notRunning b (hq hyb)
        · cases hu; exact hq hyb) ht ⟨hQt, .refl⟩
    exact ⟨this.1, fun hb => this.2 b hb rfl⟩
  have hev := foldlM_post (P := fun t => Q t ∧ EndSteps sh s1 t)
    (Q := fun ev t => b ∈ sh.children ev → t.st b ≠ .running)
    (sh.objectEvents o) s1 s'
    (by
      rintro t ev t' hev ⟨hQt, hE⟩ ht
      obtain ⟨⟨k1, k2⟩, k3⟩ := hinner t ev t' hev hQt ht
      exact ⟨⟨k1, hE.trans k2⟩, k3⟩)
    (by
      rintro t ev t' ev' hev hev' ⟨hQt, hE⟩ ht hq hb
      exact (hinner t ev t' hev hQt ht).1.2.notRunning b (hq hb)) h4 ⟨hi.1, .refl⟩
  rcases hk with hk | ⟨ev, hk, hb⟩
  · exact hev.1.2.notRunning b (hi.2 b hk rfl)
  · exact hev.2 ev hk hb

theorem startOneAction_exclusive {sh : Shape} (wf : sh.WF) (hy : sh.Sym) {orc : Oracle}
    {f e a : Nat} {post : List Nat} {s s' : SB} (he : sh.etype e = .event)
    (hL : LoopInv sh e (a :: post) s) (hmem : ∀ x ∈ a :: post, sh.parent x = some e)
    (hX : Exclusive sh s) (h : startOneAction sh orc f a s = some s') : Exclusive sh s' := by
  have hother : ∀ x, x ≠ a → s'.st x = .running → s.st x = .running := fun x hx hr =>
    Classical.byContradiction fun hn => startOneAction_notRunning wf he hL hmem h hx hn hr
  have hae := hmem a (by simp)
  have hdone : ∀ b, a ≠ b → Known sh b → Compete sh a b → s'.st b ≠ .running := by
    intro b hab hk hc hr
    have h' := h
    simp only [startOneAction, bind, Option.bind_eq_some_iff] at h'
    obtain ⟨s2, h1, h2⟩ := h'
    have hb2 := endConflicting_done wf he hL hmem h1 hab hk hc
    obtain ⟨q1, q2, q3⟩ := endConflicting_inv wf he hL hmem h1
    have hai : s2.st a = .init := q3.init a (hL.todo a (by simp))
    have hI' : Inv sh none { s2 with clock := s2.clock + 1 } := q1.congr rfl
    obtain ⟨j1, j2, j3, j4⟩ := startSelf_inv (e := a) wf hI' (.inl hai)
      (by intro p hp; rw [hae] at hp; cases hp; exact q2) (by simp [hai])
    unfold actionStart at h2
    simp only at h2
    split at h2
    · cases h2; exact hb2 hr
    · cases h2; rw [j4] at hr; simp [hab.symm] at hr; exact hb2 hr
    · obtain ⟨_, k2, _⟩ := endAction_inv wf j1 (child_action wf he hae) h2
      refine k2.notRunning b ?_ hr
      rw [j4]; simp [hab.symm]; exact hb2
  intro x y hxy hp hkx hky hc ⟨hrx, hry⟩
  by_cases hxa : x = a
  · subst hxa; exact hdone y hxy hky hc hry
  · by_cases hya : y = a
    · subst hya
      exact hdone x (Ne.symm hxy) hkx (hc.symm hy) hrx
    · exact hX x y hxy hp hkx hky hc ⟨hother x hxa hrx, hother y hya hry⟩

theorem eventStart_exclusive {sh : Shape} (wf : sh.WF) (hy : sh.Sym) {orc : Oracle} {f e : Nat}
    {s s' : SB} (hI : Inv sh none s) (hX : Exclusive sh s) (he : sh.etype e = .event)
    (hs : s.st e = .standby) (ha : armed e s.log = true)
    (h : eventStart sh orc f e s = some s') : Exclusive sh s' := by
  unfold eventStart at h
  split at h
  · simp at h
  next m hm =>
  simp only [bind, Option.bind_eq_some_iff] at h
  obtain ⟨⟨go, s1⟩, h1, h2⟩ := h
  obtain ⟨i1, i2, i3, i4⟩ := eventPriority_inv wf hI he hm (.inl hs) h1
  simp only at i1 i2 i3 i4
  have hX1 := hX.ends wf i2
  have hmr : s.st m = .running := hI.act _ _ hm (.inr hs)
  split at h2
  · cases h2; exact hX1
  obtain ⟨j1, j2, j3, j4⟩ := startSelf_inv (e := e) wf i1 (.inr (by rw [i3, hs]))
    (by intro p hp; rw [hm] at hp; cases hp; rw [i4, hmr])
    (fun _ _ => i2.keepsArmed e ha)
  have hX2 : Exclusive sh (startSelf sh e s1) := by
    refine hX1.of_less ?_ wf
    intro x hx hxa
    have : x ≠ e := by rintro rfl; rw [he] at hxa; simp at hxa
    rw [j4] at hx; simpa [this] using hx
  have hrun : (startSelf sh e s1).st e = .running := by
    rw [j4]; simp [i3, hs]
  simp only [hrun, ne_eq, not_true_eq_false, if_false] at h2
  split at h2
  · next hnil =>
    obtain ⟨k1, k2, _⟩ := endE_inv wf f e _ s' (j1.weaken _)
      (fun c hc => by have := (wf.tree _ _).2 hc; simp [hnil] at this) (by simp [hrun]) h2
    exact hX2.ends wf k2
  · have := foldlM_split
      (P := fun _ post t => LoopInv sh e post t ∧ Exclusive sh t) (sh.children e) _ s'
      (by
        rintro pre a post t t' hl ⟨hL, hXt⟩ ht
        have hm' : ∀ x ∈ a :: post, sh.parent x = some e := fun x hx =>
          (wf.tree _ _).1 (by rw [hl]; exact List.mem_append_right _ hx)
        exact ⟨(startOneAction_inv wf he hL hm'
          (by have := wf.nodup e; rw [hl] at this; exact (List.nodup_append.1 this).2.1) ht).1,
          startOneAction_exclusive wf hy he hL hm' hXt ht⟩)
      h2
      ⟨⟨j1, fun a ha => by
          have hp := (wf.tree _ _).1 ha
          have : a ≠ e := by rintro rfl; have := wf.level _ _ hp; omega
          rw [j4]; simp only [this, if_false]
          exact i1.idle a e hp (.inr (by rw [i3, hs])), fun _ => hrun⟩, hX2⟩
    exact this.2

/-- `Start` of stories, acts, groups and maneuvers starts no action. -/
theorem startE_actions {sh : Shape} (wf : sh.WF) {orc : Oracle} : ∀ (f e : Nat) (s s' : SB),
    Inv sh none s → sh.etype e ≠ .action →
    (s.st e = .init ∨ (s.st e = .standby ∧ sh.etype e ≠ .event)) →
    (∀ p, sh.parent e = some p → s.st p = .running) →
    (s.st e = .standby → sh.hasStart e = true → armed e s.log = true) →
    (sh.etype e = .event → ∀ d p, sh.parent e = some p → sh.parent d = some p →
      s.st d ≠ .running) →
    startE sh orc f e s = some s' →
    ∀ x, sh.etype x = .action → s'.st x = s.st x := by
  intro f
  induction f with
  | zero => intro e s s' _ _ _ _ _ _ h; simp [startE] at h
  | succ f ih =>
    intro e s s' hI hna hs hp ha hev h
    rw [startE] at h
    split at h
    · next hh => exact absurd hh hna
    · next he =>
      have hi : s.st e = .init := by
        rcases hs with h | h
        · exact h
        · exact absurd he h.2
      obtain ⟨k1, k2, k3, k4⟩ := eventStart_init wf hI he hi hp (hev he) h
      intro x hx
      exact k3 x (by rintro rfl; rw [he] at hx; simp at hx)
    · next hne =>
      have hnev : sh.etype e ≠ .event := hne
      have hs' : s.st e = .init ∨ s.st e = .standby := by
        rcases hs with h | h
        · exact .inl h
        · exact .inr h.1
      obtain ⟨j1, j2, j3, j4⟩ := startSelf_inv (e := e) wf hI hs' hp ha
      have hfr : ∀ x, sh.etype x = .action → (startSelf sh e s).st x = s.st x := by
        intro x hx
        have : x ≠ e := by rintro rfl; exact hna hx
        rw [j4]; simp [this]
      simp only at h
      split at h
      · next hrun =>
        have hch : ∀ c, sh.parent c = some e → s.st c = .init := fun c hc => hI.idle c e hc hs'
        have hchne : ∀ c, sh.parent c = some e → c ≠ e := by
          rintro c hc rfl; have := wf.level _ _ hc; omega
        have := foldlM_split
          (P := fun pre post t => Inv sh none t ∧ t.st e = .running ∧ (∀ c ∈ post, t.st c = .init) ∧
            (∀ c ∈ pre, sh.etype c = .event → t.st c ≠ .running) ∧
            (∀ x, sh.etype x = .action → t.st x = s.st x)) (sh.children e) _ s'
          (by
            rintro pre c post t t' hl ⟨p1, p3, p5, p6, p7⟩ ht
            have hmem : ∀ d, d ∈ pre ++ c :: post → sh.parent d = some e := fun d hd =>
              (wf.tree _ _).1 (by rw [hl]; exact hd)
            have hnd := wf.nodup e
            rw [hl] at hnd
            have hc := hmem c (by simp)
            have hca : sh.etype c ≠ .action := by
              intro hh; exact hnev (action_parent wf hh hc)
            have hpar : ∀ q, sh.parent c = some q → t.st q = .running := by
              intro q hq; rw [hc] at hq; cases hq; exact p3
            have harm : t.st c = .standby → sh.hasStart c = true → armed c t.log = true := by
              intro hh; rw [p5 c (by simp)] at hh; simp at hh
            have hevc : sh.etype c = .event → ∀ d q, sh.parent c = some q → sh.parent d = some q →
                t.st d ≠ .running := by
              intro hce d q hq hd
              rw [hc] at hq; cases hq
              have hd' := (wf.tree _ _).2 hd
              rw [hl] at hd'
              have hde : sh.etype d = .event := by
                have l1 := wf.level _ _ hc; have l2 := wf.level _ _ hd
                exact EType.level_inj (by rw [← hce] ; omega)
              rcases List.mem_append.1 hd' with hd' | hd'
              · exact p6 d hd' hde
              · rw [p5 d hd']; simp
            obtain ⟨k1, k2, k3, k4, k5⟩ := startE_inv wf f c t t' p1 hca (.inl (p5 c (by simp)))
              hpar harm hevc ht
            have k6 := ih c t t' p1 hca (.inl (p5 c (by simp))) hpar harm hevc ht
            have hsib : ∀ d, sh.parent d = some e → d ≠ c → t'.st d = t.st d := fun d hd hdc =>
              k3 d (Sub.sibling_ne wf hc hd (Ne.symm hdc))
            refine ⟨k1, ?_, ?_, ?_, fun x hx => by rw [k6 x hx, p7 x hx]⟩
            · rw [k3 e ?_, p3]
              intro hh; have l1 := hh.level wf; have l2 := wf.level _ _ hc; omega
            · intro d hd
              have hdc : d ≠ c := by
                rintro rfl
                have := (List.nodup_append.1 hnd).2.1
                simp [hd] at this
              rw [hsib d (hmem d (by simp [hd])) hdc]; exact p5 d (by simp [hd])
            · intro d hd hde
              rcases List.mem_append.1 hd with hd | hd
              · have hdc : d ≠ c := by
                  intro hh
                  subst hh
                  exact (List.nodup_append.1 hnd).2.2 d (by assumption) d (by simp) rfl
                rw [hsib d (hmem d (by simp [hd])) hdc]; exact p6 d hd hde
              · simp at hd; subst hd; exact k5 hde)
          h ⟨j1, hrun, fun c hc => by
              have hcp := (wf.tree _ _).1 hc
              rw [j4]; simp [hchne c hcp, hch c hcp], by simp, hfr⟩
        exact this.2.2.2.2
      · cases h; exact hfr

theorem evalStop_exclusive {sh : Shape} (wf : sh.WF) {orc : Oracle} {f e : Nat} {s s' : SB}
    (hI : Inv sh none s) (hX : Exclusive sh s) (h : evalStop sh orc f e s = some s') :
    Exclusive sh s' := by
  unfold evalStop at h
  split at h
  · simp only at h
    have hI' : Inv sh none { s with clock := s.clock + 1 } := hI.congr rfl
    have hX' : Exclusive sh { s with clock := s.clock + 1 } := hX.congr rfl
    split at h
    · simp only [bind, Option.bind_eq_some_iff] at h
      obtain ⟨s1, h1, h2⟩ := h
      obtain ⟨i1, i2, _⟩ := stopE_inv wf f e _ _ hI' h1
      split at h2
      · obtain ⟨j1, j2, _⟩ := stopE_inv wf f e _ _ i1 h2
        exact hX'.ends wf (i2.trans j2)
      · cases h2; exact hX'.ends wf i2
    · cases h; exact hX'
  · cases h; exact hX

theorem evalStart_exclusive {sh : Shape} (wf : sh.WF) (hy : sh.Sym) {orc : Oracle} {f e : Nat}
    {s s' : SB} (hI : Inv sh none s) (hX : Exclusive sh s)
    (h : evalStart sh orc f e s = some s') : Exclusive sh s' := by
  unfold evalStart at h
  split at h
  · next hst =>
    have hna : sh.etype e ≠ .action := fun hh => hI.leaf e hh hst
    have hpar : ∀ p, sh.parent e = some p → s.st p = .running := fun p hp =>
      hI.act _ _ hp (.inr hst)
    split at h
    · next hns =>
      have hne : sh.etype e ≠ .event := by
        intro hh; have := wf.eventStart e hh; simp [hns] at this
      have := startE_actions wf f e s s' hI hna (.inr ⟨hst, hne⟩) hpar
        (by simp [hns]) (fun hh => absurd hh hne) h
      exact hX.of_less (fun x hx hxa => by rw [← this x hxa]; exact hx) wf
    · next hns =>
      simp only at h
      have hS : sh.hasStart e = true := by simpa using hns
      split at h
      · have hI2 : Inv sh none { s with clock := s.clock + 1, log := .trig e :: s.log } :=
          hI.congr rfl
        have hX2 : Exclusive sh { s with clock := s.clock + 1, log := .trig e :: s.log } :=
          hX.congr rfl
        have harm : armed e (.trig e :: s.log) = true := by simp [armed]
        by_cases hev : sh.etype e = .event
        · cases f with
          | zero => simp [startE] at h
          | succ f =>
            rw [startE] at h
            simp only [hev] at h
            exact eventStart_exclusive wf hy hI2 hX2 hev hst harm h
        · have := startE_actions wf f e _ s' hI2 hna (.inr ⟨hst, hev⟩) hpar
            (fun _ _ => harm) (fun hh => absurd hh hev) h
          exact hX2.of_less (fun x hx hxa => by rw [← this x hxa]; exact hx) wf
      · cases h; exact hX.congr rfl
  · cases h; exact hX

theorem evalTriggers_exclusive {sh : Shape} (wf : sh.WF) (hy : sh.Sym) {orc : Oracle} :
    ∀ (f e : Nat) (s s' : SB), Inv sh none s → Exclusive sh s →
      evalTriggers sh orc f e s = some s' → Exclusive sh s' := by
  intro f
  induction f with
  | zero => intro e s s' _ _ h; simp [evalTriggers] at h
  | succ f ih =>
    intro e s s' hI hX h
    simp only [evalTriggers, bind, Option.bind_eq_some_iff] at h
    obtain ⟨s1, h1, s2, h2, h3⟩ := h
    obtain ⟨i1, _⟩ := evalStop_inv wf hI h1
    obtain ⟨j1, _⟩ := evalStart_inv wf i1 h2
    have hX2 := evalStart_exclusive wf hy i1 (evalStop_exclusive wf hI hX h1) h2
    split at h3
    · refine (foldlM_inv (P := fun t => Inv sh none t ∧ Exclusive sh t) _ s2 s' ?_ h3
        ⟨j1, hX2⟩).2
      rintro a c b _ ⟨ha, hXa⟩ hb
      exact ⟨(evalTriggers_inv wf f c a b ha hb).1, ih c a b ha hXa hb⟩
    · cases h3; exact hX2

theorem actionStep_exclusive {sh : Shape} (wf : sh.WF) {orc : Oracle} {f a : Nat} {s s' : SB}
    (hI : Inv sh none s) (hX : Exclusive sh s) (ha : sh.etype a = .action)
    (h : actionStep sh orc f a s = some s') : Exclusive sh s' := by
  unfold actionStep at h
  have hI' : Inv sh none { s with clock := s.clock + 1 } := hI.congr rfl
  have hX' : Exclusive sh { s with clock := s.clock + 1 } := hX.congr rfl
  split at h
  · simp only at h
    split at h
    · cases h; exact hX'
    · exact hX'.ends wf (endAction_inv wf hI' ha h).2.1
    · exact hX'.ends wf (stopE_inv wf f a _ _ hI' h).2.1
  · cases h; exact hX

theorem stepE_exclusive {sh : Shape} (wf : sh.WF) {orc : Oracle} : ∀ (f e : Nat) (s s' : SB),
    Inv sh none s → Exclusive sh s → stepE sh orc f e s = some s' → Exclusive sh s' := by
  intro f
  induction f with
  | zero => intro e s s' _ _ h; simp [stepE] at h
  | succ f ih =>
    intro e s s' hI hX h
    rw [stepE] at h
    split at h
    · next he => exact actionStep_exclusive wf hI hX he h
    · next he =>
      refine (foldlM_inv (P := fun t => Inv sh none t ∧ Exclusive sh t) _ s s' ?_ h ⟨hI, hX⟩).2
      rintro a c b hc ⟨ha, hXa⟩ hb
      have hct := child_action wf he ((wf.tree _ _).1 hc)
      exact ⟨(actionStep_inv wf ha hct hb).1, actionStep_exclusive wf ha hXa hct hb⟩
    · split at h
      · refine (foldlM_inv (P := fun t => Inv sh none t ∧ Exclusive sh t) _ s s' ?_ h ⟨hI, hX⟩).2
        rintro a c b hc ⟨ha, hXa⟩ hb
        exact ⟨(stepE_inv wf f c a b ha hb).1, ih c a b ha hXa hb⟩
      · cases h; exact hX

theorem sbStep_exclusive {sh : Shape} (wf : sh.WF) (hy : sh.Sym) {orc : Oracle} {f : Nat}
    {s s' : SB} (hI : Inv sh none s) (hX : Exclusive sh s) (h : sbStep sh orc f s = some s') :
    Exclusive sh s' := by
  simp only [sbStep, bind, Option.bind_eq_some_iff] at h
  obtain ⟨s1, h1, s2, h2, h3⟩ := h
  obtain ⟨i1, _⟩ := evalTriggers_inv wf f _ _ _ hI h1
  have hX1 := evalTriggers_exclusive wf hy f _ _ _ hI hX h1
  obtain ⟨j1, j2⟩ := foldlM_inv (P := fun t => Inv sh none t ∧ Exclusive sh t) _ s1 s2
    (by
      rintro a c b hc ⟨ha, hXa⟩ hb
      exact ⟨(actionStep_inv wf ha (wf.initType c hc).1 hb).1,
        actionStep_exclusive wf ha hXa (wf.initType c hc).1 hb⟩) h2 ⟨i1, hX1⟩
  exact stepE_exclusive wf f _ _ _ j1 j2 h3

theorem sbStart_exclusive {sh : Shape} (wf : sh.WF) {orc : Oracle} {f : Nat} {s' : SB}
    (h : sbStart sh orc f SB.fresh = some s') : Exclusive sh s' := by
  intro a b hab hp hka hkb hc ⟨hra, _⟩
  simp only [sbStart, bind, Option.bind_eq_some_iff] at h
  obtain ⟨s1, h1, h2⟩ := h
  have hroot : sh.parent sh.root = none := by
    cases hp : sh.parent sh.root with
    | none => rfl
    | some p =>
      have l := wf.level _ _ hp
      rw [wf.root] at l
      have := EType.level_ge (sh.etype p)
      have h1 : EType.storyBoard.level = 1 := rfl
      omega
  have := foldlM_split
    (P := fun _ post t => Inv sh none t ∧ (∀ a ∈ post, t.st a = .init) ∧
      (∀ x, sh.etype x ≠ .action ∨ sh.parent x ≠ none → t.st x = .init)) sh.initActions _ s1
    (by
      rintro pre a post t t' hl ⟨p1, p3, p4⟩ ht
      obtain ⟨hat, hap⟩ := wf.initType a (by rw [hl]; simp)
      obtain ⟨k1, k2, k3, k4⟩ := actionStart_inv wf p1 hat (p3 a (by simp)) (by simp [hap]) ht
      have hB : Barrier sh a t := by intro p hp; simp [hap] at hp
      have hnd := wf.initNodup
      rw [hl] at hnd
      refine ⟨k1, ?_, ?_⟩
      · intro b hb
        have : b ≠ a := by
          rintro rfl
          have := (List.nodup_append.1 hnd).2.1
          simp [hb] at this
        rw [k3 hB b this]; exact p3 b (by simp [hb])
      · intro x hx
        have : x ≠ a := by
          rintro rfl
          rcases hx with hx | hx
          · exact hx hat
          · exact hx hap
        rw [k3 hB x this]; exact p4 x hx)
    h1 ⟨.fresh sh, fun _ _ => rfl, fun _ _ => rfl⟩
  obtain ⟨p1, _, p4⟩ := this
  have hat : sh.etype a = .action := by
    obtain ⟨o, _, h | ⟨e, he, h⟩⟩ := hka
    · exact wf.initAct _ _ h
    · exact child_action wf (wf.objEv _ _ he) ((wf.tree _ _).1 h)
  have := startE_actions wf f sh.root s1 s' p1 (by simp [wf.root])
    (.inl (p4 _ (.inl (by simp [wf.root])))) (by simp [hroot])
    (by rw [p4 _ (.inl (by simp [wf.root]))]; simp) (by simp [wf.root]) h2 a hat
  rw [this, p4 a (.inr hp)] at hra
  simp at hra

/-- Executions: as `Reach`, but an injected action is not one of the parsed init actions. -/
inductive Exec (sh : Shape) (orc : Oracle) : SB → Prop
  | start {f : Nat} {s : SB} : sbStart sh orc f SB.fresh = some s → Exec sh orc s
  | step {f : Nat} {s s' : SB} : Exec sh orc s → sbStep sh orc f s = some s' → Exec sh orc s'
  | endAction {f a : Nat} {s s' : SB} : Exec sh orc s → sh.etype a = .action →
      endE sh f a s = some s' → Exec sh orc s'
  | inject {f a : Nat} {s s' : SB} : Exec sh orc s → sh.etype a = .action → sh.parent a = none →
      ¬ Known sh a → injectedStep sh orc f a s = some s' → Exec sh orc s'

theorem Exec.reach {sh : Shape} {orc : Oracle} {s : SB} (h : Exec sh orc s) : Reach sh orc s := by
  induction h with
  | start h => exact .start h
  | step _ h ih => exact .step ih h
  | endAction _ ha h ih => exact .endAction ih ha h
  | inject _ ha hp _ h ih => exact .inject ih ha hp h

theorem injectedStep_exclusive {sh : Shape} (wf : sh.WF) {orc : Oracle} {f a : Nat} {s s' : SB}
    (hI : Inv sh none s) (hX : Exclusive sh s) (ha : sh.etype a = .action)
    (hp : sh.parent a = none) (hk : ¬ Known sh a) (h : injectedStep sh orc f a s = some s') :
    Exclusive sh s' := by
  have hI' : Inv sh none { s with clock := s.clock + 1 } := hI.congr rfl
  have hX' : Exclusive sh { s with clock := s.clock + 1 } := hX.congr rfl
  unfold injectedStep at h
  split at h
  · next hst =>
    have hi : s.st a = .init := by
      rcases hst with h | h
      · exact h
      · exact absurd h (hI.leaf a ha)
    obtain ⟨_, _, k3, _⟩ := actionStart_inv wf hI ha hi (by simp [hp]) h
    have hB : Barrier sh a s := by intro p hp'; simp [hp] at hp'
    intro x y hxy hpx hkx hky hc ⟨hrx, hry⟩
    have h1 : x ≠ a := by rintro rfl; exact hk hkx
    have h2 : y ≠ a := by rintro rfl; exact hk hky
    rw [k3 hB x h1] at hrx
    rw [k3 hB y h2] at hry
    exact hX x y hxy hpx hkx hky hc ⟨hrx, hry⟩
  · simp only at h
    split at h
    · cases h; exact hX'
    · exact hX'.ends wf (endAction_inv wf hI' ha h).2.1
    · exact hX'.ends wf (stopE_inv wf f a _ _ hI' h).2.1

/-- C167: at any time no action of an event runs beside another private action of the same entity
with a control domain in common (lights: a conflicting light). -/
theorem exclusive_partial {sh : Shape} (wf : sh.WF) (hy : sh.Sym) {orc : Oracle} {s : SB}
    (h : Exec sh orc s) {a b : Nat} (hab : a ≠ b) (hp : sh.parent a ≠ none) (ha : Known sh a)
    (hb : Known sh b) (hc : Compete sh a b) : ¬ (s.st a = .running ∧ s.st b = .running) := by
  suffices hX : Exclusive sh s from hX a b hab hp ha hb hc
  induction h with
  | start h => exact sbStart_exclusive wf h
  | step hr h ih => exact sbStep_exclusive wf hy (hr.reach.inv wf).1 ih h
  | endAction hr ha h ih => exact ih.ends wf (endAction_inv wf (hr.reach.inv wf).1 ha h).2.1
  | inject hr ha hp hk h ih => exact injectedStep_exclusive wf (hr.reach.inv wf).1 ih ha hp hk h

theorem unrelated_actions {sh : Shape} (wf : sh.WF) {a b : Nat} (ha : sh.etype a = .action)
    (hb : sh.etype b = .action) (hab : a ≠ b) : ¬ Sub sh a b ∧ ¬ Sub sh b a := by
  constructor
  · intro h; exact hab (h.eq_of_level wf (by rw [ha, hb]; exact Nat.le_refl _))
  · intro h; exact hab (h.eq_of_level wf (by rw [ha, hb]; exact Nat.le_refl _)).symm

/-- C167: a running action of another event goes on if no action of the started event competes with
it and the started event does not override its event. -/
theorem start_keeps_others {sh : Shape} (wf : sh.WF) {orc : Oracle} {f e m b d : Nat} {s s' : SB}
    (hI : Inv sh none s) (he : sh.etype e = .event) (hm : sh.parent e = some m)
    (hs : s.st e = .standby) (ha : armed e s.log = true)
    (h : eventStart sh orc f e s = some s') (hd : sh.etype d = .event) (hb : sh.parent b = some d)
    (hbr : s.st b = .running) (hp : sh.prio e = .overwrite → sh.parent d ≠ some m)
    (hno : ∀ a, sh.parent a = some e → ¬ Compete sh a b) : s'.st b = .running := by
  have hmr : s.st m = .running := hI.act _ _ hm (.inr hs)
  have hbt := child_action wf hd hb
  have hbe : sh.parent b ≠ some e := by
    intro hbe
    have := hI.idle b e hbe (.inr hs)
    rw [this] at hbr; simp at hbr
  unfold eventStart at h
  simp only [hm, bind, Option.bind_eq_some_iff] at h
  obtain ⟨⟨go, s1⟩, h1, h2⟩ := h
  obtain ⟨i1, i2, i3, i4⟩ := eventPriority_inv wf hI he hm (.inl hs) h1
  simp only at i1 i2 i3 i4
  have hb1 : s1.st b = .running := by
    unfold eventPriority at h1
    split at h1
    · next hov =>
      split at h1
      · cases h1; exact hbr
      · simp only [bind, Option.bind_eq_some_iff] at h1
        obtain ⟨u, h3, h4⟩ := h1
        cases h4
        refine (foldlM_inv (P := fun t => Inv sh none t ∧ t.st b = .running) _ s s1 ?_ h3
          ⟨hI, hbr⟩).2
        rintro t x t' hx ⟨p1, p2⟩ ht
        split at ht
        · next hc =>
          have hxm := (wf.tree _ _).1 hx
          have hxe := event_of_sibling wf he hm hxm
          obtain ⟨k1, _, _⟩ := endE_inv wf f x t t' (p1.weaken _)
            (fun c hc => .inr (child_action wf hxe hc)) (by simp [hc.2]) ht
          refine ⟨k1, ?_⟩
          rw [endE_prot wf p1 p2 ?_ ?_ ht b (.inl .refl), p2]
          · intro hh
            rcases hh.cases_child with rfl | ⟨c, hc1, hc2⟩
            · rw [hbt] at hxe; simp at hxe
            · have hct := child_action wf hxe hc1
              have := hc2.eq_of_level wf (by rw [hct, hbt]; exact Nat.le_refl _)
              subst this
              rw [hb] at hc1; cases hc1
              exact hp hov hxm
          · intro hh
            have := hh.level wf
            rw [hbt, hxe] at this; simp [EType.level] at this
        · cases ht; exact ⟨p1, p2⟩
    all_goals (cases h1; exact hbr)
  split at h2
  · cases h2; exact hb1
  obtain ⟨j1, j2, j3, j4⟩ := startSelf_inv (e := e) wf i1 (.inr (by rw [i3, hs]))
    (by intro p hp; rw [hm] at hp; cases hp; rw [i4, hmr])
    (fun _ _ => i2.keepsArmed e ha)
  have hrun : (startSelf sh e s1).st e = .running := by
    rw [j4]; simp [i3, hs]
  have hne : b ≠ e := by rintro rfl; rw [he] at hbt; simp at hbt
  have hb2 : (startSelf sh e s1).st b = .running := by rw [j4]; simp [hne, hb1]
  simp only [hrun, ne_eq, not_true_eq_false, if_false] at h2
  have heb : ¬ Sub sh e b := by
    intro hh
    rcases hh.cases_child with rfl | ⟨c, hc1, hc2⟩
    · exact hne rfl
    · have hct := child_action wf he hc1
      have := hc2.eq_of_level wf (by rw [hct, hbt]; exact Nat.le_refl _)
      subst this; exact hbe hc1
  have hbe' : ¬ Sub sh b e := by
    intro hh
    have := hh.level wf
    rw [hbt, he] at this; simp [EType.level] at this
  split at h2
  · rw [endE_prot wf j1 hb2 heb hbe' h2 b (.inl .refl), hb2]
  · have := foldlM_split
      (P := fun _ post t => LoopInv sh e post t ∧ t.st b = .running) (sh.children e) _ s'
      (by
        rintro pre a post t t' hl ⟨hL, hbt'⟩ ht
        have hmem : ∀ x ∈ a :: post, sh.parent x = some e := fun x hx =>
          (wf.tree _ _).1 (by rw [hl]; exact List.mem_append_right _ hx)
        refine ⟨(startOneAction_inv wf he hL hmem
          (by have := wf.nodup e; rw [hl] at this; exact (List.nodup_append.1 this).2.1) ht).1, ?_⟩
        have hae := hmem a (by simp)
        have hat := child_action wf he hae
        have hab : a ≠ b := by rintro rfl; exact hbe hae
        simp only [startOneAction, bind, Option.bind_eq_some_iff] at ht
        obtain ⟨u, hu, ht⟩ := ht
        have hpre := endConflicting_inv wf he hL hmem hu
        have hub : u.st b = .running := by
          refine (endConflicting_keeps wf (d := b) (g := t.st) he hL hmem hu ?_ (by simp [hb])
            ⟨hbt', fun _ _ => rfl⟩).1
          intro x hx hx2 hx3 hx4 hx5 hx6
          refine unrelated_actions wf hx hbt ?_
          rintro rfl
          exact hno a hae ((compete_iff ..).2 ⟨hx2, hx3, hx4, hx5, hx6⟩)
        have hai : u.st a = .init := hpre.2.2.init a (hL.todo a (by simp))
        have hI' : Inv sh none { u with clock := u.clock + 1 } := hpre.1.congr rfl
        obtain ⟨l1, l2, l3, l4⟩ := startSelf_inv (e := a) wf hI' (.inl hai)
          (by intro p hp; rw [hae] at hp; cases hp; exact hpre.2.1) (by simp [hai])
        obtain ⟨n1, n2⟩ := unrelated_actions wf hat hbt hab
        have hkb : (startSelf sh a { u with clock := u.clock + 1 }).st b = .running := by
          rw [l4]; simp [hab.symm, hub]
        unfold actionStart at ht
        simp only at ht
        split at ht
        · cases ht; exact hub
        · cases ht; exact hkb
        · rw [endE_prot wf l1 hkb n1 n2 ht b (.inl .refl), hkb])
      h2
      ⟨⟨j1, fun a ha => by
          have hp := (wf.tree _ _).1 ha
          have : a ≠ e := by rintro rfl; have := wf.level _ _ hp; omega
          rw [j4]; simp only [this, if_false]
          exact i1.idle a e hp (.inr (by rw [i3, hs])), fun _ => hrun⟩, hb2⟩
    exact this.2

end Verif.Storyboard
