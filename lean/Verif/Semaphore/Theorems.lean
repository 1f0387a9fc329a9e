import Verif.Semaphore.Model
/-
Theorems on the semaphore (C38).
-/
namespace Verif.Semaphore

/-! ## Specification -/

/-- The semaphore is up after the events `tr`: some `set` has no `release` after it. -/
def Up (tr : List Ev) : Prop := ∃ a b, tr = a ++ .set :: b ∧ Ev.release ∉ b

/-- Thread `t` is in a call of `Wait` that began after the events `pre`; `mid` happened since. -/
def InWait (tr : List Ev) (t : Nat) (pre mid : List Ev) : Prop :=
  tr = pre ++ .enter t :: mid ∧ Ev.enter t ∉ mid ∧ Ev.ret t ∉ mid

/-- The return from `Wait` at the end of `tr` is justified: the semaphore was down at the call or has
been released since. -/
def Justified (tr : List Ev) (t : Nat) : Prop :=
  ∃ pre mid, InWait tr t pre mid ∧ (¬ Up pre ∨ Ev.release ∈ mid)

theorem up_snoc_other (tr : List Ev) (e : Ev) (h1 : e ≠ .set) (h2 : e ≠ .release) : Up (tr ++ [e]) ↔ Up tr := by
  constructor
  · rintro ⟨a, b, hab, hb⟩
    rcases List.eq_nil_or_concat b with rfl | ⟨b', x, rfl⟩
    · have := List.append_inj_right' hab rfl
      simp at this; exact absurd this h1
    · rw [List.concat_eq_append] at hab hb
      have e' : a ++ .set :: (b' ++ [x]) = (a ++ .set :: b') ++ [x] := by simp
      rw [e'] at hab
      exact ⟨a, b', (List.append_inj' hab rfl).1, fun hm => hb (by simp [hm])⟩
  · rintro ⟨a, b, rfl, hb⟩
    exact ⟨a, b ++ [e], by simp, by simp [hb]; exact fun h => h2 h.symm⟩

theorem up_set (tr : List Ev) : Up (tr ++ [.set]) := ⟨tr, [], rfl, by simp⟩

theorem not_up_release (tr : List Ev) : ¬ Up (tr ++ [.release]) := by
  rintro ⟨a, b, hab, hb⟩
  rcases List.eq_nil_or_concat b with rfl | ⟨b', x, rfl⟩
  · have := List.append_inj_right' hab rfl
    simp at this
  · rw [List.concat_eq_append] at hab hb
    have e' : a ++ .set :: (b' ++ [x]) = (a ++ .set :: b') ++ [x] := by simp
    rw [e'] at hab
    have := (List.append_inj' hab rfl).2
    simp at this
    exact hb (by simp [this])

theorem flag_up (sp : Bool) (tr : List Ev) (s : St) (h : Run sp tr s) : s.flag = true ↔ Up tr := by
  induction h with
  | nil =>
    constructor
    · intro h; simp [St.init] at h
    · rintro ⟨a, b, hab, _⟩; simp at hab
  | snoc _ hstep ih =>
    cases hstep with
    | set => simp [up_set]
    | releaseNone h => simp [not_up_release]
    | releaseOne t h => simp [St.move, not_up_release]
    | enterFree t h hf => rw [up_snoc_other _ _ (by simp) (by simp)]; simpa [St.move] using ih
    | enterBlock t h hf => rw [up_snoc_other _ _ (by simp) (by simp)]; simpa [St.move] using ih
    | retReady t h => rw [up_snoc_other _ _ (by simp) (by simp)]; simpa [St.move] using ih
    | retNotified t h => rw [up_snoc_other _ _ (by simp) (by simp)]; simpa [St.move] using ih
    | retSpurious t h hs => rw [up_snoc_other _ _ (by simp) (by simp)]; simpa [St.move] using ih

example : Up [.release, .set, .enter 3, .ret 3] ∧ ¬ Up [.set, .release] :=
  ⟨⟨[.release], [.enter 3, .ret 3], rfl, by decide⟩, not_up_release [.set]⟩

theorem inWait_snoc {tr : List Ev} {t : Nat} {pre mid : List Ev} {e : Ev} (h : InWait tr t pre mid)
    (h1 : e ≠ .enter t) (h2 : e ≠ .ret t) : InWait (tr ++ [e]) t pre (mid ++ [e]) := by
  obtain ⟨rfl, g1, g2⟩ := h
  exact ⟨by simp, by simp [g1]; exact fun h => h1 h.symm, by simp [g2]; exact fun h => h2 h.symm⟩

/-- What is known of a thread by its position. -/
def Known (tr : List Ev) (t : Nat) : Pos → Prop
  | .out => True
  | .ready => ∃ pre mid, InWait tr t pre mid ∧ ¬ Up pre
  | .blocked => ∃ pre mid, InWait tr t pre mid
  | .notified => ∃ pre mid, InWait tr t pre mid ∧ Ev.release ∈ mid

theorem known_snoc {tr : List Ev} {t : Nat} {p : Pos} {e : Ev} (h : Known tr t p)
    (h1 : e ≠ .enter t) (h2 : e ≠ .ret t) : Known (tr ++ [e]) t p := by
  cases p with
  | out => trivial
  | ready => obtain ⟨pre, mid, hw, hu⟩ := h; exact ⟨pre, _, inWait_snoc hw h1 h2, hu⟩
  | blocked => obtain ⟨pre, mid, hw⟩ := h; exact ⟨pre, _, inWait_snoc hw h1 h2⟩
  | notified => obtain ⟨pre, mid, hw, hu⟩ := h; exact ⟨pre, _, inWait_snoc hw h1 h2, by simp [hu]⟩

theorem known (sp : Bool) (tr : List Ev) (s : St) (h : Run sp tr s) (u : Nat) : Known tr u (s.pos u) := by
  induction h generalizing u with
  | nil => trivial
  | snoc hr hstep ih =>
    cases hstep with
    | set => exact known_snoc (ih u) (by simp) (by simp)
    | releaseNone h => exact known_snoc (ih u) (by simp) (by simp)
    | releaseOne t h =>
      by_cases hu : u = t
      · subst hu
        simp only [St.move, if_true]
        have := ih u
        rw [h] at this
        obtain ⟨pre, mid, hw⟩ := this
        exact ⟨pre, mid ++ [.release], inWait_snoc hw (by simp) (by simp), by simp⟩
      · simp only [St.move, if_neg hu]
        exact known_snoc (ih u) (by simp) (by simp)
    | enterFree t h hf =>
      by_cases hu : u = t
      · subst hu
        simp only [St.move, if_true]
        refine ⟨_, [], ⟨rfl, by simp, by simp⟩, ?_⟩
        rw [← flag_up sp _ _ hr]; simp [hf]
      · simp only [St.move, if_neg hu]
        exact known_snoc (ih u) (by simp; exact fun h => hu h.symm) (by simp)
    | enterBlock t h hf =>
      by_cases hu : u = t
      · subst hu
        simp only [St.move, if_true]
        exact ⟨_, [], rfl, by simp, by simp⟩
      · simp only [St.move, if_neg hu]
        exact known_snoc (ih u) (by simp; exact fun h => hu h.symm) (by simp)
    | retReady t h =>
      by_cases hu : u = t
      · subst hu; simp only [St.move, if_true]; trivial
      · simp only [St.move, if_neg hu]
        exact known_snoc (ih u) (by simp) (by simp; exact fun h => hu h.symm)
    | retNotified t h =>
      by_cases hu : u = t
      · subst hu; simp only [St.move, if_true]; trivial
      · simp only [St.move, if_neg hu]
        exact known_snoc (ih u) (by simp) (by simp; exact fun h => hu h.symm)
    | retSpurious t h hs =>
      by_cases hu : u = t
      · subst hu; simp only [St.move, if_true]; trivial
      · simp only [St.move, if_neg hu]
        exact known_snoc (ih u) (by simp) (by simp; exact fun h => hu h.symm)

/-- Without spurious wake-ups, in every execution with any number of threads, a thread returns from
`Wait` only if the semaphore was down when it called or has been released since.  Missing to the full
property: spurious wake-ups, see `wait_spurious_fails`. -/
theorem wait_justified_partial (tr : List Ev) (t : Nat) (s s' : St) (h : Run false tr s)
    (hs : Step false s (.ret t) s') : Justified tr t := by
  have hk := known false tr s h t
  cases hs with
  | retReady _ hp =>
    rw [hp] at hk
    obtain ⟨pre, mid, hw, hu⟩ := hk
    exact ⟨pre, mid, hw, Or.inl hu⟩
  | retNotified _ hp =>
    rw [hp] at hk
    obtain ⟨pre, mid, hw, hu⟩ := hk
    exact ⟨pre, mid, hw, Or.inr hu⟩
  | retSpurious _ hp hsp => simp at hsp

/-- The example execution: up, a thread waits, another releases, the thread returns. -/
example : ∃ s, Run false ([] ++ [.set] ++ [.enter 7] ++ [.release] ++ [.ret 7]) s :=
  ⟨_, ((((Run.nil.snoc (.set _)).snoc (.enterBlock _ 7 rfl rfl)).snoc (.releaseOne _ 7 rfl)).snoc
    (.retNotified _ 7 rfl))⟩

/-- With spurious wake-ups, which the C++ standard allows, `Wait` may return although the semaphore has
been up all the time: the flag is tested by `if`, not in a loop. -/
theorem wait_spurious_fails :
    ¬ ∀ (tr : List Ev) (t : Nat) (s s' : St), Run true tr s → Step true s (.ret t) s' → Justified tr t := by
  intro h
  have hr : Run true ([] ++ [.set] ++ [.enter 7]) _ := (Run.nil.snoc (.set _)).snoc (.enterBlock _ 7 rfl rfl)
  obtain ⟨pre, mid, ⟨h1, h2, h3⟩, h4⟩ := h _ 7 _ _ hr (.retSpurious _ 7 rfl rfl)
  simp only [List.nil_append, List.cons_append] at h1
  cases pre with
  | nil => simp at h1
  | cons a pre =>
    simp only [List.cons_append, List.cons.injEq] at h1
    obtain ⟨rfl, h1⟩ := h1
    cases pre with
    | nil =>
      simp only [List.nil_append, List.cons.injEq, true_and] at h1
      subst h1
      rcases h4 with h4 | h4
      · exact h4 (up_set [])
      · simp at h4
    | cons b pre => simp at h1

/-- At most one thread waits at a time. -/
def Single (tr : List Ev) (t : Nat) : Prop := ∀ u, Ev.enter u ∈ tr → u = t

theorem out_of_single (sp : Bool) (tr : List Ev) (s : St) (h : Run sp tr s) (t u : Nat) (hs : Single tr t)
    (hu : u ≠ t) : s.pos u = .out := by
  have hk := known sp tr s h u
  cases hp : s.pos u with
  | out => rfl
  | ready =>
    rw [hp] at hk; obtain ⟨pre, mid, ⟨rfl, _⟩, _⟩ := hk
    exact absurd (hs u (by simp)) hu
  | blocked =>
    rw [hp] at hk; obtain ⟨pre, mid, rfl, _⟩ := hk
    exact absurd (hs u (by simp)) hu
  | notified =>
    rw [hp] at hk; obtain ⟨pre, mid, ⟨rfl, _⟩, _⟩ := hk
    exact absurd (hs u (by simp)) hu

/-- No lost wake-up for a single waiting thread: whenever the semaphore is down that thread is not held
inside `Wait`. -/
theorem single_waiter_not_stuck (sp : Bool) (tr : List Ev) (s : St) (h : Run sp tr s) (t : Nat)
    (hs : Single tr t) (hd : ¬ Up tr) : s.pos t ≠ .blocked := by
  rw [← flag_up sp tr s h] at hd
  suffices hh : s.pos t = .blocked → s.flag = true from fun hb => hd (hh hb)
  clear hd
  induction h with
  | nil => intro hb; simp [St.init] at hb
  | snoc hr hstep ih =>
    have hs' : Single _ t := fun u hu => hs u (List.mem_append_left _ hu)
    have ih := ih hs'
    cases hstep with
    | set => intro _; rfl
    | releaseNone hn => intro hb; exact absurd hb (hn t)
    | releaseOne u hu =>
      have hut : u = t := by
        by_cases e : u = t
        · exact e
        · have := out_of_single sp _ _ hr t u hs' e
          rw [hu] at this; exact absurd this (by simp)
      subst hut
      simp [St.move]
    | enterFree u hu hf =>
      have : u = t := hs u (by simp)
      subst this
      simp [St.move]
    | enterBlock u hu hf => intro _; exact hf
    | retReady u hu =>
      simp only [St.move]
      by_cases e : t = u
      · simp [e]
      · rw [if_neg e]; exact ih
    | retNotified u hu =>
      simp only [St.move]
      by_cases e : t = u
      · simp [e]
      · rw [if_neg e]; exact ih
    | retSpurious u hu _ =>
      simp only [St.move]
      by_cases e : t = u
      · simp [e]
      · rw [if_neg e]; exact ih

example : Single [.set, .enter 7, .release] 7 ∧ ¬ Up [.set, .enter 7, .release] :=
  ⟨by intro u hu; simpa using hu, not_up_release [.set, .enter 7]⟩

/-- Two threads waiting: one release wakes only one of them, the other stays inside `Wait` though the
semaphore is down. -/
theorem two_waiters_stuck_fails : ¬ ∀ (tr : List Ev) (s : St) (t : Nat), Run false tr s → ¬ Up tr →
    s.pos t ≠ .blocked := by
  intro h
  have hr : Run false ([] ++ [.set] ++ [.enter 1] ++ [.enter 2] ++ [.release]) _ :=
    (((Run.nil.snoc (.set _)).snoc (.enterBlock _ 1 rfl rfl)).snoc (.enterBlock _ 2 rfl rfl)).snoc
      (.releaseOne _ 1 rfl)
  exact h _ _ 2 hr (not_up_release _) rfl

end Verif.Semaphore
