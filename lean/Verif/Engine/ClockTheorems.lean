import Mathlib.Algebra.Order.Archimedean.Basic
import Mathlib.Data.Rat.Floor
import Mathlib.Tactic.Linarith
import Verif.Engine.ClockModel

namespace Verif.Engine

open Verif.Common

/-! ## Specification -/

/-- What holds of the clock between frames. -/
structure Sound (c : Clock) : Prop where
  le : c.sim ≤ c.tru
  start : 0 ≤ c.tru
  head : 0 ≤ c.head
  /-- without a ghost under way the two times are the same up to a millionth -/
  synced : c.mode = .normal → c.tru - c.sim < 1 / 1000000

/-- States reached by frames of non-negative steps (the single frames, including those in which the ghost runs alone). -/
inductive Reached (ghostHead : Rat) : Clock → Prop where
  | load : Reached ghostHead (load ghostHead)
  | frame {c : Clock} (dt : Rat) (i : Input) : Reached ghostHead c → 0 ≤ dt → Reached ghostHead (scenarioFrame dt i c).1

/-! ## Steps -/

theorem tick_cases (t : Rat) : (tick t = t) ∨ (tick t = 0 ∧ t < 0 ∧ -(1 / 1000000) < t) := by
  unfold tick small
  split
  · rename_i h; exact Or.inr ⟨rfl, h.1, h.2⟩
  · exact Or.inl rfl

theorem sound_ugm {c : Clock} (h : Sound c) : Sound (updateGhostMode c) := by
  have h1 := h.le
  have h2 := h.start
  have h3 := h.head
  have h4 := h.synced
  unfold updateGhostMode
  cases hm : c.mode with
  | normal => simpa [hm] using h
  | restart => exact ⟨by show c.sim - c.head ≤ c.tru; linarith, h2, h3, by simp⟩
  | restarting =>
    simp only
    split
    · rename_i hs
      unfold small at hs
      exact ⟨h1, h2, h3, fun _ => by show c.tru - c.sim < _; linarith⟩
    · exact h

theorem sound_teleport {c : Clock} (r : Bool) (h : Sound c) : Sound (teleport r c) := by
  unfold teleport
  split
  · exact ⟨h.le, h.start, h.head, by simp⟩
  · exact h

theorem sound_advance {c : Clock} {dt : Rat} (hd : 0 ≤ dt) (h : Sound c) : Sound (advance dt c) := by
  have h1 := h.le
  have h2 := h.start
  have h4 := h.synced
  unfold advance
  refine ⟨?_, ?_, h.head, ?_⟩
  · show tick (c.sim + dt) ≤ if tick (c.sim + dt) > c.tru then tick (c.sim + dt) else c.tru
    split
    · exact le_rfl
    · linarith
  · show 0 ≤ if tick (c.sim + dt) > c.tru then tick (c.sim + dt) else c.tru
    split
    · linarith
    · exact h2
  · intro hm
    have := h4 hm
    show (if tick (c.sim + dt) > c.tru then tick (c.sim + dt) else c.tru) - tick (c.sim + dt) < _
    split
    · rw [sub_self]; norm_num
    · rcases tick_cases (c.sim + dt) with e | ⟨e, e1, e2⟩ <;> rw [e] <;> linarith

theorem sound_step {c : Clock} {dt : Rat} {i : Input} (hd : 0 ≤ dt) (h : Sound c) : Sound (step dt i c).1 := by
  unfold step
  split
  · exact sound_advance hd (sound_teleport _ (sound_ugm h))
  · exact sound_teleport _ (sound_ugm h)

theorem sound_frame {c : Clock} {dt : Rat} {i : Input} (hd : 0 ≤ dt) (h : Sound c) : Sound (scenarioFrame dt i c).1 :=
  sound_ugm (sound_step hd h)

theorem sound_load (g : Rat) : Sound (load g) := by
  unfold load
  split
  · rename_i h; exact ⟨le_rfl, le_rfl, (le_of_lt h : (0:Rat) ≤ g), by simp⟩
  · exact ⟨le_rfl, le_rfl, le_rfl, by intro _; norm_num⟩

/-- In every state that frames lead to: simulation time is not ahead of true time, both are the same (up to a millionth) in normal mode. -/
theorem reached_sound {g : Rat} {c : Clock} (h : Reached g c) : Sound c := by
  induction h with
  | load => exact sound_load g
  | frame dt i _ hd ih => exact sound_frame hd ih

theorem ugm_tru (c : Clock) : (updateGhostMode c).tru = c.tru := by
  unfold updateGhostMode
  cases c.mode <;> simp only
  split <;> rfl

theorem ugm_head (c : Clock) : (updateGhostMode c).head = c.head := by
  unfold updateGhostMode
  cases c.mode <;> simp only
  split <;> rfl

theorem teleport_rest (r : Bool) (c : Clock) : (teleport r c).tru = c.tru ∧ (teleport r c).sim = c.sim ∧ (teleport r c).head = c.head := by
  unfold teleport
  split <;> exact ⟨rfl, rfl, rfl⟩

/-- True time never decreases, for any step length and whatever the scenario does. -/
theorem true_monotone (dt : Rat) (i : Input) (c : Clock) : c.tru ≤ (scenarioFrame dt i c).1.tru := by
  unfold scenarioFrame
  rw [ugm_tru]
  unfold step
  split
  · show c.tru ≤ (advance dt _).tru
    unfold advance
    simp only [(teleport_rest _ _).1, (teleport_rest _ _).2.1, ugm_tru]
    split
    · rename_i h; exact le_of_lt h
    · exact le_rfl
  · show c.tru ≤ (teleport _ _).tru
    rw [(teleport_rest _ _).1, ugm_tru]

/-- After a frame the restart has been carried out. -/
theorem frame_mode (dt : Rat) (i : Input) (c : Clock) : (scenarioFrame dt i c).1.mode ≠ .restart := by
  unfold scenarioFrame updateGhostMode
  cases h : (step dt i c).1.mode <;> simp only
  · rw [h]; simp
  · simp
  · split
    · simp
    · rw [h]; simp

theorem ugm_sim {c : Clock} (h : c.mode ≠ .restart) : (updateGhostMode c).sim = c.sim := by
  unfold updateGhostMode
  cases hm : c.mode <;> simp only
  · exact absurd hm h
  · split <;> rfl

theorem ugm_not_restart (c : Clock) : (updateGhostMode c).mode ≠ .restart := by
  unfold updateGhostMode
  cases hm : c.mode <;> simp only
  · rw [hm]; simp
  · simp
  · split
    · simp
    · rw [hm]; simp

/-- A frame moves simulation time by the step, and back by the head start exactly if the ghost is restarted in it (which it can be
once the simulation time is above 0); then the mode is `restarting`. A value within a millionth below zero is replaced by zero. -/
theorem frame_sim {dt : Rat} {i : Input} {c : Clock} (hm : c.mode ≠ .restart) (hr : i.run = true) :
    (i.restart = true ∧ 1 / 1000000 < c.sim → (scenarioFrame dt i c).1.mode = .restarting ∧
      ∃ t, (scenarioFrame dt i c).1.sim = t - c.head ∧ (t = c.sim + dt ∨ (t = 0 ∧ c.sim + dt < 0 ∧ -(1 / 1000000) < c.sim + dt))) ∧
    (¬(i.restart = true ∧ 1 / 1000000 < c.sim) → (scenarioFrame dt i c).1.sim = c.sim + dt ∨
      ((scenarioFrame dt i c).1.sim = 0 ∧ c.sim + dt < 0 ∧ -(1 / 1000000) < c.sim + dt)) := by
  have hs := ugm_sim hm
  constructor
  · rintro ⟨h1, h2⟩
    have ht : teleport i.restart (updateGhostMode c) = { updateGhostMode c with mode := .restart } := by
      unfold teleport
      rw [if_pos]
      simp only [h1, Bool.true_and, decide_eq_true_eq, hs]
      exact h2
    have e : (scenarioFrame dt i c).1 = { advance dt (updateGhostMode c) with sim := tick (c.sim + dt) - c.head, mode := .restarting } := by
      unfold scenarioFrame step
      rw [if_pos hr, ht]
      have hh := ugm_head c
      generalize updateGhostMode c = d at hs hh ⊢
      simp only [updateGhostMode, advance]
      rw [hs, hh]
    rw [e]
    exact ⟨rfl, tick (c.sim + dt), rfl, tick_cases _⟩
  · intro h
    have ht : teleport i.restart (updateGhostMode c) = updateGhostMode c := by
      unfold teleport
      rw [if_neg]
      simp only [Bool.and_eq_true, decide_eq_true_eq, hs]
      exact h
    have e : (scenarioFrame dt i c).1.sim = tick (c.sim + dt) := by
      unfold scenarioFrame step
      rw [if_pos hr, ht]
      rw [ugm_sim (show (advance dt (updateGhostMode c)).mode ≠ .restart from ugm_not_restart c)]
      simp only [advance, hs]
    rw [e]
    exact tick_cases _

/-- Going from any other mode to normal mode happens only with simulation time caught up with true time. -/
theorem resume_synced {dt : Rat} {i : Input} {c : Clock} (hd : 0 ≤ dt) (h : Sound c) (hn : (scenarioFrame dt i c).1.mode = .normal) :
    (scenarioFrame dt i c).1.tru - (scenarioFrame dt i c).1.sim < 1 / 1000000 ∧ (scenarioFrame dt i c).1.sim ≤ (scenarioFrame dt i c).1.tru :=
  ⟨(sound_frame hd h).synced hn, (sound_frame hd h).le⟩

/-! ## The ghost running alone -/

/-- A frame without restart moves true time by at most the step, and not at all while simulation time is behind. -/
theorem frame_tru {dt : Rat} {i : Input} {c : Clock} (h : Sound c) (hd : 0 ≤ dt) (hm : c.mode ≠ .restart) :
    (scenarioFrame dt i c).1.tru ≤ c.tru + dt := by
  have h1 := h.le
  have h2 := h.start
  unfold scenarioFrame
  rw [ugm_tru]
  unfold step
  split
  · show (advance dt _).tru ≤ _
    unfold advance
    simp only [(teleport_rest _ _).1, (teleport_rest _ _).2.1, ugm_tru, ugm_sim hm]
    split
    · rcases tick_cases (c.sim + dt) with e | ⟨e, -, -⟩ <;> rw [e] <;> linarith
    · linarith
  · show (teleport _ _).tru ≤ _
    rw [(teleport_rest _ _).1, ugm_tru]
    linarith

/-- A frame of the ghost running alone, without another restart: it ends the phase, or the ghost got closer by the step and true time
stood still. -/
theorem solo_frame {dt : Rat} {i : Input} {c : Clock} (h : Sound c) (hm : c.mode = .restarting) (hr : i.restart = false)
    (hrun : i.run = true) : (scenarioFrame dt i c).2 = false ∧ ((scenarioFrame dt i c).1.mode = .normal ∨
      ((scenarioFrame dt i c).1.mode = .restarting ∧ (scenarioFrame dt i c).1.tru = c.tru ∧ c.sim + dt ≤ (scenarioFrame dt i c).1.sim ∧
        1 / 1000000 ≤ (scenarioFrame dt i c).1.tru - (scenarioFrame dt i c).1.sim)) := by
  have h1 := h.le
  have h2 := h.start
  have ht : ∀ c', teleport i.restart c' = c' := by intro c'; unfold teleport; rw [hr]; simp
  have e : scenarioFrame dt i c = (updateGhostMode (advance dt (updateGhostMode c)), false) := by
    unfold scenarioFrame step
    rw [if_pos hrun, ht]
  rw [e]
  refine ⟨rfl, ?_⟩
  show (updateGhostMode (advance dt (updateGhostMode c))).mode = .normal ∨ _
  have hu : updateGhostMode c = if c.sim > c.tru - small then { c with mode := .normal } else c := by
    unfold updateGhostMode; rw [hm]
  by_cases hg : c.sim > c.tru - small
  · left
    rw [hu, if_pos hg]
    rfl
  · rw [hu, if_neg hg]
    have hma : (advance dt c).mode = .restarting := hm
    have hu2 : updateGhostMode (advance dt c) = if (advance dt c).sim > (advance dt c).tru - small then { advance dt c with mode := .normal } else advance dt c := by
      unfold updateGhostMode; rw [hma]
    by_cases hg2 : (advance dt c).sim > (advance dt c).tru - small
    · left; rw [hu2, if_pos hg2]
    · right
      rw [hu2, if_neg hg2]
      have hsim : (advance dt c).sim = tick (c.sim + dt) := rfl
      have htru : (advance dt c).tru = if tick (c.sim + dt) > c.tru then tick (c.sim + dt) else c.tru := rfl
      have hnot : ¬tick (c.sim + dt) > c.tru := by
        intro hc
        rw [hsim, htru, if_pos hc] at hg2
        unfold small at hg2
        linarith
      rw [if_neg hnot] at htru
      refine ⟨hma, htru, ?_, ?_⟩
      · rw [hsim]
        rcases tick_cases (c.sim + dt) with e | ⟨e, e1, -⟩ <;> rw [e]
        exact e1.le
      · unfold small at hg2
        linarith

/-- While the ghost runs alone without being restarted again, it catches up. -/
theorem solo_ends {dt : Rat} (hd : 0 < dt) {ins : Nat → Input} : ∀ (n k : Nat) (r : Clock × Bool), Sound r.1 → r.1.mode ≠ .restart →
    (∀ j, k ≤ j → (ins j).restart = false) → r.1.tru - r.1.sim ≤ n * dt → ∃ r', soloLoop dt ins (n + 1) k r = some r' := by
  intro n
  induction n with
  | zero =>
    intro k r hs hm hr hg
    rw [soloLoop]
    split
    · rename_i hc
      have hmr : r.1.mode = .restarting := by
        cases h : r.1.mode
        · exact absurd h hc.2
        · exact absurd h hm
        · rfl
      by_cases hrun : (ins k).run = true
      · obtain ⟨f1, f2⟩ := solo_frame (i := ins k) hs hmr (hr k le_rfl) hrun
        rw [soloLoop]
        split
        · rename_i hc2
          exfalso
          rcases f2 with f2 | ⟨-, f3, f4, f5⟩
          · exact hc2.2 f2
          · simp at hg
            linarith
        · exact ⟨_, rfl⟩
      · have : (scenarioFrame dt (ins k) r.1).2 = true := by unfold scenarioFrame step; rw [if_neg hrun]
        rw [soloLoop, if_neg (by rw [this]; simp)]
        exact ⟨_, rfl⟩
    · exact ⟨_, rfl⟩
  | succ n ih =>
    intro k r hs hm hr hg
    rw [soloLoop]
    split
    · rename_i hc
      have hmr : r.1.mode = .restarting := by
        cases h : r.1.mode
        · exact absurd h hc.2
        · exact absurd h hm
        · rfl
      by_cases hrun : (ins k).run = true
      · obtain ⟨f1, f2⟩ := solo_frame (i := ins k) hs hmr (hr k le_rfl) hrun
        rcases f2 with f2 | ⟨f2, f3, f4, f5⟩
        · rw [soloLoop, if_neg (by rw [f2]; simp)]
          exact ⟨_, rfl⟩
        · refine ih (k + 1) _ (sound_frame hd.le hs) (by rw [f2]; simp) (fun j hj => hr j (by omega)) ?_
          rw [f3]
          push_cast at hg
          linarith
      · have : (scenarioFrame dt (ins k) r.1).2 = true := by unfold scenarioFrame step; rw [if_neg hrun]
        rw [soloLoop, if_neg (by rw [this]; simp)]
        exact ⟨_, rfl⟩
    · exact ⟨_, rfl⟩

/-- With a positive step and finitely many restarts the phase in which the ghost runs alone is over after finitely many steps. -/
theorem solo_finite {dt : Rat} (hd : 0 < dt) {ins : Nat → Input} {K : Nat} (hK : ∀ j, K ≤ j → (ins j).restart = false) :
    ∀ (d k : Nat) (r : Clock × Bool), K ≤ k + d → Sound r.1 → r.1.mode ≠ .restart → ∃ fuel r', soloLoop dt ins fuel k r = some r' := by
  intro d
  induction d with
  | zero =>
    intro k r hk hs hm
    obtain ⟨n, hn⟩ := exists_nat_ge ((r.1.tru - r.1.sim) / dt)
    rw [div_le_iff₀ hd] at hn
    exact ⟨n + 1, solo_ends hd n k r hs hm (fun j hj => hK j (by omega)) hn⟩
  | succ d ih =>
    intro k r hk hs hm
    by_cases hc : r.2 = false ∧ r.1.mode ≠ .normal
    · obtain ⟨fuel, r', h⟩ := ih (k + 1) (scenarioFrame dt (ins k) r.1) (by omega) (sound_frame hd.le hs) (frame_mode _ _ _)
      exact ⟨fuel + 1, r', by rw [soloLoop, if_pos hc]; exact h⟩
    · exact ⟨0, r, by rw [soloLoop, if_neg hc]⟩

/-- A frame of the player returns, if the fixed time step is not zero and the scenario does not restart the ghost endlessly. -/
theorem frame_returns_partial {fixed dt : Rat} {ins : Nat → Input} {c : Clock} (hf : fixed ≠ 0) (hd : 0 ≤ dt) (h : Sound c)
    (hK : ∃ K, ∀ j, K ≤ j → (ins j).restart = false) : ∃ fuel r, frame fixed dt ins fuel c = some r := by
  obtain ⟨K, hK⟩ := hK
  have hs : 0 < soloDt fixed := by
    unfold soloDt
    split
    · norm_num
    · rename_i hn
      exact lt_of_le_of_ne (not_lt.1 hn) (Ne.symm hf)
  unfold frame
  exact solo_finite hs hK K 1 _ (by omega) (sound_frame hd h) (frame_mode _ _ _)

theorem solo_result {dt : Rat} (hd : 0 ≤ dt) {ins : Nat → Input} : ∀ (fuel k : Nat) (r r' : Clock × Bool), Sound r.1 →
    soloLoop dt ins fuel k r = some r' → Sound r'.1 ∧ r.1.tru ≤ r'.1.tru ∧ (r'.2 = false → r'.1.mode = .normal) := by
  intro fuel
  induction fuel with
  | zero =>
    intro k r r' hs h
    rw [soloLoop] at h
    split at h
    · simp at h
    · rename_i hc
      obtain rfl := Option.some.inj h
      refine ⟨hs, le_rfl, fun hf => ?_⟩
      by_contra hn
      exact hc ⟨hf, hn⟩
  | succ n ih =>
    intro k r r' hs h
    rw [soloLoop] at h
    split at h
    · obtain ⟨i1, i2, i3⟩ := ih _ _ _ (sound_frame hd hs) h
      exact ⟨i1, (true_monotone dt (ins k) r.1).trans i2, i3⟩
    · rename_i hc
      obtain rfl := Option.some.inj h
      refine ⟨hs, le_rfl, fun hf => ?_⟩
      by_contra hn
      exact hc ⟨hf, hn⟩

/-- After a frame of the player that did not end the scenario the user sees normal mode, simulation time equal to true time up to a
millionth, and true time not before what it was. -/
theorem frame_result {fixed dt : Rat} {ins : Nat → Input} {fuel : Nat} {c : Clock} {r : Clock × Bool} (hd : 0 ≤ dt) (h : Sound c)
    (hr : frame fixed dt ins fuel c = some r) : c.tru ≤ r.1.tru ∧ r.1.sim ≤ r.1.tru ∧
      (r.2 = false → r.1.mode = .normal ∧ r.1.tru - r.1.sim < 1 / 1000000) := by
  have hs : 0 ≤ soloDt fixed := by
    unfold soloDt
    split
    · norm_num
    · rename_i hn; exact not_lt.1 hn
  unfold frame at hr
  obtain ⟨i1, i2, i3⟩ := solo_result hs fuel 1 _ r (sound_frame hd h) hr
  exact ⟨(true_monotone _ _ _).trans i2, i1.le, fun hf => ⟨i3 hf, i1.synced (i3 hf)⟩⟩

theorem solo_drift {dt : Rat} (hd : 0 ≤ dt) {ins : Nat → Input} : ∀ (fuel k : Nat) (r r' : Clock × Bool), Sound r.1 → r.1.mode ≠ .restart →
    (∀ j, k ≤ j → (ins j).restart = false) → soloLoop dt ins fuel k r = some r' → r'.1.tru ≤ r.1.tru + dt := by
  intro fuel
  induction fuel with
  | zero =>
    intro k r r' hs hm hn h
    rw [soloLoop] at h
    split at h
    · simp at h
    · obtain rfl := Option.some.inj h; linarith
  | succ n ih =>
    intro k r r' hs hm hn h
    rw [soloLoop] at h
    split at h
    · rename_i hc
      have hmr : r.1.mode = .restarting := by
        cases h : r.1.mode
        · exact absurd h hc.2
        · exact absurd h hm
        · rfl
      have ht := frame_tru (i := ins k) hs hd hm
      have stop : ∀ q : Clock × Bool, ¬(q.2 = false ∧ q.1.mode ≠ .normal) → soloLoop dt ins n (k + 1) q = some r' → r' = q := by
        intro q hq hh
        cases n with
        | zero => rw [soloLoop, if_neg hq] at hh; exact (Option.some.inj hh).symm
        | succ m => rw [soloLoop, if_neg hq] at hh; exact (Option.some.inj hh).symm
      by_cases hrun : (ins k).run = true
      · obtain ⟨f1, f2⟩ := solo_frame (i := ins k) hs hmr (hn k le_rfl) hrun
        rcases f2 with f2 | ⟨f2, f3, f4, f5⟩
        · rw [stop _ (by rw [f2]; simp) h]; exact ht
        · have := ih (k + 1) _ _ (sound_frame hd hs) (by rw [f2]; simp) (fun j hj => hn j (by omega)) h
          rw [f3] at this
          exact this
      · have he : (scenarioFrame dt (ins k) r.1).2 = true := by unfold scenarioFrame step; rw [if_neg hrun]
        rw [stop _ (by rw [he]; simp) h]; exact ht
    · obtain rfl := Option.some.inj h; linarith

/-- A frame of the player from normal mode, in which the ghost may be restarted once: true time moves by the step, plus at most one step of the
ghost running alone. -/
theorem frame_advance {fixed dt : Rat} {ins : Nat → Input} {fuel : Nat} {c : Clock} {r : Clock × Bool} (hd : 0 ≤ dt) (h : Sound c)
    (hm : c.mode = .normal) (hn : ∀ j, 1 ≤ j → (ins j).restart = false) (h0 : (ins 0).run = true)
    (hr : frame fixed dt ins fuel c = some r) : c.tru + dt - 1 / 1000000 ≤ r.1.tru ∧ r.1.tru ≤ c.tru + dt + soloDt fixed := by
  have hs : 0 ≤ soloDt fixed := by
    unfold soloDt
    split
    · norm_num
    · rename_i hn; exact not_lt.1 hn
  have hmr : c.mode ≠ .restart := by rw [hm]; simp
  have hg := h.synced hm
  unfold frame at hr
  have lower : c.tru + dt - 1 / 1000000 ≤ (scenarioFrame dt (ins 0) c).1.tru := by
    unfold scenarioFrame
    rw [ugm_tru]
    unfold step
    rw [if_pos h0]
    show _ ≤ (advance dt _).tru
    unfold advance
    simp only [(teleport_rest _ _).1, (teleport_rest _ _).2.1, ugm_tru, ugm_sim hmr]
    split
    · rcases tick_cases (c.sim + dt) with e | ⟨e, e1, -⟩ <;> rw [e] <;> linarith
    · rename_i hc
      rcases tick_cases (c.sim + dt) with e | ⟨e, e1, -⟩ <;> rw [e] at hc <;> linarith
  have i2 := (solo_result hs fuel 1 _ r (sound_frame hd h) hr).2.1
  have upper := solo_drift hs fuel 1 _ r (sound_frame hd h) (frame_mode _ _ _) hn hr
  have := frame_tru (i := ins 0) h hd hmr
  exact ⟨by linarith, by linarith⟩

/-! ## Concrete cases -/

/-- A ghost with a head start of 2.5 s at load: the frame with step 0 at the end of the initialisation, the ghost running alone with 0.05 s. -/
example : frame (-1) 0 (fun _ => ⟨false, true⟩) 60 (load (5 / 2)) = some (⟨0, 0, 5 / 2, .normal⟩, false) := by decide +kernel

/-- A restart at 10 s, fixed step 0.1 s. -/
example : frame (1 / 10) (1 / 10) (fun k => ⟨k == 0, true⟩) 30 ⟨10, 10, 5 / 2, .normal⟩ = some (⟨101 / 10, 101 / 10, 5 / 2, .normal⟩, false) ∧
    Sound ⟨10, 10, 5 / 2, .normal⟩ := by
  refine ⟨by decide +kernel, by norm_num, by norm_num, by norm_num, by norm_num⟩

/-- A restart with a step that does not divide the head start: the ghost overshoots by 0.02 s. -/
example : frame (12 / 100) (12 / 100) (fun k => ⟨k == 0, true⟩) 30 ⟨10, 10, 5 / 2, .normal⟩ =
    some (⟨1014 / 100, 1014 / 100, 5 / 2, .normal⟩, false) := by decide +kernel

example : Reached (5 / 2) (scenarioFrame (1 / 20) ⟨false, true⟩ (load (5 / 2))).1 := .frame _ _ .load (by norm_num)

/-- Step 0 with the fixed step 0 (as SE_StepDT(0) sets it), and a scenario that restarts the ghost in this step: the frame does not return. -/
theorem zero_step_hangs (fuel : Nat) : frame 0 0 (fun k => ⟨k == 0, true⟩) fuel ⟨1, 1, 5 / 2, .normal⟩ = none := by
  have h0 : scenarioFrame 0 ⟨true, true⟩ ⟨1, 1, 5 / 2, .normal⟩ = (⟨-3 / 2, 1, 5 / 2, .restarting⟩, false) := by decide +kernel
  have h1 : scenarioFrame 0 ⟨false, true⟩ ⟨-3 / 2, 1, 5 / 2, .restarting⟩ = (⟨-3 / 2, 1, 5 / 2, .restarting⟩, false) := by decide +kernel
  have loop : ∀ fuel k, soloLoop 0 (fun k => ⟨k == 0, true⟩) fuel (k + 1) (⟨-3 / 2, 1, 5 / 2, .restarting⟩, false) = none := by
    intro fuel
    induction fuel with
    | zero => intro k; rfl
    | succ n ih =>
      intro k
      rw [soloLoop, if_pos (by simp)]
      show soloLoop 0 _ n (k + 1 + 1) (scenarioFrame 0 ⟨false, true⟩ ⟨-3 / 2, 1, 5 / 2, .restarting⟩) = none
      rw [h1]
      exact ih (k + 1)
  unfold frame
  have : soloDt 0 = 0 := by decide
  rw [this]
  show soloLoop 0 _ fuel 1 (scenarioFrame 0 ⟨true, true⟩ ⟨1, 1, 5 / 2, .normal⟩) = none
  rw [h0]
  exact loop fuel 0

/-- Hence "a frame of the player returns if the scenario restarts the ghost finitely often" is not true of all step lengths. -/
theorem frame_returns_fails : ¬∀ (dt : Rat) (ins : Nat → Input) (c : Clock), 0 ≤ dt → Sound c → (∃ K, ∀ j, K ≤ j → (ins j).restart = false) →
    ∃ fuel r, frame dt dt ins fuel c = some r := by
  intro h
  obtain ⟨fuel, r, hr⟩ := h 0 (fun k => ⟨k == 0, true⟩) ⟨1, 1, 5 / 2, .normal⟩ le_rfl ⟨by norm_num, by norm_num, by norm_num, by norm_num⟩
    ⟨1, fun j hj => by simp; omega⟩
  rw [zero_step_hangs] at hr
  exact absurd hr (by simp)

end Verif.Engine
