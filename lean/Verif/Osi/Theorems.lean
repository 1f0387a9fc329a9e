import Verif.Osi.Model
import Mathlib.Tactic.Linarith

/-
Properties of the reporting of ground truth (C110, C111).
-/
namespace Verif.Osi

/-! ### When ground truth is reported -/

/-- What a user expects to be reported with a frequency `n`: `k` is the number of steps since the first report, a step is
reported if `n` divides it; fetching data does not report anything. -/
def due (n : Nat) : Nat → List Ev → List Nat
  | _, [] => []
  | k, .frame d :: r => if k % n = 0 then d :: due n (k + 1) r else due n (k + 1) r
  | k, _ :: r => due n k r

/-- Only steps and fetches. -/
def Plain : List Ev → Prop := fun l => ∀ e ∈ l, e = .get ∨ ∃ d, e = .frame d

/-- What the reporter knows with frequency `n` before step `k`. -/
structure Sync (n k : Nat) (s : St) : Prop where
  inited : s.inited = true
  freq : s.freq = (n : Int)
  count : s.counter + 1 - s.offset = (k : Int)

theorem tmod_nat (k n : Nat) : ((k : Int)).tmod (n : Int) = 0 ↔ k % n = 0 := by
  rw [← Int.ofNat_tmod]; omega

theorem update_updated (s : St) (hi : s.inited = true) (hu : s.updated = true) : update s = some s := by
  simp [update, hi, hu]

theorem wake_id (s : St) (h : s.freq ≠ 0) : wake s = s := by simp [wake, h]

/-- The messages of the files so far. -/
def dyns (l : List Gt) : List (Option Nat) := l.map (·.dyn)

theorem dyns_append (a b : List Gt) : dyns (a ++ b) = dyns a ++ dyns b := by simp [dyns]

theorem frame_due (n k : Nat) (hn : 0 < n) (s : St) (h : Sync n k s) (d : Nat) (hk : k % n = 0) :
    frame d s = some (report (advance d s)) := by
  have hf : s.freq > 0 := by rw [h.freq]; omega
  have e : (advance d s).counter - (advance d s).offset = (k : Int) := by simp [advance]; exact h.count
  rw [frame, if_pos hf, update]
  have hi : (advance d s).inited = true := h.inited
  have hu : (advance d s).updated = false := rfl
  have hq : ¬ (advance d s).freq = 0 := by show ¬ s.freq = 0; omega
  rw [hi, hu, e]
  simp only [Bool.and_false, Bool.false_eq_true, if_false, if_true, hq]
  have hz : (k : Int).tmod (advance d s).freq = 0 := by
    show (k : Int).tmod s.freq = 0
    rw [h.freq]; exact (tmod_nat k n).mpr hk
  rw [hz]; simp

theorem frame_skip (n k : Nat) (hn : 0 < n) (s : St) (h : Sync n k s) (d : Nat) (hk : k % n ≠ 0) :
    frame d s = some (advance d s) := by
  have hf : s.freq > 0 := by rw [h.freq]; omega
  have e : (advance d s).counter - (advance d s).offset = (k : Int) := by simp [advance]; exact h.count
  rw [frame, if_pos hf, update]
  have hi : (advance d s).inited = true := h.inited
  have hu : (advance d s).updated = false := rfl
  have hq : ¬ (advance d s).freq = 0 := by show ¬ s.freq = 0; omega
  rw [hi, hu, e]
  simp only [Bool.and_false, Bool.false_eq_true, if_false, if_true, hq]
  have hz : (k : Int).tmod (advance d s).freq ≠ 0 := by
    show (k : Int).tmod s.freq ≠ 0
    rw [h.freq]; intro c; exact hk ((tmod_nat k n).mp c)
  rw [if_pos hz]

theorem report_sync (n k : Nat) (s : St) (h : Sync n k s) (d : Nat) : Sync n (k + 1) (report (advance d s)) := by
  refine ⟨rfl, h.freq, ?_⟩
  have := h.count
  simp [report, addStatic, advance, h.inited]; omega

theorem advance_sync (n k : Nat) (s : St) (h : Sync n k s) (d : Nat) : Sync n (k + 1) (advance d s) := by
  refine ⟨h.inited, h.freq, ?_⟩
  have := h.count
  simp [advance]; omega

/-- A fetch between steps changes nothing that is logged: either the last step has been reported or it is not due. -/
def Quiet (n k : Nat) (s : St) : Prop := s.updated = true ∨ (k ≥ 1 ∧ (k - 1) % n ≠ 0)

theorem fetch_sync (n k : Nat) (s : St) (h : Sync n k s) : Sync n k (fetch s) := by
  unfold fetch; split
  · exact ⟨h.inited, h.freq, h.count⟩
  · exact h

theorem get_quiet (n k : Nat) (hn : 0 < n) (s : St) (h : Sync n k s) (hq : Quiet n k s) : step s .get = some (fetch s) := by
  have hf : s.freq ≠ 0 := by rw [h.freq]; omega
  rw [step, wake_id s hf]
  rcases hq with hu | ⟨h1, h2⟩
  · rw [update_updated s h.inited hu]; rfl
  · have e : update s = some s := by
      rw [update, h.inited]
      cases hu : s.updated with
      | true => simp
      | false =>
        have hc : s.counter - s.offset = ((k - 1 : Nat) : Int) := by have := h.count; omega
        have hz : (s.counter - s.offset).tmod s.freq ≠ 0 := by
          rw [hc, h.freq]; intro c; exact h2 ((tmod_nat (k - 1) n).mp c)
        simp only [Bool.and_false, Bool.false_eq_true, if_false, if_true, hf]
        rw [if_pos hz]
    rw [e]; rfl

/-- The main statement, for a reporter that runs and a file that is open: the messages in the file are exactly those of the
steps that are due. -/
theorem log_due (n : Nat) (hn : 0 < n) (evs : List Ev) (hp : Plain evs) (k : Nat) (s : St) (h : Sync n k s)
    (hq : Quiet n k s) (hf : s.file = true) :
    ∃ s', run s evs = some s' ∧ dyns s'.log = dyns s.log ++ (due n k evs).map some ∧
      Sync n (k + (evs.filter (· ≠ .get)).length) s' := by
  induction evs generalizing k s with
  | nil => exact ⟨s, rfl, by simp [due], by simpa using h⟩
  | cons e r ih =>
    have ih := ih (fun x hx => hp x (List.mem_cons_of_mem _ hx))
    rcases hp e List.mem_cons_self with rfl | ⟨d, rfl⟩
    · have e1 := get_quiet n k hn s h hq
      obtain ⟨s', h1, h2, h3⟩ := ih k (fetch s) (fetch_sync n k s h) (by
        unfold fetch; split <;> exact hq) (by unfold fetch; split <;> exact hf)
      refine ⟨s', by rw [run, e1]; exact h1, ?_, by simpa using h3⟩
      rw [h2, due]
      · congr 1; unfold fetch; split <;> rfl
      · intro d; simp
    · by_cases hk : k % n = 0
      · have e1 := frame_due n k hn s h d hk
        obtain ⟨s', h1, h2, h3⟩ := ih (k + 1) (report (advance d s)) (report_sync n k s h d) (.inl rfl) hf
        refine ⟨s', by rw [run, step, e1]; exact h1, ?_, ?_⟩
        · rw [h2, due, if_pos hk]
          have e2 : dyns (report (advance d s)).log = dyns s.log ++ [some d] := by
            show dyns (s.log ++ if s.file then _ else _) = _
            rw [hf, if_pos rfl, dyns_append]
            congr 1
            have hff : (advance d s).file = true := hf
            simp only [dyns, List.map_cons, List.map_nil, serial, hff, Bool.true_or, if_true]
            split <;> rfl
          rw [e2]; simp
        · have : k + 1 + (r.filter (· ≠ .get)).length = k + ((Ev.frame d :: r).filter (· ≠ .get)).length := by
            simp; omega
          rw [← this]; exact h3
      · have e1 := frame_skip n k hn s h d hk
        obtain ⟨s', h1, h2, h3⟩ := ih (k + 1) (advance d s) (advance_sync n k s h d)
          (.inr ⟨by omega, by simpa using hk⟩) hf
        refine ⟨s', by rw [run, step, e1]; exact h1, ?_, ?_⟩
        · rw [h2, due, if_neg hk]; rfl
        · have : k + 1 + (r.filter (· ≠ .get)).length = k + ((Ev.frame d :: r).filter (· ≠ .get)).length := by
            simp; omega
          rw [← this]; exact h3

/-- After `SE_SetOSIFrequency(n)` with `n > 0` in a scenario whose ground truth has been reported already, with a file open,
the next step is written to the file and then every n-th step, each once, however often the data is fetched between steps,
and with the dynamic state of that very step. -/
theorem frequency (s : St) (hi : s.inited = true) (hf : s.file = true) (n : Nat) (hn : 0 < n) (d : Nat) (evs : List Ev)
    (hp : Plain evs) :
    ∃ s', run s (.setFreq n :: .frame d :: evs) = some s' ∧
      dyns s'.log = dyns s.log ++ (due n 0 (.frame d :: evs)).map some := by
  have h0 : Sync n 0 (setFreq n s) := ⟨hi, rfl, by simp [setFreq]⟩
  have e1 := frame_due n 0 hn _ h0 d (Nat.zero_mod n)
  obtain ⟨s', h1, h2, -⟩ := log_due n hn evs hp 1 (report (advance d (setFreq n s))) (report_sync n 0 _ h0 d) (.inl rfl) hf
  refine ⟨s', ?_, ?_⟩
  · show (frame d (setFreq n s)).bind (fun s1 => run s1 evs) = some s'
    rw [e1]; exact h1
  · rw [h2, due, if_pos (Nat.zero_mod n)]
    have e2 : dyns (report (advance d (setFreq n s))).log = dyns s.log ++ [some d] := by
      show dyns (s.log ++ if s.file then _ else _) = _
      rw [hf, if_pos rfl, dyns_append]
      congr 1
      have hff : (advance d (setFreq n s)).file = true := hf
      simp only [dyns, List.map_cons, List.map_nil, serial, hff, Bool.true_or, if_true]
      split <;> rfl
    rw [e2]; simp

/-- A scenario started with OSI file and frequency `n > 0`: the first step (the one of initialization) is written, and then
every n-th step. -/
theorem frequency_start (odr misc : List Nat) (m : Mode) (n : Nat) (hn : 0 < n) (d : Nat) (evs : List Ev) (hp : Plain evs) :
    ∃ s', run (setFreq n { start odr misc with file := true, mode := m }) (.frame d :: evs) = some s' ∧
      dyns s'.log = (due n 0 (.frame d :: evs)).map some := by
  generalize hs : (setFreq n { start odr misc with file := true, mode := m }) = s
  have hfr : s.freq = (n : Int) := by rw [← hs]; rfl
  have hff : s.file = true := by rw [← hs]; rfl
  have hi : s.inited = false := by rw [← hs]; rfl
  have hl : s.log = [] := by rw [← hs]; rfl
  have e1 : frame d s = some (report (advance d s)) := by
    have : s.freq > 0 := by omega
    have hi' : (advance d s).inited = false := hi
    rw [frame, if_pos this, update, hi']; simp
  have hsync : Sync n 1 (report (advance d s)) := by
    refine ⟨rfl, hfr, ?_⟩
    have hi' : (advance d s).inited = false := hi
    show (advance d s).counter + 1 - (if (advance d s).inited then (advance d s).offset else (advance d s).counter) = 1
    rw [hi']; simp
  obtain ⟨s', h1, h2, -⟩ := log_due n hn evs hp 1 _ hsync (.inl rfl) hff
  refine ⟨s', ?_, ?_⟩
  · show (frame d s).bind (fun s1 => run s1 evs) = some s'
    rw [e1]; exact h1
  · rw [h2, due, if_pos (Nat.zero_mod n)]
    have e2 : dyns (report (advance d s)).log = [some d] := by
      show dyns (s.log ++ if s.file then _ else _) = _
      rw [hff, if_pos rfl, hl, List.nil_append]
      have hff' : (advance d s).file = true := hff
      simp only [dyns, List.map_cons, List.map_nil, serial, hff', Bool.true_or, if_true]
      split <;> rfl
    rw [e2]; simp

example : (run (setFreq 2 { start [1] [2] with file := true }) [.frame 10, .get, .frame 11, .get, .frame 12, .get, .get]).map
    (fun s => dyns s.log) = some [some 10, some 12] := by decide

example : ∃ s', run (setFreq 2 { start [1] [2] with file := true, mode := .api }) [.frame 10, .frame 11, .get, .frame 12] =
    some s' ∧ dyns s'.log = [some 10, some 12] :=
  frequency_start [1] [2] .api 2 (by omega) 10 [.frame 11, .get, .frame 12] (by simp [Plain])

/-- No call crashes once a frequency other than 0 is set and as long as no frequency 0 is set. -/
theorem update_defined (s : St) (h : s.freq ≠ 0) : (update s).isSome := by
  unfold update; split_ifs <;> simp

theorem report_freq (s : St) : (report s).freq = s.freq := rfl

theorem update_freq (s t : St) (h : update s = some t) : t.freq = s.freq := by
  unfold update at h
  split_ifs at h <;> simp at h <;> subst h <;> rfl

theorem step_freq (s t : St) (e : Ev) (hs : s.freq ≠ 0) (he : e ≠ .setFreq 0) (h : step s e = some t) : t.freq ≠ 0 := by
  cases e with
  | frame d =>
    simp only [step, frame] at h
    split_ifs at h
    · rw [update_freq _ _ h]; exact hs
    · simp at h; subst h; exact hs
  | get =>
    simp only [step] at h
    rw [wake_id s hs] at h
    obtain ⟨u, hu, rfl⟩ := Option.map_eq_some_iff.mp h
    have := update_freq _ _ hu
    unfold fetch; split <;> (show u.freq ≠ 0; rw [this]; exact hs)
  | enable => simp only [step] at h; rw [update_freq _ _ h]; exact hs
  | disable => simp [step] at h; subst h; exact hs
  | socket => simp [step] at h; subst h; exact hs
  | setFreq n =>
    simp [step] at h; subst h
    intro c; apply he; simp [setFreq] at c; rw [c]
  | setMode m => simp only [step, wake_id s hs, Option.some.injEq] at h; subst h; exact hs
  | add i => simp [step] at h; subst h; exact hs
  | remove i => simp [step] at h; subst h; exact hs

/-- No sequence of calls crashes in the reporter if a frequency has been set (here by the caller; OSI file and socket given as
options set it as well) and it is never set to 0. -/
theorem no_crash (s : St) (hs : s.freq ≠ 0) (evs : List Ev) (h : ∀ e ∈ evs, e ≠ .setFreq 0) : (run s evs).isSome := by
  induction evs generalizing s with
  | nil => rfl
  | cons e r ih =>
    have hd : (step s e).isSome := by
      cases e with
      | frame d =>
        simp only [step, frame]
        split_ifs
        · exact update_defined _ hs
        · rfl
      | get => simp only [step]; rw [wake_id s hs, Option.isSome_map]; exact update_defined _ hs
      | enable => exact update_defined _ hs
      | disable => rfl
      | socket => rfl
      | setFreq n => rfl
      | setMode m => rfl
      | add i => rfl
      | remove i => rfl
    obtain ⟨t, ht⟩ := Option.isSome_iff_exists.mp hd
    rw [run, ht]
    exact ih t (step_freq s t e hs (h e List.mem_cons_self) ht) (fun x hx => h x (List.mem_cons_of_mem _ hx))

example : (run (setFreq 1 (start [1] [])) [.enable, .frame 1, .enable, .get]).isSome :=
  no_crash _ (by decide) _ (by decide)

/-- Enabling the OSI file in a running scenario does not make esmini write the steps: without a frequency, which nothing sets,
only one message is written, whatever follows that only steps. (The documentation gives 1 as the default frequency.) -/
theorem enable_late_fails (odr misc : List Nat) (evs : List Ev) (he : ∀ e ∈ evs, ∃ d, e = .frame d) :
    ∃ s', run (start odr misc) (.frame 0 :: .enable :: evs) = some s' ∧ dyns s'.log = [some 0] := by
  have key : ∀ (l : List Ev), (∀ e ∈ l, ∃ d, e = .frame d) → ∀ s : St, s.freq = 0 →
      ∃ s', run s l = some s' ∧ s'.log = s.log := by
    intro l
    induction l with
    | nil => intro _ s _; exact ⟨s, rfl, rfl⟩
    | cons e r ih =>
      intro hl s hs
      obtain ⟨d, rfl⟩ := hl e List.mem_cons_self
      obtain ⟨s', h1, h2⟩ := ih (fun x hx => hl x (List.mem_cons_of_mem _ hx)) (advance d s) hs
      refine ⟨s', ?_, h2⟩
      have : ¬ s.freq > 0 := by omega
      rw [run, step, frame, if_neg this]; exact h1
  obtain ⟨s', h1, h2⟩ := key evs he (report { advance 0 (start odr misc) with file := true }) rfl
  refine ⟨s', h1, ?_⟩
  rw [h2]; rfl

/-- A second call of `SE_EnableOSIFile`, after a step, then divides by zero. -/
theorem enable_twice_fails (odr misc : List Nat) (d : Nat) :
    run (start odr misc) [.enable, .frame d, .enable] = none := by
  simp [run, step, update, start, frame, report, addStatic, advance]

/-! ### What is reported -/

/-- Objects that enter. -/
def entering : List Ev → List Nat
  | [] => []
  | .add i :: r => i :: entering r
  | _ :: r => entering r

/-- Steps, fetches and objects that enter and leave; nothing that concerns files or modes. -/
def Calm (l : List Ev) : Prop := ∀ e ∈ l, e = .get ∨ (∃ d, e = .frame d) ∨ (∃ i, e = .add i) ∨ (∃ i, e = .remove i) ∨
  ∃ n, e = .setFreq n

/-- All stationary objects written to files, in order. -/
def logged (s : St) : List Nat := s.log.flatMap (·.stat)

/-- What holds with mode DEFAULT and a file open from the beginning. -/
structure Once (s : St) : Prop where
  file : s.file = true
  mode : s.mode = .default
  log : logged s = s.stat
  odr : s.stat = if s.inited then s.odr ++ s.made else []
  made : s.inited = false → s.made = []

theorem report_once (s : St) (h : Once s) : Once (report s) := by
  have hser : (serial s (addStatic (!s.inited) s)).stat =
      (if s.inited then [] else s.odr) ++ fresh s := by
    have := h.file; have := h.mode; have := h.odr
    cases hi : s.inited <;> simp_all [serial, addStatic]
  refine ⟨h.file, h.mode, ?_, ?_, ?_⟩
  · show ((s.log ++ if s.file then _ else _).flatMap (·.stat)) = s.stat ++ _ ++ fresh s
    rw [h.file, if_pos rfl, List.flatMap_append]
    have : s.log.flatMap (·.stat) = s.stat := h.log
    rw [this]
    simp only [List.flatMap_cons, List.flatMap_nil, List.append_nil]
    rw [hser]
    cases s.inited <;> simp
  · show s.stat ++ (if !s.inited then s.odr else []) ++ fresh s = if true then s.odr ++ (s.made ++ fresh s) else []
    have h1 := h.odr; have h2 := h.made
    cases hi : s.inited
    · rw [hi] at h1; rw [h1, h2 hi]; simp
    · rw [hi] at h1; rw [h1]; simp
  · intro c; exact absurd c (by simp [report])

theorem update_cases (s t : St) (h : update s = some t) : t = s ∨ t = report s := by
  unfold update at h
  split_ifs at h <;> simp at h <;> subst h <;> simp

theorem step_once (s t : St) (e : Ev) (he : e = .get ∨ (∃ d, e = .frame d) ∨ (∃ i, e = .add i) ∨ (∃ i, e = .remove i) ∨
    ∃ n, e = .setFreq n) (h : Once s) (ht : step s e = some t) : Once t := by
  have keep : ∀ u : St, u.file = s.file → u.mode = s.mode → u.log = s.log → u.stat = s.stat → u.odr = s.odr →
      u.inited = s.inited → u.made = s.made → Once u := by
    intro u a b c d e f g
    exact ⟨a ▸ h.file, b ▸ h.mode, by rw [logged, c, d]; exact h.log, by rw [d, e, f, g]; exact h.odr,
      by rw [f, g]; exact h.made⟩
  rcases he with rfl | ⟨d, rfl⟩ | ⟨i, rfl⟩ | ⟨i, rfl⟩ | ⟨n, rfl⟩
  · simp only [step] at ht
    obtain ⟨u, hu, rfl⟩ := Option.map_eq_some_iff.mp ht
    have hw : Once (wake s) := by
      unfold wake; split
      · exact keep _ rfl rfl rfl rfl rfl rfl rfl
      · exact h
    have hu2 : Once u := by
      rcases update_cases _ _ hu with rfl | rfl
      · exact hw
      · exact report_once _ hw
    unfold fetch; split
    · exact ⟨hu2.file, hu2.mode, hu2.log, hu2.odr, hu2.made⟩
    · exact hu2
  · have ha : Once (advance d s) := keep _ rfl rfl rfl rfl rfl rfl rfl
    simp only [step, frame] at ht
    split_ifs at ht
    · rcases update_cases _ _ ht with rfl | rfl
      · exact ha
      · exact report_once _ ha
    · simp at ht; subst ht; exact ha
  · simp [step] at ht; subst ht; exact keep _ rfl rfl rfl rfl rfl rfl rfl
  · simp [step] at ht; subst ht; exact keep _ rfl rfl rfl rfl rfl rfl rfl
  · simp [step] at ht; subst ht; exact keep _ rfl rfl rfl rfl rfl rfl rfl

/-- Ids in use: those reported, those in the scenario and those to come are distinct. -/
structure Ids (s : St) (l : List Nat) : Prop where
  all : (s.odr ++ s.made ++ l).Nodup
  misc : (s.odr ++ s.misc ++ l).Nodup

theorem fresh_nodup (s : St) (l : List Nat) (h : Ids s l) : (s.odr ++ (s.made ++ fresh s) ++ l).Nodup := by
  have h1 := h.all
  have h2 := h.misc
  simp only [List.nodup_append, List.append_assoc, List.mem_append] at h1 h2 ⊢
  have hf : ∀ x ∈ fresh s, x ∈ s.misc ∧ x ∉ s.made := by
    intro x hx; simp [fresh] at hx; exact hx
  have hn : (fresh s).Nodup := List.Nodup.sublist List.filter_sublist h2.2.1.1
  refine ⟨h1.1, ⟨h1.2.1.1, ⟨hn, h1.2.1.2.1, ?_⟩, ?_⟩, ?_⟩
  · intro a ha b hb; exact h2.2.1.2.2 a (hf a ha).1 b hb
  · intro a ha b hb
    rcases hb with hb | hb
    · intro e; subst e; exact (hf a hb).2 ha
    · exact h1.2.1.2.2 a ha b hb
  · intro a ha b hb
    rcases hb with hb | hb | hb
    · exact h1.2.2 a ha b (.inl hb)
    · exact h2.2.2 a ha b (.inl (hf b hb).1)
    · exact h1.2.2 a ha b (.inr hb)

theorem report_ids (s : St) (l : List Nat) (h : Ids s l) : Ids (report s) l := ⟨fresh_nodup s l h, h.misc⟩

theorem update_ids (s t : St) (l : List Nat) (h : Ids s l) (hu : update s = some t) : Ids t l := by
  rcases update_cases _ _ hu with rfl | rfl
  · exact h
  · exact report_ids _ _ h

theorem step_ids (s t : St) (e : Ev) (r : List Ev) (he : e = .get ∨ (∃ d, e = .frame d) ∨ (∃ i, e = .add i) ∨
    (∃ i, e = .remove i) ∨ ∃ n, e = .setFreq n) (h : Ids s (entering (e :: r))) (ht : step s e = some t) :
    Ids t (entering r) := by
  rcases he with rfl | ⟨d, rfl⟩ | ⟨i, rfl⟩ | ⟨i, rfl⟩ | ⟨n, rfl⟩
  · simp only [step] at ht
    obtain ⟨u, hu, rfl⟩ := Option.map_eq_some_iff.mp ht
    have hw : Ids (wake s) (entering r) := by
      unfold wake; split
      · exact ⟨h.all, h.misc⟩
      · exact h
    have := update_ids _ _ _ hw hu
    unfold fetch; split
    · exact ⟨this.all, this.misc⟩
    · exact this
  · have ha : Ids (advance d s) (entering r) := ⟨h.all, h.misc⟩
    simp only [step, frame] at ht
    split_ifs at ht
    · exact update_ids _ _ _ ha ht
    · simp at ht; subst ht; exact ha
  · simp [step] at ht; subst ht
    have h1 := h.all; have h2 := h.misc
    simp only [entering] at h1 h2
    refine ⟨?_, ?_⟩
    · refine List.Nodup.sublist ?_ h1
      exact List.Sublist.append (List.Sublist.refl _) (List.sublist_cons_self _ _)
    · show (s.odr ++ (s.misc ++ [i]) ++ entering r).Nodup
      simpa using h2
  · simp [step] at ht; subst ht
    refine ⟨h.all, List.Nodup.sublist ?_ h.misc⟩
    exact List.Sublist.append (List.Sublist.append (List.Sublist.refl _) List.filter_sublist) (List.Sublist.refl _)
  · simp [step] at ht; subst ht; exact ⟨h.all, h.misc⟩

theorem run_once (s t : St) (evs : List Ev) (hc : Calm evs) (h : Once s) (hids : Ids s (entering evs))
    (ht : run s evs = some t) : Once t ∧ Ids t [] := by
  induction evs generalizing s with
  | nil => simp [run] at ht; subst ht; exact ⟨h, hids⟩
  | cons e r ih =>
    obtain ⟨u, hu, hr⟩ := Option.bind_eq_some_iff.mp ht
    have he := hc e List.mem_cons_self
    exact ih u (fun x hx => hc x (List.mem_cons_of_mem _ hx)) (step_once s u e he h hu) (step_ids s u e r he hids hu) hr

/-- The file is open from the beginning, the mode is DEFAULT: whatever steps, fetches and objects follow, no stationary object
and no road data is ever written twice. -/
theorem static_once (odr misc : List Nat) (n : Int) (evs : List Ev) (hc : Calm evs)
    (hids : (odr ++ misc ++ entering evs).Nodup) (t : St)
    (ht : run (setFreq n { start odr misc with file := true }) evs = some t) : (logged t).Nodup := by
  obtain ⟨h1, h2⟩ := run_once _ t evs hc ⟨rfl, rfl, rfl, rfl, fun _ => rfl⟩ ⟨by
    show (odr ++ [] ++ entering evs).Nodup
    refine List.Nodup.sublist ?_ hids
    exact List.Sublist.append (List.Sublist.append (List.Sublist.refl _) (List.nil_sublist _)) (List.Sublist.refl _), hids⟩ ht
  rw [h1.log, h1.odr]
  split
  · have := h2.all; simpa using this
  · exact List.nodup_nil

/-- … and the road data and every object present when a message is written are in the file by then. -/
theorem static_complete (s t : St) (h : Once s) (ht : t = report s) :
    (∀ i ∈ s.odr, i ∈ logged t) ∧ ∀ i ∈ s.misc, i ∈ logged t := by
  subst ht
  have hr := report_once s h
  have hs : logged (report s) = s.odr ++ (s.made ++ fresh s) := by rw [hr.log, hr.odr]; rfl
  rw [hs]
  refine ⟨fun i hi => List.mem_append_left _ hi, fun i hi => List.mem_append_right _ ?_⟩
  by_cases hm : i ∈ s.made
  · exact List.mem_append_left _ hm
  · refine List.mem_append_right _ ?_
    simp [fresh, hi, hm]

/-- The same as a statement about calls: when a step has been written to the file (the number of messages grew), the file
holds the road data and all stationary objects in the scenario. -/
theorem static_step (odr misc : List Nat) (n : Int) (evs : List Ev) (hc : Calm evs)
    (hids : (odr ++ misc ++ entering evs).Nodup) (s t : St)
    (hs : run (setFreq n { start odr misc with file := true }) evs = some s) (d : Nat) (ht : step s (.frame d) = some t)
    (hg : t.log ≠ s.log) : (∀ i ∈ t.odr, i ∈ logged t) ∧ ∀ i ∈ t.misc, i ∈ logged t := by
  obtain ⟨h1, -⟩ := run_once _ s evs hc ⟨rfl, rfl, rfl, rfl, fun _ => rfl⟩ ⟨by
    show (odr ++ [] ++ entering evs).Nodup
    refine List.Nodup.sublist ?_ hids
    exact List.Sublist.append (List.Sublist.append (List.Sublist.refl _) (List.nil_sublist _)) (List.Sublist.refl _), hids⟩ hs
  have ha : Once (advance d s) := ⟨h1.file, h1.mode, h1.log, h1.odr, h1.made⟩
  simp only [step, frame] at ht
  split_ifs at ht
  · rcases update_cases _ _ ht with rfl | rfl
    · exact absurd rfl hg
    · exact static_complete (advance d s) _ ha rfl
  · simp at ht; subst ht; exact absurd rfl hg

example : (run (setFreq 2 { start [1] [2] with file := true }) [.frame 10, .add 3, .frame 11, .get, .remove 2, .frame 12]).map
    (fun s => s.log) = some [⟨[1, 2], some 10⟩, ⟨[3], some 12⟩] := by decide

/-- Everything reported so far and all objects present are in the static data. -/
theorem report_stat (s : St) (h : ∀ i ∈ s.made, i ∈ s.stat) (ho : s.inited = true → ∀ i ∈ s.odr, i ∈ s.stat) :
    (∀ i ∈ s.odr, i ∈ (report s).stat) ∧ ∀ i ∈ s.misc, i ∈ (report s).stat := by
  show (∀ i ∈ s.odr, i ∈ s.stat ++ (if !s.inited then s.odr else []) ++ fresh s) ∧
    ∀ i ∈ s.misc, i ∈ s.stat ++ (if !s.inited then s.odr else []) ++ fresh s
  refine ⟨fun i hi => List.mem_append_left _ ?_, fun i hi => ?_⟩
  · cases hin : s.inited
    · simp [hi]
    · exact List.mem_append_left _ (ho hin i hi)
  · by_cases hm : i ∈ s.made
    · exact List.mem_append_left _ (List.mem_append_left _ (h i hm))
    · refine List.mem_append_right _ ?_
      simp [fresh, hi, hm]

/-- What is true of the static data at any time. -/
structure Has (s : St) : Prop where
  made : ∀ i ∈ s.made, i ∈ s.stat
  odr : s.inited = true → ∀ i ∈ s.odr, i ∈ s.stat

theorem report_has (s : St) (h : Has s) : Has (report s) := by
  refine ⟨?_, fun _ => (report_stat s h.made h.odr).1⟩
  show ∀ i ∈ s.made ++ fresh s, i ∈ s.stat ++ (if !s.inited then s.odr else []) ++ fresh s
  intro i hi
  rcases List.mem_append.mp hi with hi | hi
  · exact List.mem_append_left _ (List.mem_append_left _ (h.made i hi))
  · exact List.mem_append_right _ hi

theorem update_has (s t : St) (h : Has s) (hu : update s = some t) : Has t := by
  rcases update_cases _ _ hu with rfl | rfl
  · exact h
  · exact report_has _ h

theorem step_has (s t : St) (e : Ev) (h : Has s) (ht : step s e = some t) : Has t := by
  have hw : Has (wake s) := by
    unfold wake; split
    · exact ⟨h.made, h.odr⟩
    · exact h
  cases e with
  | frame d =>
    simp only [step, frame] at ht
    split_ifs at ht
    · exact update_has (advance d s) _ ⟨h.made, h.odr⟩ ht
    · simp at ht; subst ht; exact ⟨h.made, h.odr⟩
  | get =>
    simp only [step] at ht
    obtain ⟨u, hu, rfl⟩ := Option.map_eq_some_iff.mp ht
    have := update_has _ _ hw hu
    unfold fetch; split
    · exact ⟨this.made, this.odr⟩
    · exact this
  | enable => exact update_has { s with file := true } _ ⟨h.made, h.odr⟩ ht
  | disable => simp [step] at ht; subst ht; exact ⟨h.made, h.odr⟩
  | socket => simp [step] at ht; subst ht; exact ⟨h.made, h.odr⟩
  | setFreq n => simp [step] at ht; subst ht; exact ⟨h.made, h.odr⟩
  | setMode m => simp [step] at ht; subst ht; exact ⟨hw.made, hw.odr⟩
  | add i => simp [step] at ht; subst ht; exact ⟨h.made, h.odr⟩
  | remove i => simp [step] at ht; subst ht; exact ⟨h.made, h.odr⟩

theorem run_has (s t : St) (evs : List Ev) (h : Has s) (ht : run s evs = some t) : Has t := by
  induction evs generalizing s with
  | nil => simp [run] at ht; subst ht; exact h
  | cons e r ih =>
    obtain ⟨u, hu, hr⟩ := Option.bind_eq_some_iff.mp ht
    exact ih u (step_has s u e h hu) hr

/-- Whatever happened before: when a step writes to a file in mode API_AND_LOG, the message written holds the road data, all
stationary objects in the scenario and the dynamic state of the step. -/
theorem static_always (odr misc : List Nat) (evs : List Ev) (s t : St) (hs : run (start odr misc) evs = some s) (d : Nat)
    (hm : s.mode = .apiAndLog) (ht : step s (.frame d) = some t) (hg : t.log ≠ s.log) :
    ∃ m, t.log = s.log ++ [m] ∧ m.dyn = some d ∧ (∀ i ∈ s.odr, i ∈ m.stat) ∧ ∀ i ∈ s.misc, i ∈ m.stat := by
  have h := run_has _ s evs (⟨by simp [start], by simp [start]⟩ : Has (start odr misc)) hs
  have ha : Has (advance d s) := ⟨h.made, h.odr⟩
  simp only [step, frame] at ht
  split_ifs at ht
  · rcases update_cases _ _ ht with rfl | rfl
    · exact absurd rfl hg
    · have hf : s.file = true := by
        by_contra c
        apply hg
        show s.log ++ (if s.file then _ else _) = s.log
        rw [if_neg c, List.append_nil]
      have hff : (advance d s).file = true := hf
      have hmm : (advance d s).mode = .apiAndLog := hm
      refine ⟨⟨(report (advance d s)).stat, some d⟩, ?_, rfl, ?_⟩
      · show s.log ++ (if s.file then _ else _) = _
        rw [if_pos hf]
        congr 2
        simp only [serial, hff, hmm, Bool.true_or, if_true, decide_true, Bool.or_true]
        rfl
      · exact report_stat _ ha.made ha.odr
  · simp at ht; subst ht; exact absurd rfl hg

/-- In modes API and API_AND_LOG the data given to the application by `SE_GetOSIGroundTruthRaw` after a report holds the road
data, all stationary objects and the present dynamic state. -/
theorem api_raw (odr misc : List Nat) (evs : List Ev) (s : St) (hs : run (start odr misc) evs = some s)
    (hm : s.mode ≠ .default) :
    (report s).ext.dyn = some s.dyn ∧ (∀ i ∈ s.odr, i ∈ (report s).ext.stat) ∧ ∀ i ∈ s.misc, i ∈ (report s).ext.stat := by
  have h := run_has _ s evs (⟨by simp [start], by simp [start]⟩ : Has (start odr misc)) hs
  have e : (report s).ext = ⟨(report s).stat, some s.dyn⟩ := by
    show external s _ = _
    unfold external
    rw [if_pos (by simp [hm])]
    rfl
  rw [e]
  exact ⟨rfl, report_stat s h.made h.odr⟩

example : ∃ s, run (start [1] [2]) [.setMode .api, .frame 1, .add 3, .frame 2] = some s ∧ s.ext = ⟨[1, 2, 3], some 2⟩ := by
  decide

/-- Without file and UDP the serialized data of `SE_GetOSIGroundTruth` is the same as the raw data. -/
theorem get_raw (s t : St) (hf : s.file = false) (hu : s.udp = false) (h : step s .get = some t) : t.buf = t.ext := by
  simp only [step] at h
  obtain ⟨u, hu2, rfl⟩ := Option.map_eq_some_iff.mp h
  have hw : (wake s).file = false ∧ (wake s).udp = false := by
    unfold wake; split <;> exact ⟨hf, hu⟩
  have h2 : u.file = false ∧ u.udp = false := by
    rcases update_cases _ _ hu2 with rfl | rfl
    · exact hw
    · exact hw
  simp [fetch, h2.1, h2.2]

/-- With a file open it is not: in mode API, which promises static data in every message to the application,
`SE_GetOSIGroundTruth` gives what is logged, without static data. -/
theorem get_api_fails : ¬ ∀ (odr misc : List Nat) (evs : List Ev) (s t : St), run (start odr misc) evs = some s →
    s.mode = .api → step s .get = some t → ∀ i ∈ odr, i ∈ t.buf.stat := by
  intro h
  have := h [1] [] [.setMode .api, .enable, .frame 1] _ _ rfl rfl rfl 1 (by simp)
  revert this; decide

/-- A file enabled after data has been fetched never gets the static data, with mode DEFAULT: the first message is empty of
it, against "first frame will include all dynamic and static objects; the same data is also stored in the OSI log file". -/
theorem late_file_fails : ¬ ∀ (odr misc : List Nat) (evs : List Ev) (t : St),
    run (start odr misc) (.frame 0 :: .get :: .enable :: evs) = some t → t.log ≠ [] → ∀ i ∈ odr, i ∈ logged t := by
  intro h
  have := h [1] [] [.frame 1, .frame 2] _ rfl (by decide) 1 (by simp)
  revert this; decide

/-- In the frame in which the file is enabled the serialized data is empty if it was reported before. -/
theorem get_empty_fails : ∃ t, run (start [1] []) [.frame 0, .setFreq 1, .frame 1, .enable, .get] = some t ∧
    t.buf = ⟨[], none⟩ := ⟨_, rfl, by decide⟩

/-- Objects that left the scenario stay in the static data. -/
theorem removed_fails : ¬ ∀ (odr misc : List Nat) (evs : List Ev) (s t : St), run (start odr misc) evs = some s →
    s.mode = .api → step s (.frame 5) = some t → ∀ i ∈ t.ext.stat, i ∈ odr ∨ i ∈ s.misc := by
  intro h
  have := h [1] [2] [.setMode .api, .frame 1, .remove 2] _ _ rfl rfl rfl 2 (by decide)
  revert this; decide

end Verif.Osi
