import Verif.Env.Theorems
/-
Theorems about the time of day and the recording of the environment.
-/
namespace Verif.Env
open Real

/-! ### Seconds since midnight -/

/-- Value of a text of digits, from the right. -/
def val : List Char → Nat
  | [] => 0
  | c :: l => (c.toNat - 48) * 10 ^ l.length + val l

theorem foldl_val : ∀ (l : List Char) (a : Nat), l.foldl (fun a c => 10 * a + (c.toNat - 48)) a = a * 10 ^ l.length + val l
  | [], a => by simp [val]
  | c :: l, a => by
    rw [List.foldl_cons, foldl_val l, val, List.length_cons, pow_succ]
    ring

theorem digit_lt {c : Char} (h : c.isDigit = true) : c.toNat - 48 < 10 := by
  have h2 : c.toNat ≤ 57 := by
    simp [Char.isDigit] at h
    exact h.2
  omega

theorem val_lt : ∀ {l : List Char}, (∀ c ∈ l, c.isDigit = true) → val l < 10 ^ l.length
  | [], _ => by simp [val]
  | c :: l, h => by
    have h1 := digit_lt (h c (by simp))
    have h2 := val_lt (l := l) (fun d hd => h d (by simp [hd]))
    rw [val, List.length_cons, pow_succ]
    nlinarith [Nat.mul_le_mul_right (10 ^ l.length) (Nat.le_of_lt_succ h1)]

/-- A field of digits: not empty, at most nine. -/
def Digits (d : List Char) : Prop := d ≠ [] ∧ d.length ≤ 9 ∧ ∀ c ∈ d, c.isDigit = true

/-- The text does not go on with a digit. -/
def Ends (r : List Char) : Prop := ∀ c, r.head? = some c → c.isDigit = false

theorem takeWhile_digits : ∀ {d r : List Char}, (∀ c ∈ d, c.isDigit = true) → Ends r →
    (d ++ r).takeWhile Char.isDigit = d ∧ (d ++ r).dropWhile Char.isDigit = r
  | [], [], _, _ => by simp
  | [], c :: r, _, h => by
    have := h c rfl
    simp [this]
  | c :: d, r, hd, h => by
    obtain ⟨h1, h2⟩ := takeWhile_digits (d := d) (fun x hx => hd x (by simp [hx])) h
    have := hd c (by simp)
    simp [this, h1, h2]

theorem digit_not_space {c : Char} (h : c.isDigit = true) : c.isWhitespace = false := by
  simp [Char.isDigit] at h
  simp only [Char.isWhitespace, Bool.or_eq_false_iff, beq_eq_false_iff_ne, decide_eq_false_iff_not]
  refine ⟨⟨⟨?_, ?_⟩, ?_⟩, ?_⟩ <;> (rintro rfl; revert h; decide)

/-- Reading a field. -/
theorem readInt_digits {d r : List Char} (hd : Digits d) (hr : Ends r) : readInt (some (d ++ r)) = (val d, some r) := by
  obtain ⟨h0, hl, hdig⟩ := hd
  have hs : (d ++ r).dropWhile Char.isWhitespace = d ++ r := by
    cases d with
    | nil => exact absurd rfl h0
    | cons c d => simp [digit_not_space (hdig c (by simp))]
  obtain ⟨h1, h2⟩ := takeWhile_digits hdig hr
  have hv : val d < 2147483648 := lt_of_lt_of_le (val_lt hdig) (le_trans (Nat.pow_le_pow_right (by norm_num) hl) (by norm_num))
  have he : d.isEmpty = false := by
    cases d with
    | nil => exact absurd rfl h0
    | cons c d => rfl
  unfold readInt
  simp only [hs, h1, h2, foldl_val, Nat.zero_mul, Nat.zero_add, he, hv, if_true]
  rfl

/-- **Seconds since midnight**: for every date and time `Y-M-DTh:m:s` with anything behind it (fraction, time zone) the result is
3600 h + 60 m + s. -/
theorem seconds_spec {Y M D h m s rest : List Char} (hY : Digits Y) (hM : Digits M) (hD : Digits D) (hh : Digits h) (hm : Digits m) (hs : Digits s)
    (hr : Ends rest) :
    secondsSinceMidnight (Y ++ '-' :: (M ++ '-' :: (D ++ 'T' :: (h ++ ':' :: (m ++ ':' :: (s ++ rest)))))) = 3600 * val h + 60 * val m + val s := by
  have e : ∀ (c : Char) (r : List Char), c.isDigit = false → Ends (c :: r) := by
    intro c r hc x hx
    simp at hx
    exact hx ▸ hc
  unfold secondsSinceMidnight
  simp only [readInt_digits hY (e '-' _ rfl), skip, if_true, readInt_digits hM (e '-' _ rfl), readInt_digits hD (e 'T' _ rfl),
    readInt_digits hh (e ':' _ rfl), readInt_digits hm (e ':' _ rfl), readInt_digits hs hr]
  ring

/-- A time inside a day. -/
theorem seconds_day {Y M D h m s rest : List Char} (hY : Digits Y) (hM : Digits M) (hD : Digits D) (hh : Digits h) (hm : Digits m) (hs : Digits s)
    (hr : Ends rest) (h1 : val h ≤ 23) (h2 : val m ≤ 59) (h3 : val s ≤ 59) :
    secondsSinceMidnight (Y ++ '-' :: (M ++ '-' :: (D ++ 'T' :: (h ++ ':' :: (m ++ ':' :: (s ++ rest)))))) < 86400 := by
  rw [seconds_spec hY hM hD hh hm hs hr]
  omega

example : secondsSinceMidnight "2020-10-01T18:30:30.500+0100".toList = 66630 := by decide +kernel
example : Digits "08".toList ∧ val "08".toList = 8 ∧ Ends ".500+0100".toList := by
  refine ⟨⟨by decide, by decide, by decide⟩, by decide, ?_⟩
  intro c hc
  have : c = '.' := by simpa using hc.symm
  subst this
  decide

/-! ### Running time of day -/

/-- Without animation the time of the action is reported, always. -/
theorem time_still (base : Nat) (o : Option Nat) : ∀ l : List Nat, (reportTimes false base l o).1 = l.map (fun _ => (base : Int))
  | [] => rfl
  | t :: l => by
    rw [reportTimes, List.map_cons, reportTime, if_pos rfl]
    exact congrArg _ (time_still base o l)

theorem reportTime_set (base t t0 : Nat) : reportTime true base t (some t0) = ((base : Int) + ((t : Int) - t0), some t0) := by
  simp [reportTime]

/-- **Running time of day, first action with animation, after the first second**: at each report the time of the action plus the seconds since then. -/
theorem time_runs_partial (base : Nat) {t0 : Nat} (h0 : 0 < t0) (l : List Nat) :
    (reportTimes true base (t0 :: l) none).1 = (t0 :: l).map (fun t : Nat => (base : Int) + ((t : Int) - t0)) := by
  have key : ∀ l : List Nat, (reportTimes true base l (some t0)).1 = l.map (fun t : Nat => (base : Int) + ((t : Int) - t0)) := by
    intro l
    induction l with
    | nil => rfl
    | cons t l ih =>
      rw [reportTimes, reportTime_set, List.map_cons]
      exact congrArg _ ih
  have h1 : reportTime true base t0 none = ((base : Int) + ((t0 : Int) - t0), some t0) := by
    simp [reportTime, h0]
  rw [reportTimes, h1, List.map_cons]
  exact congrArg _ (key l)

/-- An action in the first second (as in the Init section): from the next second on the clock is late, by the first later time stamp. -/
theorem time_init_fails (base : Nat) {t : Nat} (ht : 0 < t) (l : List Nat) :
    (reportTimes true base (0 :: t :: l) none).1 = (base : Int) :: (t :: l).map (fun u : Nat => (base : Int) + ((u : Int) - t)) := by
  have h1 : reportTime true base 0 none = ((base : Int), none) := by simp [reportTime]
  rw [reportTimes, h1]
  exact congrArg _ (time_runs_partial base ht l)

/-- A second action does not start at its own time of day: the seconds since the first one are added. -/
theorem time_second_fails (base base2 : Nat) {t0 t1 : Nat} (h0 : 0 < t0) (h1 : t0 < t1) :
    (reportTime true base2 t1 (reportTimes true base [t0] none).2).1 ≠ base2 := by
  have e : (reportTimes true base [t0] none).2 = some t0 := by simp [reportTimes, reportTime, h0]
  rw [e, reportTime_set]
  simp only [ne_eq]
  omega

/-- Past midnight the seconds go on beyond a day. -/
theorem time_midnight_fails {t0 : Nat} (h0 : 0 < t0) : (86400 : Int) ∈ (reportTimes true 86399 [t0, t0 + 1] none).1 := by
  rw [time_runs_partial 86399 h0]
  simp

/-! ### Recording -/

/-- What is in the cache when nothing had to be written. -/
structure Fit (c : Rec) (e : Env) : Prop where
  fog : c.visibility = e.fog.getD 10000000000
  fogFactor : (e.fog = none ∨ c.visibility ≠ 10000000000) → c.fog = fogFactor e
  friction : c.friction = e.road.getD 1
  cloud : c.cloud = cloudFactor e
  sun : c.sun = sunFactor e

theorem snapshot_fit (e : Env) : Fit (snapshot e) e := ⟨rfl, fun _ => rfl, rfl, rfl, rfl⟩

theorem none_of_not {e : Env} (h : isEnvironment e = false) : e = {} := by
  obtain ⟨a, b, c, d, f, g, i, j, k⟩ := e
  simp only [isEnvironment, Bool.or_eq_false_iff, Option.isSome_eq_false_iff, Option.isNone_iff_eq_none] at h
  obtain ⟨⟨⟨⟨⟨⟨⟨⟨h1, h2⟩, h3⟩, h4⟩, h5⟩, h6⟩, h7⟩, h8⟩, h9⟩ := h
  simp_all

/-- The cache comes from an earlier environment with no more fog or road condition than now. -/
structure Before (c : Rec) (e : Env) : Prop where
  fog : e.fog = none → c.visibility = 10000000000 ∧ c.fog = 0
  road : e.road = none → c.friction = 1
  fits : c.visibility ≠ 10000000000 → c.fog = 1 / (c.visibility + 1)
  start : e = {} → c = {}

theorem write_fit {e : Env} {c : Rec} (h : Before c e) : Fit (write e c).2 e := by
  unfold write
  split
  · rename_i hn
    have he := none_of_not hn
    rw [h.start he, he]
    exact ⟨rfl, fun _ => rfl, rfl, rfl, rfl⟩
  · split
    · exact snapshot_fit e
    · rename_i hq
      have hq : recEqual c e = true := by simpa using hq
      unfold recEqual at hq
      simp only [Bool.and_eq_true, decide_eq_true_eq] at hq
      obtain ⟨⟨⟨h1, h2⟩, h3⟩, h4⟩ := hq
      have hv : c.visibility = e.fog.getD 10000000000 := by
        cases hf : e.fog with
        | none => exact (h.fog hf).1
        | some x => simpa [hf] using h3
      refine ⟨hv, fun hx => ?_, ?_, h2, h1⟩
      · cases hf : e.fog with
        | none => rw [(h.fog hf).2, fogFactor, hf]
        | some x =>
          rw [hf] at hv
          rcases hx with hx | hx
          · rw [hf] at hx
            exact absurd hx (by simp)
          · rw [h.fits hx, fogFactor, hf, hv]
            rfl
      · cases hr : e.road with
        | none => exact h.road hr
        | some x => simpa [hr] using h4

theorem write_before {e : Env} {c : Rec} (h : Before c e) : Before (write e c).2 e := by
  have hf := write_fit h
  refine ⟨fun he => ⟨by rw [hf.fog, he]; rfl, by rw [hf.fogFactor (Or.inl he), fogFactor, he]⟩, fun he => by rw [hf.friction, he]; rfl, ?_, ?_⟩
  · intro hv
    rw [hf.fogFactor (Or.inr hv), fogFactor]
    have := hf.fog
    cases he : e.fog with
    | none =>
      rw [he] at this
      exact absurd this hv
    | some x =>
      rw [he] at this
      rw [this]
      rfl
  · intro he
    unfold write
    rw [if_pos (by rw [he]; rfl)]
    exact h.start he

theorem update_before {e : Env} {c : Rec} (n : Env) (h : Before c e) : Before c (update e n) := by
  obtain ⟨_, _, _, _, _, hfog, _, _, hroad⟩ := follows
  have nf : (update e n).fog = none → e.fog = none ∧ n.fog = none := by
    intro hu
    cases hn : n.fog with
    | none => exact ⟨by rw [← hu]; exact (hfog.2 e n hn).symm, rfl⟩
    | some x => exact absurd ((hfog.1 e n x hn).symm.trans hu) (by simp)
  have nr : (update e n).road = none → e.road = none := by
    intro hu
    cases hn : n.road with
    | none => rw [← hu]; exact (hroad.2 e n hn).symm
    | some x => exact absurd ((hroad.1 e n x hn).symm.trans hu) (by simp)
  refine ⟨fun hu => h.fog (nf hu).1, fun hu => h.road (nr hu), h.fits, fun hu => h.start ?_⟩
  have stay : ∀ {τ : Type} {p : Env → Option τ} {g : τ → τ}, Follows p g → p {} = none → p e = none := by
    intro τ p g hp h0
    have hu : p (update e n) = none := by rw [hu]; exact h0
    cases hn : p n with
    | none => rw [← hu]; exact (hp.2 e n hn).symm
    | some x => exact absurd ((hp.1 e n x hn).symm.trans hu) (by simp)
  obtain ⟨f1, f2, f3, f4, f5, f6, f7, f8, f9⟩ := follows
  have := stay f1 rfl; have := stay f2 rfl; have := stay f3 rfl; have := stay f4 rfl; have := stay f5 rfl; have := stay f6 rfl
  have := stay f7 rfl; have := stay f8 rfl; have := stay f9 rfl
  obtain ⟨a, b, c, d, f, g, i, j, k⟩ := e
  simp_all

theorem run_before : ∀ (l : List Env) {e : Env} {c : Rec}, Before c e → Before c (run e l)
  | [], _, _, h => h
  | n :: l, _, _, h => run_before l (update_before n h)

theorem record_fit : ∀ (l : List (List Env)) {e : Env} {c : Rec}, Before c e → Fit c e → Fit (record e c l).2 (record e c l).1
  | [], _, _, _, h => h
  | a :: l, _, _, hb, _ => record_fit l (write_before (run_before a hb)) (write_fit (run_before a hb))

/-- **The recording shows the environment**: after every frame of every run the last environment in the recording (or the defaults, if there is none) has
the visual range, the friction, the clouds and the sunlight of the environment. -/
theorem recorded (l : List (List Env)) :
    (record {} {} l).2.visibility = (record {} {} l).1.fog.getD 10000000000 ∧ (record {} {} l).2.friction = (record {} {} l).1.road.getD 1 ∧
    (record {} {} l).2.cloud = cloudFactor (record {} {} l).1 ∧ (record {} {} l).2.sun = sunFactor (record {} {} l).1 ∧
    ((record {} {} l).2.visibility ≠ 10000000000 → (record {} {} l).2.fog = fogFactor (record {} {} l).1) := by
  have hb : Before {} {} := ⟨fun _ => ⟨rfl, rfl⟩, fun _ => rfl, fun h => absurd rfl h, fun _ => rfl⟩
  have h0 : Fit {} {} := ⟨rfl, fun _ => rfl, rfl, rfl, rfl⟩
  have h := record_fit l hb h0
  exact ⟨h.fog, h.friction, h.cloud, h.sun, fun hv => h.fogFactor (Or.inr hv)⟩

/-- The environment of the run is the one the actions give, whatever is recorded. -/
theorem record_env : ∀ (l : List (List Env)) (e : Env) (c : Rec), (record e c l).1 = run e l.flatten
  | [], _, _ => rfl
  | a :: l, e, c => by
    rw [record, record_env l, List.flatten_cons, run, run, run, List.foldl_append]

end Verif.Env
