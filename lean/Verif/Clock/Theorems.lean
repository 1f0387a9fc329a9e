import Verif.Clock.Model
import Verif.Env.Time
import Verif.Util.StringTheorems
/-
Theorems about the date and time of the environment.
-/
namespace Verif.Clock
open Verif.Util (daysIn Leap)
open Verif.Env (val Ends)

/-! ### Specification -/

/-- Between `lo` and `hi` digits. -/
def Num (lo hi : Nat) (d : List Char) : Prop := lo ≤ d.length ∧ d.length ≤ hi ∧ ∀ c ∈ d, c.isDigit = true

/-- A fraction of a second: nothing, or a dot and one to three digits. -/
def Frac (f : List Char) : Prop := f = [] ∨ ∃ d, f = '.' :: d ∧ Num 1 3 d

/-- A time zone: nothing, or a sign with anything behind it (but no further sign). -/
def Zone (z : List Char) : Prop := z = [] ∨ ∃ c w, z = c :: w ∧ (c = '+' ∨ c = '-') ∧ ∀ x ∈ w, x ≠ '+' ∧ x ≠ '-'

/-- The fields of a date and time. -/
structure Fields where
  Y : List Char
  M : List Char
  D : List Char
  h : List Char
  m : List Char
  s : List Char

/-- `YYYY-MM-DDThh:mm:ss`, leading zeros only required for the year. -/
def Fields.text (f : Fields) (r : List Char) : List Char :=
  f.Y ++ '-' :: (f.M ++ '-' :: (f.D ++ 'T' :: (f.h ++ ':' :: (f.m ++ ':' :: (f.s ++ r)))))

structure Fields.Ok (f : Fields) : Prop where
  Y : Num 4 4 f.Y
  M : Num 1 2 f.M
  D : Num 1 2 f.D
  h : Num 1 2 f.h
  m : Num 1 2 f.m
  s : Num 1 2 f.s

/-- The fields are a day of the Gregorian calendar, not before 1900, and a time of day. -/
def Fields.Real (f : Fields) : Prop :=
  1900 ≤ val f.Y ∧ (1 ≤ val f.M ∧ val f.M ≤ 12) ∧ (1 ≤ val f.D ∧ (val f.D : Int) ≤ daysIn (val f.Y) (val f.M)) ∧
    val f.h < 24 ∧ val f.m < 60 ∧ val f.s < 60

/-! ### Reading -/

theorem value_val (d : List Char) : value d = val d := by
  unfold value
  rw [Env.foldl_val]
  simp

theorem takeWhile_prefix : ∀ (d : List Char), (∀ c ∈ d, c.isDigit = true) → d.takeWhile Char.isDigit = d
  | [], _ => rfl
  | c :: d, h => by
    simp [h c (by simp), takeWhile_prefix d (fun x hx => h x (by simp [hx]))]

theorem field_some {lo hi : Nat} {d r : List Char} (hd : Num lo hi d) (hr : Ends r) : field lo hi (d ++ r) = some (d, r) := by
  obtain ⟨h1, h2, h3⟩ := hd
  have e : ((d ++ r).take hi).takeWhile Char.isDigit = d := by
    rw [List.take_append, List.take_of_length_le h2]
    refine (Env.takeWhile_digits h3 ?_).1
    intro c hc
    cases r with
    | nil => simp at hc
    | cons x r =>
      cases hn : hi - d.length with
      | zero => rw [hn] at hc; simp at hc
      | succ k =>
        rw [hn] at hc
        simp at hc
        exact hr c (by simp [hc])
  unfold field
  simp only [e, if_pos h1, List.drop_left']

theorem field_inv {lo hi : Nat} {s d r : List Char} (h : field lo hi s = some (d, r)) : Num lo hi d ∧ s = d ++ r := by
  unfold field at h
  simp only at h
  split at h
  · rename_i hl
    simp only [Option.some.injEq, Prod.mk.injEq] at h
    obtain ⟨h1, h2⟩ := h
    have hpre : d <+: s.take hi := by
      rw [← h1]
      exact List.takeWhile_prefix _
    have hpre2 : d <+: s := hpre.trans (List.take_prefix _ _)
    refine ⟨⟨h1 ▸ hl, ?_, ?_⟩, ?_⟩
    · have := hpre.length_le
      simp at this
      omega
    · intro c hc
      rw [← h1] at hc
      exact (List.all_takeWhile (p := Char.isDigit) (l := s.take hi) |> List.all_eq_true.1) c hc
    · obtain ⟨t, ht⟩ := hpre2
      rw [h1] at h2
      rw [← ht, List.drop_left'] at h2
      · rw [← h2]; exact ht.symm
      · rfl
  · simp at h

theorem lit_some (c : Char) (s : List Char) : lit c (c :: s) = some s := by simp [lit]

theorem lit_inv {c : Char} {s r : List Char} (h : lit c s = some r) : s = c :: r := by
  cases s with
  | nil => simp [lit] at h
  | cons x s =>
    simp only [lit] at h
    split at h
    · rename_i hx
      simp at h
      rw [hx, h]
    · simp at h

theorem ends_cons {c : Char} (r : List Char) (h : c.isDigit = false) : Ends (c :: r) := by
  intro x hx
  simp at hx
  exact hx ▸ h

theorem ends_frac {f : List Char} (h : Frac f) : Ends f := by
  rcases h with rfl | ⟨d, rfl, _⟩
  · intro c hc; simp at hc
  · exact ends_cons _ (by decide)

theorem fraction_some {f : List Char} (h : Frac f) : ∃ ms, fraction f = some ms ∧ value (ms.getD ['0']) ≤ 999 := by
  rcases h with rfl | ⟨d, rfl, hd⟩
  · exact ⟨none, rfl, by decide⟩
  · refine ⟨some d, ?_, ?_⟩
    · unfold fraction
      have := field_some hd (r := []) (by intro c hc; simp at hc)
      rw [List.append_nil] at this
      simp [lit_some, this]
    · have h1 := Env.val_lt hd.2.2
      have h2 : 10 ^ d.length ≤ 10 ^ 3 := Nat.pow_le_pow_right (by norm_num) hd.2.1
      simp only [Option.getD_some, value_val]
      omega

theorem fraction_inv {f : List Char} {ms} (h : fraction f = some ms) : Frac f := by
  cases f with
  | nil => exact Or.inl rfl
  | cons c f =>
    unfold fraction at h
    simp only [Option.bind_eq_bind, Option.bind_eq_some_iff, Prod.exists] at h
    obtain ⟨r, h1, d, r', h2, h3⟩ := h
    split at h3
    · rename_i he
      obtain ⟨hn, hs⟩ := field_inv h2
      have := lit_inv h1
      rw [he, List.append_nil] at hs
      exact Or.inr ⟨d, by rw [this, hs], hn⟩
    · simp at h3

theorem matchDate_some {f : Fields} {r : List Char} (hf : f.Ok) (hr : Frac r) :
    ∃ ms, matchDate (f.text r) = some ms ∧ value (ms.getD ['0']) ≤ 999 := by
  obtain ⟨ms, h1, h2⟩ := fraction_some hr
  refine ⟨ms, ?_, h2⟩
  have hd : Char.isDigit '-' = false := by decide
  have hT : Char.isDigit 'T' = false := by decide
  have hc : Char.isDigit ':' = false := by decide
  unfold matchDate Fields.text
  simp [field_some hf.Y (ends_cons _ hd), field_some hf.M (ends_cons _ hd), field_some hf.D (ends_cons _ hT), field_some hf.h (ends_cons _ hc),
    field_some hf.m (ends_cons _ hc), field_some hf.s (ends_frac hr), lit_some, h1]

theorem matchDate_inv {p : List Char} {ms} (h : matchDate p = some ms) : ∃ f r, p = Fields.text f r ∧ f.Ok ∧ Frac r := by
  unfold matchDate at h
  simp only [Option.bind_eq_bind, Option.bind_eq_some_iff, Prod.exists] at h
  obtain ⟨Y, r1, a1, t1, b1, M, r2, a2, t2, b2, D, r3, a3, t3, b3, hh, r4, a4, t4, b4, m, r5, a5, t5, b5, s, r6, a6, hf⟩ := h
  obtain ⟨n1, e1⟩ := field_inv a1
  obtain ⟨n2, e2⟩ := field_inv a2
  obtain ⟨n3, e3⟩ := field_inv a3
  obtain ⟨n4, e4⟩ := field_inv a4
  obtain ⟨n5, e5⟩ := field_inv a5
  obtain ⟨n6, e6⟩ := field_inv a6
  refine ⟨⟨Y, M, D, hh, m, s⟩, r6, ?_, ⟨n1, n2, n3, n4, n5, n6⟩, fraction_inv hf⟩
  unfold Fields.text
  rw [e1, lit_inv b1, e2, lit_inv b2, e3, lit_inv b3, e4, lit_inv b4, e5, lit_inv b5, e6]

theorem num_mono {lo hi : Nat} {d : List Char} (h : Num lo hi d) (h1 : 1 ≤ lo) : Num 1 hi d := ⟨by have := h.1; omega, h.2⟩

theorem conv_eq {lo hi a b : Nat} {d r : List Char} (h1 : 1 ≤ lo) (hd : Num lo hi d) (hr : Ends r) :
    conv hi a b (d ++ r) = if a ≤ val d ∧ val d ≤ b then some (val d, r) else none := by
  unfold conv
  simp [field_some (num_mono hd h1) hr, value_val]

theorem getTime_eq {f : Fields} {r : List Char} (hf : f.Ok) (hr : Frac r) :
    getTime (f.text r) = if (1 ≤ val f.M ∧ val f.M ≤ 12) ∧ (1 ≤ val f.D ∧ val f.D ≤ 31) ∧ val f.h ≤ 23 ∧ val f.m ≤ 59 ∧ val f.s ≤ 60
      then some ⟨(val f.Y : Int) - 1900, (val f.M : Int) - 1, val f.D, val f.h, val f.m, val f.s⟩ else none := by
  have hd : Char.isDigit '-' = false := by decide
  have hT : Char.isDigit 'T' = false := by decide
  have hc : Char.isDigit ':' = false := by decide
  have hY : val f.Y ≤ 9999 := by
    have := Env.val_lt hf.Y.2.2
    have h4 : f.Y.length = 4 := le_antisymm hf.Y.2.1 hf.Y.1
    rw [h4] at this
    omega
  unfold getTime Fields.text
  rw [conv_eq (by decide) hf.Y (ends_cons _ hd), if_pos ⟨Nat.zero_le _, hY⟩]
  simp only [Option.bind_eq_bind, Option.bind_some, lit_some]
  rw [conv_eq le_rfl hf.M (ends_cons _ hd)]
  by_cases h1 : 1 ≤ val f.M ∧ val f.M ≤ 12
  · rw [if_pos h1]
    simp only [Option.bind_some, lit_some]
    rw [conv_eq le_rfl hf.D (ends_cons _ hT)]
    by_cases h2 : 1 ≤ val f.D ∧ val f.D ≤ 31
    · rw [if_pos h2]
      simp only [Option.bind_some, lit_some]
      rw [conv_eq le_rfl hf.h (ends_cons _ hc)]
      by_cases h3 : val f.h ≤ 23
      · rw [if_pos ⟨Nat.zero_le _, h3⟩]
        simp only [Option.bind_some, lit_some]
        rw [conv_eq le_rfl hf.m (ends_cons _ hc)]
        by_cases h4 : val f.m ≤ 59
        · rw [if_pos ⟨Nat.zero_le _, h4⟩]
          simp only [Option.bind_some, lit_some]
          rw [conv_eq le_rfl hf.s (ends_frac hr)]
          by_cases h5 : val f.s ≤ 60
          · rw [if_pos ⟨Nat.zero_le _, h5⟩, if_pos ⟨h1, h2, h3, h4, h5⟩]
            rfl
          · rw [if_neg (by tauto), if_neg (by tauto)]
            rfl
        · rw [if_neg (by tauto), if_neg (by tauto)]
          rfl
      · rw [if_neg (by tauto), if_neg (by tauto)]
        rfl
    · rw [if_neg (by tauto), if_neg (by tauto)]
      rfl
  · rw [if_neg (by tauto), if_neg (by tauto)]
    rfl

/-! ### Splitting off the time zone -/

theorem lastSign_none {s : List Char} (h : ∀ x ∈ s, x ≠ '+' ∧ x ≠ '-') : lastSign s = none := by
  induction s with
  | nil => rfl
  | cons c s ih =>
    have hc := h c (by simp)
    simp [lastSign, ih (fun x hx => h x (by simp [hx])), hc.1, hc.2]

theorem lastSign_append {a : List Char} {b : List Char} {n : Nat} (h : lastSign b = some n) : lastSign (a ++ b) = some (a.length + n) := by
  induction a with
  | nil => simpa using h
  | cons c a ih =>
    simp only [List.cons_append, lastSign, ih, List.length_cons]
    congr 1
    omega

theorem lastSign_nosign {a b : List Char} (h : ∀ x ∈ b, x ≠ '+' ∧ x ≠ '-') : lastSign (a ++ b) = lastSign a := by
  induction a with
  | nil => simpa [lastSign] using lastSign_none h
  | cons c a ih => simp [lastSign, ih]

theorem lastSign_lt {s : List Char} {n : Nat} (h : lastSign s = some n) : n < s.length ∧
    ∃ c w, s.drop n = c :: w ∧ (c = '+' ∨ c = '-') ∧ ∀ x ∈ w, x ≠ '+' ∧ x ≠ '-' := by
  induction s generalizing n with
  | nil => simp [lastSign] at h
  | cons c s ih =>
    simp only [lastSign] at h
    cases hs : lastSign s with
    | some k =>
      rw [hs] at h
      simp at h
      obtain ⟨h1, h2⟩ := ih hs
      subst h
      exact ⟨by simpa using h1, by simpa using h2⟩
    | none =>
      rw [hs] at h
      simp only at h
      split at h
      · rename_i hc
        simp at h
        subst h
        refine ⟨by simp, c, s, rfl, hc, ?_⟩
        clear ih hc
        induction s with
        | nil => simp
        | cons d s ih =>
          simp only [lastSign] at hs
          cases hk : lastSign s with
          | some k => rw [hk] at hs; simp at hs
          | none =>
            rw [hk] at hs
            simp only at hs
            split at hs
            · simp at hs
            · rename_i hd
              intro x hx
              simp at hx
              rcases hx with rfl | hx
              · tauto
              · exact ih hk x hx
      · simp at h

theorem firstT_append {a b : List Char} (h : ∀ x ∈ a, x ≠ 'T') : firstT (a ++ 'T' :: b) = some a.length := by
  induction a with
  | nil => simp [firstT]
  | cons c a ih => simp [firstT, h c (by simp), ih (fun x hx => h x (by simp [hx]))]

theorem digit_ne {c x : Char} (h : c.isDigit = true) (hx : x.isDigit = false) : c ≠ x := by
  rintro rfl
  rw [h] at hx
  simp at hx

/-- What is before and after the `T`. -/
theorem text_split {f : Fields} (r : List Char) : f.text r =
    (f.Y ++ '-' :: (f.M ++ '-' :: f.D)) ++ 'T' :: (f.h ++ ':' :: (f.m ++ ':' :: (f.s ++ r))) := by
  unfold Fields.text
  simp

theorem no_T {f : Fields} (hf : f.Ok) : ∀ x ∈ f.Y ++ '-' :: (f.M ++ '-' :: f.D), x ≠ 'T' := by
  intro x hx
  have hT : Char.isDigit 'T' = false := by decide
  simp at hx
  rcases hx with hx | rfl | hx | rfl | hx
  · exact digit_ne (hf.Y.2.2 x hx) hT
  · decide
  · exact digit_ne (hf.M.2.2 x hx) hT
  · decide
  · exact digit_ne (hf.D.2.2 x hx) hT

theorem no_sign {f : Fields} (hf : f.Ok) {r : List Char} (hr : Frac r) :
    ∀ x ∈ 'T' :: (f.h ++ ':' :: (f.m ++ ':' :: (f.s ++ r))), x ≠ '+' ∧ x ≠ '-' := by
  intro x hx
  have hp : Char.isDigit '+' = false := by decide
  have hm : Char.isDigit '-' = false := by decide
  simp at hx
  rcases hx with rfl | hx | rfl | hx | rfl | hx | hx
  · decide
  · exact ⟨digit_ne (hf.h.2.2 x hx) hp, digit_ne (hf.h.2.2 x hx) hm⟩
  · decide
  · exact ⟨digit_ne (hf.m.2.2 x hx) hp, digit_ne (hf.m.2.2 x hx) hm⟩
  · decide
  · exact ⟨digit_ne (hf.s.2.2 x hx) hp, digit_ne (hf.s.2.2 x hx) hm⟩
  · rcases hr with rfl | ⟨d, rfl, hd⟩
    · simp at hx
    · simp at hx
      rcases hx with rfl | hx
      · decide
      · exact ⟨digit_ne (hd.2.2 x hx) hp, digit_ne (hd.2.2 x hx) hm⟩

theorem part_text {f : Fields} (hf : f.Ok) {r z : List Char} (hr : Frac r) (hz : Zone z) : datetimePart (f.text r ++ z) = f.text r := by
  have hT : ∀ w, firstT (f.text r ++ w) = some (f.Y ++ '-' :: (f.M ++ '-' :: f.D)).length := by
    intro w
    rw [text_split, List.append_assoc, List.cons_append]
    exact firstT_append (no_T hf)
  unfold datetimePart
  rw [hT]
  rcases hz with rfl | ⟨c, w, rfl, hc, hw⟩
  · rw [List.append_nil, text_split, lastSign_nosign (no_sign hf hr)]
    cases hl : lastSign (f.Y ++ '-' :: (f.M ++ '-' :: f.D)) with
    | none => rfl
    | some n =>
      have := (lastSign_lt hl).1
      simp only
      rw [if_neg (by omega)]
  · have h0 : lastSign (c :: w) = some 0 := by
      simp only [lastSign, lastSign_none hw]
      rw [if_pos hc]
    rw [lastSign_append h0]
    simp only [Nat.add_zero]
    rw [if_pos (by rw [text_split]; simp)]
    simp

theorem part_inv (s : List Char) : ∃ z, s = datetimePart s ++ z ∧ Zone z := by
  unfold datetimePart
  cases hl : lastSign s with
  | none => exact ⟨[], by simp, Or.inl rfl⟩
  | some n =>
    cases ht : firstT s with
    | none => exact ⟨[], by simp, Or.inl rfl⟩
    | some t =>
      simp only
      split
      · obtain ⟨_, c, w, h1, h2, h3⟩ := lastSign_lt hl
        exact ⟨s.drop n, (List.take_append_drop n s).symm, Or.inr ⟨c, w, h1, h2, h3⟩⟩
      · exact ⟨[], by simp, Or.inl rfl⟩

/-! ### Dates -/

/-- **C176**: a text is accepted exactly if it is a date and time `YYYY-MM-DDThh:mm:ss`, with an optional fraction and an optional time zone,
of a day which exists in the calendar. -/
theorem date_text_iff (t : List Char) : valid t = true ↔
    ∃ f : Fields, ∃ r z, t = f.text r ++ z ∧ f.Ok ∧ Frac r ∧ Zone z ∧ f.Real := by
  constructor
  · intro h
    unfold valid at h
    simp only at h
    cases hm : matchDate (datetimePart t) with
    | none => rw [hm] at h; simp at h
    | some ms =>
      rw [hm] at h
      simp only at h
      obtain ⟨f, r, hp, hf, hr⟩ := matchDate_inv hm
      obtain ⟨z, hz, hz2⟩ := part_inv t
      refine ⟨f, r, z, by rw [← hp]; exact hz, hf, hr, hz2, ?_⟩
      rw [hp, getTime_eq hf hr] at h
      by_cases hc : (1 ≤ val f.M ∧ val f.M ≤ 12) ∧ (1 ≤ val f.D ∧ val f.D ≤ 31) ∧ val f.h ≤ 23 ∧ val f.m ≤ 59 ∧ val f.s ≤ 60
      · rw [if_pos hc] at h
        simp only at h
        split at h
        · rename_i hv
          rw [Util.date_valid_iff] at hv
          unfold Fields.Real
          omega
        · simp at h
      · rw [if_neg hc] at h
        simp at h
  · rintro ⟨f, r, z, rfl, hf, hr, hz, hR⟩
    unfold valid
    simp only [part_text hf hr hz]
    obtain ⟨ms, h1, h2⟩ := matchDate_some hf hr
    have hdays : daysIn (val f.Y) (val f.M) ≤ 31 := by
      unfold daysIn
      repeat' split
      all_goals omega
    have hY : val f.Y ≤ 9999 := by
      have := Env.val_lt hf.Y.2.2
      have h4 : f.Y.length = 4 := le_antisymm hf.Y.2.1 hf.Y.1
      rw [h4] at this
      omega
    unfold Fields.Real at hR
    rw [h1, getTime_eq hf hr, if_pos (by omega)]
    simp only
    rw [if_pos ((Util.date_valid_iff ..).2 (by omega))]
    simpa using h2

theorem num_digits {lo hi : Nat} {d : List Char} (h : Num lo hi d) (h1 : 1 ≤ lo) (h2 : hi ≤ 9) : Env.Digits d := by
  refine ⟨?_, le_trans h.2.1 h2, h.2.2⟩
  rintro rfl
  have := h.1
  simp at this
  omega

/-- **C176**: for an accepted text the seconds since midnight are those of the time in the text, whatever the fraction and the time zone. -/
theorem accepted_seconds {t : List Char} (h : valid t = true) : ∃ f : Fields, ∃ r z, t = f.text r ++ z ∧ f.Ok ∧
    Env.secondsSinceMidnight t = 3600 * val f.h + 60 * val f.m + val f.s ∧ Env.secondsSinceMidnight t < 86400 := by
  obtain ⟨f, r, z, rfl, hf, hr, hz, hR⟩ := (date_text_iff t).1 h
  refine ⟨f, r, z, rfl, hf, ?_⟩
  have he : Ends (r ++ z) := by
    rcases hr with rfl | ⟨d, rfl, _⟩
    · rcases hz with rfl | ⟨c, w, rfl, hc, _⟩
      · intro x hx; simp at hx
      · rcases hc with rfl | rfl
        · exact ends_cons _ (by decide)
        · exact ends_cons _ (by decide)
    · exact ends_cons _ (by decide)
  have e : f.text r ++ z = f.Y ++ '-' :: (f.M ++ '-' :: (f.D ++ 'T' :: (f.h ++ ':' :: (f.m ++ ':' :: (f.s ++ (r ++ z)))))) := by
    unfold Fields.text
    simp
  rw [e, Env.seconds_spec (num_digits hf.Y (by decide) (by decide)) (num_digits hf.M (by decide) (by decide)) (num_digits hf.D (by decide) (by decide))
    (num_digits hf.h (by decide) (by decide)) (num_digits hf.m (by decide) (by decide)) (num_digits hf.s (by decide) (by decide)) he]
  unfold Fields.Real at hR
  omega

example : valid "2024-02-29T7:05:00.5+0100".toList = true ∧ valid "2023-02-29T07:05:00".toList = false ∧
    valid "2024-02-29T07:05:00Z".toList = false ∧ valid "2024-02-29T07:05:00-xyz".toList = true ∧ valid "24-02-29T07:05:00".toList = false := by
  decide +kernel

/-! ### The reported time -/

/-- The time stamps do not go back. -/
def Rising : Int → List ((Bool × Nat × Int) × Int) → Prop
  | _, [] => True
  | a, (_, n) :: l => a ≤ n ∧ Rising n l

/-- Without animation the time of the environment is reported. -/
theorem standing (offset : Option Int) (start : Nat) (epoch now : Int) : (update offset false start epoch now).2 = ⟨start, epoch⟩ ∧
    (update offset false start epoch now).1 = offset := ⟨rfl, rfl⟩

/-- **C177**, with the offset set: the reports are ahead of the time of the environment by the time since then if it is animated, otherwise
they are the time of the environment. -/
theorem reports_set {t0 : Int} : ∀ {l : List ((Bool × Nat × Int) × Int)} {a : Int}, t0 ≤ a → Rising a l →
    (∀ x ∈ l, x.2 - t0 < 4294967296 - 86400) → (∀ x ∈ l, x.1.2.1 < 86400) →
    reports (some t0) l = l.map fun x => if x.1.1 then ⟨x.1.2.1 + (x.2 - t0).toNat, x.1.2.2 + (x.2 - t0)⟩ else ⟨x.1.2.1, x.1.2.2⟩
  | [], _, _, _, _, _ => rfl
  | (e, now) :: l, a, ha, hr, hb, hs => by
    obtain ⟨an, start, epoch⟩ := e
    obtain ⟨hr1, hr2⟩ := hr
    have ih := reports_set (l := l) (a := now) (le_trans ha hr1) hr2 (fun x hx => hb x (by simp [hx])) (fun x hx => hs x (by simp [hx]))
    have b1 := hb _ (List.mem_cons_self ..)
    have s1 := hs _ (List.mem_cons_self ..)
    simp only at b1 s1
    cases an with
    | false =>
      simp only [reports, List.map_cons]
      rw [(standing ..).1, (standing ..).2, ih]
      simp
    | true =>
      simp only [reports, List.map_cons, update, Bool.not_true, Bool.false_eq_true, if_false, Option.isNone_some, Bool.false_and, Option.getD_some,
        if_true]
      rw [ih]
      congr 1
      simp only [Report.mk.injEq]
      constructor
      · rw [Int.emod_eq_of_lt (by omega) (by omega), Nat.mod_eq_of_lt (by omega)]
      · omega

/-- **C177**: if the time of day is animated from a positive time `t0` on, with the same date and time, then the reported time is that of the
environment plus the time since `t0`. What is missing: the time within a day after midnight, the start at time 0 and a change of the date and
time, see below. -/
theorem clock_partial {start : Nat} {epoch t0 : Int} {l : List Int} (h0 : 0 < t0) (hr : (t0 :: l).Pairwise (· ≤ ·))
    (hb : ∀ n ∈ l, n - t0 < 4294967296 - 86400) (hs : start < 86400) :
    reports none ((t0 :: l).map fun n => ((true, start, epoch), n)) = (t0 :: l).map fun n => ⟨start + (n - t0).toNat, epoch + (n - t0)⟩ := by
  have hrise : ∀ (l : List Int) (a : Int), (a :: l).Pairwise (· ≤ ·) → Rising a (l.map fun n => ((true, start, epoch), n)) := by
    intro l
    induction l with
    | nil => intro a _; trivial
    | cons b l ih =>
      intro a h
      rw [List.pairwise_cons] at h
      exact ⟨h.1 b (by simp), ih b h.2⟩
  have key := reports_set (t0 := t0) le_rfl (hrise l t0 hr) (by simpa using hb) (by simpa using fun _ _ => hs)
  simp only [List.map_cons, reports, update, Bool.not_true, Bool.false_eq_true, if_false, Option.isNone_none, Bool.true_and, decide_eq_true h0,
    if_true, Option.getD_some]
  rw [key]
  congr 1
  · simp only [sub_self, Int.zero_emod, Int.toNat_zero, Report.mk.injEq, add_zero]
    exact ⟨Nat.mod_eq_of_lt (by omega), by omega⟩
  · simp [List.map_map, Function.comp_def]

example : reports none ([5, 6, 9].map fun n => ((true, 37800, 1700044200), n)) = [⟨37800, 1700044200⟩, ⟨37801, 1700044201⟩, ⟨37804, 1700044204⟩] := by
  decide +kernel

/-- **C177**, the rate: once the clock runs, the reported time grows by the time which passes. -/
theorem clock_rate {t0 start epoch a b} (h0 : (t0 : Int) ≤ a) (h1 : a ≤ b) (h2 : b - t0 < 4294967296 - 86400) (hs : start < 86400) :
    ((update (some t0) true start epoch b).2.sinceMidnight : Int) - (update (some t0) true start epoch a).2.sinceMidnight = b - a ∧
    (update (some t0) true start epoch b).2.unix - (update (some t0) true start epoch a).2.unix = b - a := by
  have e := fun n (hn : t0 ≤ n) (hn2 : n - t0 < 4294967296 - 86400) => reports_set (l := [((true, start, epoch), n)]) (t0 := t0) (a := t0) le_rfl
    ⟨hn, trivial⟩ (by simpa using hn2) (by simpa using hs)
  have ea := e a h0 (by omega)
  have eb := e b (by omega) h2
  simp only [reports, List.map_cons, List.map_nil, if_true, List.cons.injEq, and_true] at ea eb
  rw [ea, eb]
  simp only
  omega

/-- The negation at midnight: the seconds since midnight exceed those of a day. Started at 23:59:59, after two seconds. -/
theorem clock_midnight_fails : ∃ r ∈ reports none ([10, 12].map fun n => ((true, 86399, 0), n)), 86400 ≤ r.sinceMidnight :=
  ⟨⟨86401, 2⟩, by decide +kernel, by decide⟩

/-- The negation for the start at time 0: after two seconds the clock has advanced by one. -/
theorem clock_start_fails : reports none ([0, 1, 2].map fun n => ((true, 37800, 0), n)) = [⟨37800, 0⟩, ⟨37800, 0⟩, ⟨37801, 1⟩] := by decide +kernel

/-- The negation for a second action: the time of day set at time 100 is reported with 95 s added already when it is set. -/
theorem clock_again_fails : reports none [((true, 37800, 0), 5), ((true, 43200, 5400), 100)] = [⟨37800, 0⟩, ⟨43295, 5495⟩] := by decide +kernel

end Verif.Clock
