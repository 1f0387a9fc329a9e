import Verif.Mark.Lemmas

/-!
# Points of road marks: theorems
-/

namespace Verif.Mark

open Spec

/-- The segment between two points represents the line or is shorter than 20 cm. -/
def Represents (R : Shape) (a b : Rat) : Prop :=
  Faithful R.straight R.level R.density R.maxDist a b ∨ b - a < 1 / 5 + 1 / 1000000

theorem pair_represents {R : Shape} {a b : Rat} (h : Pair R a b) : Represents R a b := by
  rcases h with h | h
  · left
    unfold requirement at h
    split at h
    · rename_i hs
      split at h
      · simp at h
      · rename_i hn
        refine ⟨hs, h, ?_⟩
        simp only [maxSegmentLen, h, if_true, minSeg, small, Rat.mul_one] at hn
        unfold Longest
        generalize R.maxDist / (1 + 1750 * R.density b) = q at *
        have e1 : maxR (1 / 5) (minR R.maxDist q) = 1 / 5 ∨
            (maxR (1 / 5) (minR R.maxDist q) ≤ R.maxDist ∧ maxR (1 / 5) (minR R.maxDist q) ≤ q) := by
          unfold maxR minR; grind
        have hn := Rat.not_lt.mp hn
        rcases e1 with e1 | ⟨e1, e2⟩
        · rw [e1] at hn; exact .inl hn
        · exact .inr ⟨Rat.le_trans hn e1, Rat.le_trans hn e2⟩
    · simp at h
  · exact .inr h

theorem steps_imp {P Q : Rat → Rat → Prop} (h : ∀ a b, P a b → Q a b) :
    ∀ {l : List Rat}, Steps P l → Steps Q l
  | [], _ => trivial
  | [_], _ => trivial
  | _ :: _ :: _, ⟨p, s⟩ => ⟨h _ _ p, steps_imp h s⟩

/-- What a dash from `s` to `e` looks like. -/
structure Drawn (R : Shape) (s e : Rat) (pts : List Rat) : Prop where
  covers : Covers s e pts
  represents : Steps (Represents R) pts
  sparse : Steps (fun a b => a + 1 / 10 ≤ b) pts.dropLast

theorem drawn_of_search {R : Shape} {sMax s len : Rat} {n r} (room : s < sMax - 1 / 2000000)
    (pos : 0 < len) (long : 1 / 10 ≤ len ∨ sMax ≤ s + len)
    (h : search R sMax n (begin s len) = some r) :
    Drawn R s sMax r.pts ∧ r.pts.getLast? = some r.cand := by
  obtain ⟨h1, h2, h3, h4, h5, h6, h7⟩ := search_spec h (inv_begin room pos long) rfl trivial trivial trivial
  exact ⟨⟨⟨h1, h2, _, h5, h6, h7⟩, steps_imp (fun _ _ => pair_represents) h3, h4⟩, h5⟩

/-- **Points along a dash.** Whatever the shape of the line: the search ends, the points run
from the start to the end in ascending order, neighbours represent the line within the
tolerance and the longest distance or are less than 20 cm apart, and are 10 cm apart
except for the last two. -/
theorem dash_points (R : Shape) (sMax s len : Rat) (room : s < sMax - 1 / 2000000)
    (pos : 0 < len) (long : 1 / 10 ≤ len ∨ sMax ≤ s + len) :
    ∃ n r, search R sMax n (begin s len) = some r ∧ Drawn R s sMax r.pts := by
  obtain ⟨n, r, h⟩ := ends (inv_begin (R := R) room pos long)
  exact ⟨n, r, h, (drawn_of_search room pos long h).1⟩

/-- A road with a bend at 2.3 m. -/
def bend : Shape :=
  ⟨fun a b => decide (b ≤ 23 / 10 ∨ 23 / 10 ≤ a), fun _ _ => true, fun _ => 0, 50⟩

example : (search bend 5 40 (begin 0 30)).map (·.pts) =
    some [0, 9 / 4, 19 / 8, 9999999 / 2000000] := by decide +kernel

/-! ## Dashes of a line -/

theorem dashes_mono {R l len sEnd} : ∀ {n : Nat} {s ds}, dashes R l len sEnd n s = some ds →
    ∀ m, n ≤ m → dashes R l len sEnd m s = some ds := by
  intro n
  induction n with
  | zero => intro s ds h; simp [dashes] at h
  | succ n ih =>
    intro s ds h m hm
    obtain ⟨m, rfl⟩ : ∃ k, m = k + 1 := ⟨m - 1, by omega⟩
    simp only [dashes] at h ⊢
    split
    · rename_i hs
      rw [if_pos hs] at h
      cases hw : search R (dashEnd l sEnd s) n (begin s len) with
      | none => simp [hw] at h
      | some w =>
        rw [search_mono hw m (by omega)]
        simp only [hw] at h ⊢
        split at h
        · rename_i hr; rw [if_pos hr]; exact h
        · rename_i hr
          rw [if_neg hr]
          cases hd : dashes R l len sEnd n (minR sEnd (dashEnd l sEnd s + l.space)) with
          | none => simp [hd] at h
          | some t =>
            simp only [hd] at h
            rw [ih hd m (by omega)]
            exact h
    · rename_i hs
      rw [if_neg hs] at h
      exact h

theorem dashes_past {R l len sEnd} {n : Nat} {s : Rat} (h : ¬ s < sEnd - small) :
    dashes R l len sEnd (n + 1) s = some [] := by
  simp [dashes, h]

/-- **Broken lines.** The dashes start one period apart from the start of the line as long as
that is before the end of the mark, and each is as long as stated except that the last one
is cut at the end of the mark.  The last point of a dash is marked as its end if it is
within a micrometre of it. -/
theorem broken_line_partial (R : Shape) (l : Line) (sec len sEnd s : Rat) (rep : l.repeats = true)
    (spc : 1 / 1000000 < l.space) (lng : 1 / 2000000 < l.length) (h0 : sec ≤ s) (h1 : sEnd ≤ sec + len) :
    ∃ n ds, dashes R l len sEnd n s = some ds ∧
      (∀ i : Nat, i < ds.length ↔ s + i * (l.length + l.space) < sEnd - 1 / 1000000) ∧
      ∀ (i : Nat) d, ds[i]? = some d →
        ∃ e z, Drawn R (s + i * (l.length + l.space)) e d.pts ∧
          d.pts.getLast? = some z ∧ (d.closed = true ↔ e - 1 / 1000000 < z) ∧
          (e = s + i * (l.length + l.space) + l.length ∧ e ≤ sEnd ∨
           e = sEnd - 1 / 2000000 ∧ e ≤ s + i * (l.length + l.space) + l.length) := by
  have hsm : small = 1 / 1000000 := rfl
  have hhalf : small / 2 = 1 / 2000000 := by decide +kernel
  obtain ⟨c, hc⟩ := nat_above ((sEnd - s) * 1000000)
  induction c generalizing s with
  | zero =>
    simp at hc
    have hs : ¬ s < sEnd - small := by rw [hsm]; grind
    refine ⟨1, [], dashes_past hs, ?_, by simp⟩
    intro i
    have hi : (0 : Rat) ≤ (i : Rat) := by exact_mod_cast Nat.zero_le i
    have : 0 ≤ (i : Rat) * (l.length + l.space) := Rat.mul_nonneg hi (by grind)
    simp
    grind
  | succ c ih =>
    by_cases hs : s < sEnd - small
    · have hde : dashEnd l sEnd s = minR (sEnd - 1 / 2000000) (s + l.length) := by
        simp [dashEnd, hsm, spc, ← hhalf]
      have room : s < dashEnd l sEnd s - 1 / 2000000 := by
        rw [hde]; unfold minR; grind
      have hle : dashEnd l sEnd s ≤ sEnd - 1 / 2000000 := by
        rw [hde]; unfold minR; grind
      have pos : 0 < len := by grind
      have long : 1 / 10 ≤ len ∨ dashEnd l sEnd s ≤ s + len := .inr (by grind)
      obtain ⟨n1, w, hw⟩ := ends (inv_begin (R := R) room pos long)
      obtain ⟨dr, hz⟩ := drawn_of_search room pos long hw
      have hc' : ((sEnd - (s + (l.length + l.space))) * 1000000) ≤ (c : Rat) := by
        simp at hc; grind
      obtain ⟨n2, ds, e2, e3, e4⟩ := ih (s + (l.length + l.space)) (by grind) hc'
      obtain ⟨m, hm1, hm2⟩ : ∃ m, n1 ≤ m ∧ n2 ≤ m := ⟨n1 + n2, by omega, by omega⟩
      have hn2 : 0 < n2 := by
        cases n2 with
        | zero => simp [dashes] at e2
        | succ => omega
      -- the next dash starts at the next period, or both are past the end
      have next : dashes R l len sEnd m (minR sEnd (dashEnd l sEnd s + l.space)) = some ds := by
        have em := dashes_mono e2 m hm2
        by_cases hp : s + (l.length + l.space) < sEnd
        · have : minR sEnd (dashEnd l sEnd s + l.space) = s + (l.length + l.space) := by
            rw [hde]; unfold minR; grind
          rw [this]; exact em
        · have : minR sEnd (dashEnd l sEnd s + l.space) = sEnd := by
            rw [hde]; unfold minR; grind
          rw [this]
          obtain ⟨k, rfl⟩ : ∃ k, m = k + 1 := ⟨m - 1, by omega⟩
          rw [dashes_past (by grind)] at em
          rw [dashes_past (by rw [hsm]; grind)]
          exact em
      refine ⟨m + 1, ⟨w.pts, decide (w.cand > dashEnd l sEnd s - small ∨ l.repeats = false)⟩ :: ds, ?_, ?_, ?_⟩
      · simp only [dashes, hs, if_true, search_mono hw m hm1, rep, Bool.true_eq_false, if_false, next]
      · intro i
        cases i with
        | zero => simp; grind
        | succ i =>
          have := e3 i
          simp only [List.length_cons, Nat.succ_lt_succ_iff, this]
          have e : s + (l.length + l.space) + (i : Rat) * (l.length + l.space) =
            s + ((i + 1 : Nat) : Rat) * (l.length + l.space) := by
            push_cast; grind
          rw [e]
      · intro i d hd
        cases i with
        | zero =>
          simp at hd
          subst hd
          have ez : s + ((0 : Nat) : Rat) * (l.length + l.space) = s := by simp; grind
          rw [ez]
          refine ⟨dashEnd l sEnd s, w.cand, dr, hz, by simp [rep, hsm], ?_⟩
          rw [hde]; unfold minR; grind
        | succ i =>
          have e : s + (l.length + l.space) + (i : Rat) * (l.length + l.space) =
            s + ((i + 1 : Nat) : Rat) * (l.length + l.space) := by
            push_cast; grind
          rw [← e]
          exact e4 i d (by simpa using hd)
    · refine ⟨1, [], dashes_past hs, ?_, by simp⟩
      intro i
      have hi : (0 : Rat) ≤ (i : Rat) := by exact_mod_cast Nat.zero_le i
      have : 0 ≤ (i : Rat) * (l.length + l.space) := Rat.mul_nonneg hi (by grind)
      rw [hsm] at hs
      generalize (i : Rat) * (l.length + l.space) = q at *
      simp
      grind

example : ∃ n ds, dashes bend ⟨4, 8, true⟩ 30 30 n 0 = some ds ∧ ds.length = 3 ∧
    ds.all (·.closed) = true :=
  ⟨40, [⟨[0, 9 / 4, 19 / 8, 7999999 / 2000000], true⟩, ⟨[12, 31999999 / 2000000], true⟩,
    ⟨[24, 55999999 / 2000000], true⟩], by decide +kernel, by decide +kernel, by decide +kernel⟩

/-- A line that is not repeated or has no space is one dash. -/
theorem one_dash (R : Shape) (l : Line) (sec len sEnd s : Rat)
    (one : l.repeats = false ∧ 1 / 2000000 < l.length ∨
      l.repeats = true ∧ 0 ≤ l.space ∧ l.space ≤ 1 / 1000000)
    (h0 : sec ≤ s) (h1 : sEnd ≤ sec + len) (hs : s < sEnd - 1 / 1000000) :
    ∃ n d, dashes R l len sEnd n s = some [d] ∧ Drawn R s (dashEnd l sEnd s) d.pts ∧
      (l.repeats = false → d.closed = true) := by
  have hsm : small = 1 / 1000000 := rfl
  have hhalf : small / 2 = 1 / 2000000 := by decide +kernel
  have hde : s < dashEnd l sEnd s - 1 / 2000000 ∧ dashEnd l sEnd s ≤ sEnd - 1 / 2000000 ∧
      (l.repeats = true → dashEnd l sEnd s = sEnd - 1 / 2000000) := by
    unfold dashEnd
    rw [hhalf, hsm]
    rcases one with ⟨a, b⟩ | ⟨a, b, c⟩
    · simp only [a, or_true, if_true]
      unfold minR
      refine ⟨?_, ?_, by simp⟩ <;> grind
    · have : ¬ (l.space > 1 / 1000000 ∨ l.repeats = false) := by grind
      rw [if_neg this]
      refine ⟨?_, ?_, by simp⟩ <;> grind
  obtain ⟨r1, r2, r3⟩ := hde
  have pos : 0 < len := by grind
  have long : 1 / 10 ≤ len ∨ dashEnd l sEnd s ≤ s + len := .inr (by grind)
  obtain ⟨n, w, hw⟩ := ends (inv_begin (R := R) r1 pos long)
  obtain ⟨dr, _⟩ := drawn_of_search r1 pos long hw
  have hn : 0 < n := by
    cases n with
    | zero => simp [search] at hw
    | succ => omega
  have hs' : s < sEnd - small := by rw [hsm]; exact hs
  cases hr : l.repeats
  · refine ⟨n + 1, ⟨w.pts, decide (w.cand > dashEnd l sEnd s - small ∨ l.repeats = false)⟩, ?_, dr, ?_⟩
    · simp only [dashes, hs', if_true, hw, hr]
    · simp [hr]
  · have hsp : 0 ≤ l.space := by grind
    refine ⟨n + 1, ⟨w.pts, decide (w.cand > dashEnd l sEnd s - small ∨ l.repeats = false)⟩, ?_, dr, ?_⟩
    · obtain ⟨k, rfl⟩ : ∃ k, n = k + 1 := ⟨n - 1, by omega⟩
      have past : ¬ minR sEnd (dashEnd l sEnd s + l.space) < sEnd - small := by
        rw [r3 hr, hsm]; unfold minR; grind
      have e := dashes_past (R := R) (l := l) (len := len) (n := k) past
      rw [dashes]
      simp only [hs', if_true, hw, hr, Bool.true_eq_false, if_false, e]
    · simp

/-- **Solid lines.** A repeated line without space is drawn from its start to the end of the mark. -/
theorem solid_line (R : Shape) (l : Line) (sec len sEnd s : Rat) (rep : l.repeats = true)
    (spc : l.space = 0) (h0 : sec ≤ s) (h1 : sEnd ≤ sec + len) (hs : s < sEnd - 1 / 1000000) :
    ∃ n d, dashes R l len sEnd n s = some [d] ∧ Drawn R s (sEnd - 1 / 2000000) d.pts := by
  obtain ⟨n, d, e, dr, _⟩ := one_dash R l sec len sEnd s (.inr ⟨rep, by grind, by grind⟩) h0 h1 hs
  refine ⟨n, d, e, ?_⟩
  have : dashEnd l sEnd s = sEnd - 1 / 2000000 := by
    have hhalf : small / 2 = 1 / 2000000 := by decide +kernel
    unfold dashEnd
    rw [if_neg (by rw [rep, spc]; decide +kernel), hhalf]
  rw [← this]
  exact dr

/-- **Explicit lines** are drawn once over their length, or up to the end of the mark, and are closed. -/
theorem explicit_line (R : Shape) (length sec len sEnd s : Rat) (lng : 1 / 2000000 < length)
    (h0 : sec ≤ s) (h1 : sEnd ≤ sec + len) (hs : s < sEnd - 1 / 1000000) :
    ∃ n d e, dashes R (explicitLine length) len sEnd n s = some [d] ∧ Drawn R s e d.pts ∧
      d.closed = true ∧
      (e = s + length ∧ e ≤ sEnd ∨ e = sEnd - 1 / 2000000 ∧ e ≤ s + length) := by
  obtain ⟨n, d, e, dr, cl⟩ := one_dash R (explicitLine length) sec len sEnd s (.inl ⟨rfl, lng⟩) h0 h1 hs
  refine ⟨n, d, _, e, dr, cl rfl, ?_⟩
  have hhalf : small / 2 = 1 / 2000000 := by decide +kernel
  have : dashEnd (explicitLine length) sEnd s = minR (sEnd - 1 / 2000000) (s + length) := by
    simp only [dashEnd, explicitLine, or_true, if_true, hhalf]
  rw [this]
  unfold minR
  grind

example : (dashes bend (explicitLine 3) 30 30 40 5) = some [⟨[5, 15999999 / 2000000], true⟩] := by
  decide +kernel

example : (dashes bend ⟨0, 0, true⟩ 30 30 80 0).map (·.map (·.pts.length)) = some [4] := by
  decide +kernel

/-- Witness: the dashes of a line of length 1.0000015 m are not marked as ended, the line is
drawn through. -/
theorem dash_closed_fails : ∃ n ds, dashes bend ⟨1 + 3 / 2000000, 8, true⟩ 30 30 n 3 = some ds ∧
    ds.length = 3 ∧ ∀ d ∈ ds, d.closed = false :=
  ⟨40, [⟨[3, 4], false⟩, ⟨[24000003 / 2000000, 26000003 / 2000000], false⟩,
    ⟨[21000003 / 1000000, 22000003 / 1000000], false⟩], by decide +kernel, by decide +kernel, by decide +kernel⟩

/-! ## Dots -/

/-- **Botts' dots.** With a space of a micrometre or more there is a dot at the start of the line
and one after each space up to the end of the mark, and no other. -/
theorem dots_spaced (space sEnd s : Rat) (spc : 1 / 1000000 ≤ space) (hs : 0 ≤ s) :
    ∃ n ps, dots space sEnd n s = some ps ∧
      (∀ i : Nat, i < ps.length ↔ i = 0 ∨ s + i * space ≤ sEnd - 1 / 1000000) ∧
      ∀ (i : Nat) p, ps[i]? = some p → p = s + i * space := by
  have hsm : small = 1 / 1000000 := rfl
  obtain ⟨c, hc⟩ := nat_above ((sEnd - s) * 1000000)
  induction c generalizing s with
  | zero =>
    simp at hc
    have hp : s + space < small ∨ s + space > sEnd - small := .inr (by rw [hsm]; grind)
    refine ⟨1, [s], by simp [dots, hp], ?_, ?_⟩
    · intro i
      have hi : (0 : Rat) ≤ (i : Rat) := by exact_mod_cast Nat.zero_le i
      have : 0 ≤ (i : Rat) * space := Rat.mul_nonneg hi (by grind)
      generalize (i : Rat) * space = q at *
      simp
      grind
    · intro i p h
      cases i with
      | zero => simp at h; simp [h]; grind
      | succ => simp at h
  | succ c ih =>
    by_cases hp : s + space > sEnd - small
    · refine ⟨1, [s], by simp [dots, hp], ?_, ?_⟩
      · intro i
        cases i with
        | zero => simp
        | succ i =>
          have hi : (0 : Rat) ≤ (i : Rat) := by exact_mod_cast Nat.zero_le i
          have : 0 ≤ (i : Rat) * space := Rat.mul_nonneg hi (by grind)
          have e : ((i + 1 : Nat) : Rat) * space = i * space + space := by push_cast; grind
          rw [e]
          rw [hsm] at hp
          generalize (i : Rat) * space = q at *
          simp
          grind
      · intro i p h
        cases i with
        | zero => simp at h; simp [h]; grind
        | succ => simp at h
    · have hn : ¬ (s + space < small ∨ s + space > sEnd - small) := by
        rw [hsm] at hp ⊢; grind
      obtain ⟨n, ps, e1, e2, e3⟩ := ih (s + space) (by grind) (by simp at hc; grind)
      refine ⟨n + 1, s :: ps, by simp only [dots, if_neg hn, e1], ?_, ?_⟩
      · intro i
        cases i with
        | zero => simp
        | succ i =>
          have e : s + ((i + 1 : Nat) : Rat) * space = s + space + i * space := by push_cast; grind
          rw [e]
          have g := e2 i
          simp only [List.length_cons, Nat.succ_lt_succ_iff, g]
          constructor
          · rintro (rfl | h)
            · right; simp; rw [hsm] at hp; grind
            · exact .inr h
          · rintro (h | h)
            · simp at h
            · exact .inr h
      · intro i p h
        cases i with
        | zero => simp at h; simp [h]; grind
        | succ i =>
          have e : s + ((i + 1 : Nat) : Rat) * space = s + space + i * space := by push_cast; grind
          rw [e]
          exact e3 i p (by simpa using h)

example : dots 3 (markEnd 10) 9 1 = some [1, 4, 7] := by decide +kernel

/-- Without a space the loop does not end, unless the line starts at 0. -/
theorem dots_endless (sEnd s : Rat) (h0 : 1 / 1000000 ≤ s) (h1 : s ≤ sEnd - 1 / 1000000) :
    ∀ n, dots 0 sEnd n s = none
  | 0 => rfl
  | n + 1 => by
    have hsm : small = 1 / 1000000 := rfl
    have e : s + 0 = s := by grind
    have hn : ¬ (s + 0 < small ∨ s + 0 > sEnd - small) := by rw [hsm]; grind
    rw [dots, if_neg hn, e, dots_endless sEnd s h0 h1 n]

/-- Witness: the dots of an explicit line one metre into the mark, which has no space, are never finished. -/
theorem dots_end_fails : ¬ ∃ n ps, dots (explicitLine 3).space (markEnd 10) n 1 = some ps := by
  rintro ⟨n, ps, h⟩
  have := dots_endless (markEnd 10) 1 (by decide +kernel) (by decide +kernel) n
  rw [show (explicitLine 3).space = 0 from rfl, this] at h
  cases h

/-- Witness: a line that starts beyond the end of its mark gets a dot there. -/
theorem dots_within_fails : dots 3 (markEnd 10) 9 15 = some [15] := by decide +kernel

end Verif.Mark
