import Verif.Condition.TriggerTheorems

/-! C43: the history of a condition when time does not move forward (violated). -/
namespace Verif.Condition
open Verif.Common

/-- the entries are in order of time -/
def Chronological (l : List Entry) : Prop := l.Pairwise (fun a b => a.time < b.time)

instance (l) : Decidable (Chronological l) := inferInstanceAs (Decidable (l.Pairwise _))

/-- Positive part: registering at a time at least `SMALL_NUMBER` after all entries keeps the order. -/
theorem register_chronological_partial (d : Delay) (t : Rat) (v : Bool) (hc : Chronological d.values)
    (ht : ∀ e ∈ d.values, e.time + small ≤ t) : Chronological (register t v d).values := by
  have sp := small_pos
  unfold register
  cases hl : d.values.getLast? with
  | none => simp [Chronological]
  | some b =>
    have hb := ht b (List.mem_of_getLast? hl)
    simp only
    rw [if_neg (by grind)]
    split
    · refine List.pairwise_append.2 ⟨hc, by simp, ?_⟩
      intro x hx y hy
      simp at hy; subst hy
      have := ht x hx
      simp only
      grind
    · exact hc

/-- Positive part: evaluating forward in time never reads outside the history and is always defined. -/
theorem evaluate_defined_partial (id : Nat) (e : Edge) (d : Rat) (hd : 0 ≤ d) (ops : List Op) (hf : Forward ops) :
    ∃ c bs, runOps (fresh id e d) ops = some (c, bs) := by
  obtain ⟨c, bs, h, _⟩ := runOps_inv hd ops (fresh id e d) none [] (fresh_ok id e d) List.Pairwise.nil (by simp) hf
  exact ⟨c, bs, h⟩

/-- **C43 fails**: registering an earlier value (after the clock was set back) can leave the history out of
order: false at 0, true at 1, false at 2; then false registered at 0.5. -/
theorem rewind_order_fails :
    ∃ (d : Delay) (t : Rat) (v : Bool), Chronological d.values ∧ ¬ Chronological (register t v d).values :=
  ⟨⟨[⟨0, false⟩, ⟨1, true⟩, ⟨2, false⟩], 0⟩, 1/2, false, by decide +kernel, by decide +kernel⟩

/-- The history of `rewind_order_fails` is reached by evaluating a condition. -/
example : (runOps (fresh 0 .none 0) [.eval 0 false, .eval 1 true, .eval 2 false]).map (fun x => x.1.hist.values)
    = some [⟨0, false⟩, ⟨1, true⟩, ⟨2, false⟩] := by decide +kernel

/-- **C43 fails**: evaluating a condition twice at the same time, with its expression changing from true to
false in between, reads outside the history (undefined behaviour). -/
theorem same_time_undefined : runOps (fresh 0 .none 0) [.eval 0 false, .eval 1 true, .eval 1 false] = none := by
  decide +kernel

end Verif.Condition
