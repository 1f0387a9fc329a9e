import Verif.Expr.StringTheorems
import Mathlib.Algebra.Order.Round
import Mathlib.Data.Rat.Floor
import Mathlib.Tactic.Linarith
import Mathlib.Tactic.Positivity
import Mathlib.Tactic.NormNum
/-
C120: the value of an expression in an attribute, over exact fractions.
-/
namespace Verif.Expr

/-- The number that is read from the text printed by `std::to_string(rs._double)` (Parameters.cpp:464), i.e. `%f` with six
decimals. Simplifications: exact fractions; the text itself and ties are not modelled (a tie goes up). -/
def printed (v : Rat) : Rat := round (v * 1000000) / 1000000

/-- C120: what an attribute given by an expression holds: at most half a millionth off, exact for up to six decimals. -/
theorem printed_close_partial (v : Rat) :
    |printed v - v| ≤ 1 / 2000000 ∧ (∀ n : Int, v = n / 1000000 → printed v = v) := by
  constructor
  · have h := abs_sub_round (v * 1000000)
    have e : printed v - v = -(v * 1000000 - round (v * 1000000)) / 1000000 := by unfold printed; ring
    rw [e, abs_div, abs_neg, abs_of_pos (by norm_num : (0 : Rat) < 1000000), div_le_iff₀ (by norm_num)]
    linarith
  · rintro n rfl
    unfold printed
    rw [div_mul_cancel₀ _ (by norm_num), round_intCast]

/-- C120 does not hold: any value below half a millionth is lost, and `1/3` is changed. -/
theorem printed_fails : (∀ v : Rat, |v| < 1 / 2000000 → printed v = 0) ∧
    evalExpr fractions "1/3".toList = .number (1 / 3) ∧ printed (1 / 3) ≠ 1 / 3 ∧
    evalExpr fractions "1/4000000".toList = .number (1 / 4000000) ∧ printed (1 / 4000000) = 0 := by
  have h0 : ∀ v : Rat, |v| < 1 / 2000000 → printed v = 0 := by
    intro v hv
    have h := abs_lt.mp hv
    have : round (v * 1000000) = 0 := by
      rw [round_eq_zero_iff]
      constructor <;> linarith
    rw [printed, this]; simp
  refine ⟨h0, by decide +kernel, ?_, by decide +kernel, h0 _ (by norm_num)⟩
  have : round ((1 / 3 : Rat) * 1000000) = 333333 := by
    rw [round_eq, Int.floor_eq_iff]; norm_num
  rw [printed, this]; norm_num

/-- `0.25` is kept. -/
example : printed (1 / 4) = 1 / 4 := (printed_close_partial _).2 250000 (by norm_num)

end Verif.Expr
