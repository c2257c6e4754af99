import Verif.Reactions.Integral
import Verif.Spec.Doubles

/-!
# The orders tested by `integral_method` in double precision, reaction_parameters.py:50

`np.arange(*order_range)` for Python floats, as numpy computes it: the length is the quotient rounded up, the first two
entries are `start` and `start + step`, and the others are `start + k * (second - start)`.  `r` rounds a real number to a
double; a fused multiply and add is not modelled.  Logarithms, powers and correlations are those of the exact model.
-/

namespace Verif

/-- Entry `k` of `np.arange(start, stop, step)`. -/
noncomputable def arangeEntry (r : ℝ → ℝ) (start step : ℝ) (k : ℕ) : ℝ :=
  if k = 0 then start
  else if k = 1 then r (start + step)
  else r (start + r (k * r (r (start + step) - start)))

/-- The number of entries of `np.arange(start, stop, step)`. -/
noncomputable def arangeLength (r : ℝ → ℝ) (start stop step : ℝ) : ℕ := ⌈r (r (stop - start) / step)⌉.toNat

/-- `np.arange(start, stop, step)` for doubles. -/
noncomputable def arangeDouble (r : ℝ → ℝ) (start stop step : ℝ) : PyM (List ℝ) :=
  if step = 0 then .error .zeroDivision
  else .ok ((List.range (arangeLength r start stop step)).map (arangeEntry r start step))

/-- reaction_parameters.py:20-63 `integral_method` with the range of orders in double precision; `start`, `stop` and `step`
are the decimal numbers written by the user. -/
noncomputable def integralMethodDouble (r : ℝ → ℝ) (time data : List ℝ) (start stop step : ℚ) : PyM (ℝ × ℝ) :=
  match arangeDouble r (r start) (r stop) (r step) with
  | .error e => .error e
  | .ok is => integralLoop time is (data.map .fin) 0 0

end Verif
