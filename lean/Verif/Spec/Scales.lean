import Verif.Spec.Sizes
import Verif.Spec.SI
import Verif.Units.Code

/-!
# Temperatures on the four scales, as arguments and results
-/

namespace Verif

/-- `Temperature(x, "C")` and so on. -/
def tempOn (s : Scale) (x : ℝ) : PyM (Val ℝ) := qU .temperature x s.sym

/-- `e.convert_to("...")` for an expression `e`. -/
noncomputable def inUnit (unit : Sym) (e : PyM (Val ℝ)) : PyM (Val ℝ) := lift1 (callConvert · unit) e

/-- `e.convert_to("C")` and so on, for an expression `e`. -/
noncomputable def inScale (t : Scale) (e : PyM (Val ℝ)) : PyM (Val ℝ) := inUnit t.sym e

/-- Degrees per kelvin. -/
noncomputable def Scale.step : Scale → ℝ
  | .K => 1 | .C => 1 | .R => 9 / 5 | .F => 9 / 5

/-- The reading of a scale at a thermodynamic temperature. -/
noncomputable def Scale.reading : Scale → ℝ → ℝ
  | .K, T => T
  | .C, T => T - 27315 / 100
  | .R, T => 9 / 5 * T
  | .F, T => 9 / 5 * T - 45967 / 100

/-- `e` is a plain number or an exception. -/
def NumOrError (e : PyM (Val ℝ)) : Prop := (∃ x, e = .ok (.num x)) ∨ ∃ err, e = .error err

end Verif
