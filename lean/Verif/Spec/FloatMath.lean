import Verif.Units.MathFun
import Verif.Spec.Float

/-!
# Floating point arithmetic with the functions of the `math` module

The functions are accurate to the same relative precision as the operations.  Nothing here refers to quantities.
-/

namespace Verif

/-- A floating point arithmetic with a mathematics library. -/
structure FloatMath extends FloatArith where
  exp : ℝ → ℝ
  log : ℝ → ℝ
  sin : ℝ → ℝ
  erf : ℝ → ℝ
  erfc : ℝ → ℝ
  pi : ℝ
  exp_close : ∀ x, Close ε (exp x) (Real.exp x)
  log_close : ∀ x, 0 < x → Close ε (log x) (Real.log x)
  sin_close : ∀ x, Close ε (sin x) (Real.sin x)
  erf_close : ∀ x, Close ε (erf x) (Verif.erf x)
  erfc_close : ∀ x, Close ε (erfc x) (1 - Verif.erf x)
  pi_close : Close ε pi Real.pi

end Verif
