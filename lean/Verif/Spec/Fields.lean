import Mathlib.Analysis.Calculus.Deriv.Basic
import Mathlib.Analysis.SpecialFunctions.Log.Basic

/-!
# Fields: the differential equations of conduction and diffusion

Nothing here refers to the library.  Quantities are real numbers in SI units.
-/

namespace Verif

/-- `u x t` (position, time) obeys the diffusion equation with coefficient `κ` in `n` dimensions at all positive times:
`∂u/∂t = κ (∂²u/∂x² + (n-1)/x ∂u/∂x)`.  For `n = 1`, `x` is a coordinate, otherwise the distance from a centre. -/
def Diffuses (n κ : ℝ) (u : ℝ → ℝ → ℝ) : Prop :=
  ∀ x t, 0 < t → (n = 1 ∨ x ≠ 0) → ∃ (g : ℝ → ℝ) (c : ℝ), (∀ y, HasDerivAt (fun y => u y t) (g y) y) ∧
    HasDerivAt g c x ∧ HasDerivAt (fun s => u x s) (κ * (c + (n - 1) / x * g x)) t

/-- A steady profile `T` between `a` and `b` that carries the flow `q` through the cross section `area r` at every place:
Fourier's (or Fick's) law with conductivity (or diffusivity) `k`. -/
def Carries (k : ℝ) (area : ℝ → ℝ) (T : ℝ → ℝ) (q a b : ℝ) : Prop :=
  ∀ r ∈ Set.Icc a b, ∃ d, HasDerivAt T d r ∧ q = -k * area r * d

end Verif
