import Mathlib.Analysis.SpecialFunctions.Pow.Real
import Mathlib.Analysis.SpecialFunctions.Log.Basic
import Mathlib.Data.Int.Log
import Mathlib.Algebra.Order.Round

/-!
# Floating point arithmetic

The standard model of rounding errors, as an assumption on the arithmetic: every operation returns its exact result up to a
relative error.  Overflow and underflow are outside this model.  Nothing here refers to the library.
-/

namespace Verif

/-- `x` and `y` differ by a factor of at most `e^k` (relative precision `k`); in particular they have the same sign and
are zero together. -/
def Close (k x y : ℝ) : Prop := ∃ t : ℝ, |t| ≤ k ∧ x = y * Real.exp t

/-- A floating point arithmetic with relative precision `ε` in every operation. -/
structure FloatArith where
  ε : ℝ
  add : ℝ → ℝ → ℝ
  sub : ℝ → ℝ → ℝ
  mul : ℝ → ℝ → ℝ
  div : ℝ → ℝ → ℝ
  /-- the power function of the mathematics library -/
  pow : ℝ → ℚ → ℝ
  /-- decimal literals -/
  lit : ℚ → ℝ
  nonneg : 0 ≤ ε
  add_close : ∀ x y, Close ε (add x y) (x + y)
  sub_close : ∀ x y, Close ε (sub x y) (x - y)
  mul_close : ∀ x y, Close ε (mul x y) (x * y)
  div_close : ∀ x y, y ≠ 0 → Close ε (div x y) (x / y)
  pow_close : ∀ x (e : ℚ), 0 < x ∨ (x = 0 ∧ 0 ≤ e) ∨ (x < 0 ∧ e.den = 1) → Close ε (pow x e) (x ^ (e : ℝ))
  lit_close : ∀ q : ℚ, Close ε (lit q) q

/-- Rounding to the nearest number with 53 significant bits, ties upwards. -/
noncomputable def round53 (x : ℝ) : ℝ :=
  if x = 0 then 0 else round (x / 2 ^ (Int.log 2 |x| - 52)) * 2 ^ (Int.log 2 |x| - 52)

end Verif
