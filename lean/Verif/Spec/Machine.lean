import Verif.Spec.FloatMath

/-!
# Floating point arithmetic with a finite range

Real machines round accurately only as long as the exact result of an operation is neither too large nor too small: beyond
the range the result is infinite, below it digits are lost.  The accuracy of a `FloatMachine` is therefore promised only for
exact results in its range.  Nothing here refers to the library.
-/

namespace Verif

/-- A floating point arithmetic with a mathematics library, accurate for results in the range `normal`. -/
structure FloatMachine where
  ε : ℝ
  /-- the exact results that are neither too large nor too small -/
  normal : ℝ → Prop
  add : ℝ → ℝ → ℝ
  sub : ℝ → ℝ → ℝ
  mul : ℝ → ℝ → ℝ
  div : ℝ → ℝ → ℝ
  pow : ℝ → ℚ → ℝ
  lit : ℚ → ℝ
  exp : ℝ → ℝ
  log : ℝ → ℝ
  sin : ℝ → ℝ
  erf : ℝ → ℝ
  erfc : ℝ → ℝ
  pi : ℝ
  nonneg : 0 ≤ ε
  add_close : ∀ x y, normal (x + y) → Close ε (add x y) (x + y)
  sub_close : ∀ x y, normal (x - y) → Close ε (sub x y) (x - y)
  mul_close : ∀ x y, normal (x * y) → Close ε (mul x y) (x * y)
  div_close : ∀ x y, y ≠ 0 → normal (x / y) → Close ε (div x y) (x / y)
  pow_close : ∀ x (e : ℚ), 0 < x ∨ (x = 0 ∧ 0 ≤ e) ∨ (x < 0 ∧ e.den = 1) → normal (x ^ (e : ℝ)) →
    Close ε (pow x e) (x ^ (e : ℝ))
  lit_close : ∀ q : ℚ, normal q → Close ε (lit q) q
  exp_close : ∀ x, normal (Real.exp x) → Close ε (exp x) (Real.exp x)
  log_close : ∀ x, 0 < x → normal (Real.log x) → Close ε (log x) (Real.log x)
  sin_close : ∀ x, normal (Real.sin x) → Close ε (sin x) (Real.sin x)
  erf_close : ∀ x, normal (Verif.erf x) → Close ε (erf x) (Verif.erf x)
  erfc_close : ∀ x, normal (1 - Verif.erf x) → Close ε (erfc x) (1 - Verif.erf x)
  pi_close : Close ε pi Real.pi

/-! ## Double precision -/

/-- The nearest integer, the even one of two equally near. -/
noncomputable def roundEven (x : ℝ) : ℤ :=
  if x - ⌊x⌋ < 1 / 2 then ⌊x⌋
  else if 1 / 2 < x - ⌊x⌋ then ⌊x⌋ + 1
  else if Even ⌊x⌋ then ⌊x⌋ else ⌊x⌋ + 1

/-- The exponent of the last digit of the numbers next to `x`: 53 digits, and none below 2⁻¹⁰⁷⁴. -/
noncomputable def lastDigit (x : ℝ) : ℤ := max (Int.log 2 |x| - 52) (-1074)

/-- IEEE 754 rounding to nearest, with gradual underflow: double precision numbers are the multiples of their last digit.
Results of 2¹⁰²⁴ or more stand for infinity. -/
noncomputable def roundDouble (x : ℝ) : ℝ := roundEven (x / 2 ^ lastDigit x) * 2 ^ lastDigit x

/-- Neither overflow nor underflow: zero, or at least the smallest normal number and rounded to a finite
number (halfway beyond the largest one, 2¹⁰²⁴ - 2⁹⁷¹, a result is rounded to infinity). -/
def DoubleNormal (x : ℝ) : Prop := x = 0 ∨ ((2 : ℝ) ^ (-1022 : ℤ) ≤ |x| ∧ |x| < (2 : ℝ) ^ (1024 : ℤ) - 2 ^ (970 : ℤ))

end Verif
