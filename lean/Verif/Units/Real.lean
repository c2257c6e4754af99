import Verif.Units.Convert
import Mathlib.Analysis.SpecialFunctions.Pow.Real

/-! # Powers of real numbers as Python computes them -/

namespace Verif

/-- Python's `x ** e` on floats: zero to a negative power raises ZeroDivisionError; a negative base with a non-integer
exponent gives a complex number (outside the model). -/
noncomputable instance : PyPow ℝ where
  pow x e :=
    if x = 0 ∧ e < 0 then .error .zeroDivision
    else if x < 0 ∧ e.den ≠ 1 then .error .complexResult
    else .ok (x ^ (e : ℝ))

theorem pow_real_pos {x : ℝ} (hx : 0 < x) (e : ℚ) : (PyPow.pow x e : PyM ℝ) = .ok (x ^ (e : ℝ)) := by
  simp [PyPow.pow, hx.ne', hx.le]

theorem pow_real_nonneg {x : ℝ} (hx : 0 ≤ x) (e : ℚ) (h : x ≠ 0 ∨ 0 ≤ e) :
    (PyPow.pow x e : PyM ℝ) = .ok (x ^ (e : ℝ)) := by
  have : ¬ (x = 0 ∧ e < 0) := by
    rintro ⟨h1, h2⟩; rcases h with h | h
    · exact h h1
    · exact absurd h2 (not_lt.2 h)
  simp only [PyPow.pow, this, if_false, not_lt.2 hx, false_and]

theorem pow_real_one (x : ℝ) : (PyPow.pow x 1 : PyM ℝ) = .ok x := by
  have h1 : ¬ ((1 : ℚ) < 0) := by norm_num
  have h2 : ¬ ((1 : ℚ).den ≠ 1) := by simp
  simp only [PyPow.pow, h1, h2, and_false, if_false]; simp

theorem pow_real_nat (x : ℝ) (n : ℕ) : (PyPow.pow x (n : ℚ) : PyM ℝ) = .ok (x ^ n) := by
  have h1 : ¬ ((n : ℚ) < 0) := not_lt.2 (Nat.cast_nonneg n)
  have h2 : ¬ ((n : ℚ).den ≠ 1) := by simp
  simp only [PyPow.pow, h1, h2, and_false, if_false]; simp

theorem pow_real_two (x : ℝ) : (PyPow.pow x 2 : PyM ℝ) = .ok (x ^ 2) := by exact_mod_cast pow_real_nat x 2
theorem pow_real_three (x : ℝ) : (PyPow.pow x 3 : PyM ℝ) = .ok (x ^ 3) := by exact_mod_cast pow_real_nat x 3
theorem pow_real_four (x : ℝ) : (PyPow.pow x 4 : PyM ℝ) = .ok (x ^ 4) := by exact_mod_cast pow_real_nat x 4

theorem pow_real_half {x : ℝ} (hx : 0 ≤ x) : (PyPow.pow x (1 / 2) : PyM ℝ) = .ok (Real.sqrt x) := by
  rw [pow_real_nonneg hx _ (Or.inr (by norm_num)), Real.sqrt_eq_rpow]; norm_num

end Verif
