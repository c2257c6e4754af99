import Verif.Units.MathFun
import Mathlib.Analysis.SpecialFunctions.Gaussian.GaussianIntegral
import Mathlib.MeasureTheory.Integral.IntervalIntegral.FundThmCalculus
import Mathlib.Analysis.Calculus.Deriv.MeanValue

/-!
# The error function
-/

namespace Verif

open MeasureTheory intervalIntegral

theorem continuous_gauss : Continuous fun t : ℝ => Real.exp (-t ^ 2) := by fun_prop

theorem erf_zero : erf 0 = 0 := by simp [erf]

theorem erf_coeff_pos : 0 < 2 / Real.sqrt Real.pi := div_pos two_pos (Real.sqrt_pos.2 Real.pi_pos)

theorem erf_sub (x y : ℝ) : erf y - erf x = 2 / Real.sqrt Real.pi * ∫ t in x..y, Real.exp (-t ^ 2) := by
  rw [erf, erf, ← mul_sub, integral_interval_sub_left (continuous_gauss.intervalIntegrable _ _)
    (continuous_gauss.intervalIntegrable _ _)]

theorem erf_strictMono : StrictMono erf := by
  intro x y hxy
  have h := erf_sub x y
  have : 0 < ∫ t in x..y, Real.exp (-t ^ 2) :=
    intervalIntegral_pos_of_pos (continuous_gauss.intervalIntegrable _ _) (fun t => Real.exp_pos _) hxy
  have := mul_pos erf_coeff_pos this
  linarith

theorem erf_nonneg {x : ℝ} (h : 0 ≤ x) : 0 ≤ erf x := by
  rw [← erf_zero]; exact erf_strictMono.monotone h

theorem gauss_integrable : Integrable fun t : ℝ => Real.exp (-t ^ 2) := by
  have := integrable_exp_neg_mul_sq (b := 1) one_pos
  simpa using this

theorem erf_le_one (x : ℝ) : erf x ≤ 1 := by
  rcases le_or_gt x 0 with h | h
  · have := erf_strictMono.monotone h; rw [erf_zero] at this; linarith
  have h1 : ∫ t in (0 : ℝ)..x, Real.exp (-t ^ 2) ≤ ∫ t in Set.Ioi (0 : ℝ), Real.exp (-t ^ 2) := by
    rw [integral_of_le h.le]
    exact setIntegral_mono_set gauss_integrable.integrableOn (ae_of_all _ fun t => (Real.exp_pos _).le)
      (Set.Ioc_subset_Ioi_self.eventuallyLE)
  have h2 : ∫ t in Set.Ioi (0 : ℝ), Real.exp (-t ^ 2) = Real.sqrt Real.pi / 2 := by
    have := integral_gaussian_Ioi 1
    simpa using this
  rw [h2] at h1
  have := mul_le_mul_of_nonneg_left h1 erf_coeff_pos.le
  rw [erf]
  refine this.trans (le_of_eq ?_)
  have := Real.sqrt_pos.2 Real.pi_pos
  field_simp

theorem erf_lt_one (x : ℝ) : erf x < 1 := (erf_strictMono (lt_add_one x)).trans_le (erf_le_one _)

end Verif
