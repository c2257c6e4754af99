import Verif.Lemmas.Float
import Mathlib.Analysis.Real.Pi.Bounds
import Verif.Lemmas.Erf
import Verif.Spec.FloatMath

/-!
# Relative errors of sums, temperature scales and mathematical functions
-/

namespace Verif

open MeasureTheory intervalIntegral

theorem exp_sub_one_le {k : ℝ} (h0 : 0 ≤ k) (h : k ≤ 1) : Real.exp k - 1 ≤ 2 * k := by
  have := Real.abs_exp_sub_one_le (x := k) (by rwa [abs_of_nonneg h0])
  rw [abs_of_nonneg h0] at this
  exact (le_abs_self _).trans this

/-- An absolute error of at most half of the result, as a relative one. -/
theorem close_of_half {B x y : ℝ} (h : |x - y| ≤ B) (hB : 2 * B ≤ |y|) (hy : y ≠ 0) : Close (2 * B / |y|) x y := by
  have hy' := abs_pos.2 hy
  have hB0 : 0 ≤ B := (abs_nonneg _).trans h
  have hu : B / |y| ≤ 1 / 2 := by rw [div_le_iff₀ hy']; linarith
  have hu0 : 0 ≤ B / |y| := by positivity
  refine (close_of_abs_sub_le hu0 (by linarith) (by rwa [div_mul_cancel₀ _ hy'.ne'])).mono ?_
  have h1 : 0 < 1 - B / |y| := by linarith
  have h2 := Real.one_sub_inv_le_log_of_pos h1
  have h3 : (1 - B / |y|)⁻¹ ≤ 1 + 2 * (B / |y|) := by
    rw [inv_le_iff_one_le_mul₀ h1]
    nlinarith
  have : 2 * B / |y| = 2 * (B / |y|) := by ring
  linarith

/-- The same for an error bounded by `(e^k - 1) M`: the relative error is at most `4 k M / |y|`. -/
theorem close_of_scaled {k M x y : ℝ} (hk : 0 ≤ k) (h1 : k ≤ 1) (hM : 0 ≤ M) (h : |x - y| ≤ (Real.exp k - 1) * M)
    (hB : 4 * k * M / |y| ≤ 1) (hy : y ≠ 0) : Close (4 * k * M / |y|) x y := by
  have hy' := abs_pos.2 hy
  have h2 := mul_le_mul_of_nonneg_right (exp_sub_one_le hk h1) hM
  rw [div_le_one hy'] at hB
  have := close_of_half (h.trans h2) (by linarith) hy
  convert this using 2
  ring

theorem Close.exp {k x y : ℝ} (h : Close k x y) (hk : k ≤ 1) : Close (2 * k * |y|) (Real.exp x) (Real.exp y) := by
  refine ⟨x - y, h.abs_sub_le.trans ?_, by rw [← Real.exp_add]; congr 1; ring⟩
  exact mul_le_mul_of_nonneg_right (exp_sub_one_le h.nonneg hk) (abs_nonneg _)

theorem Close.log {k x y : ℝ} (h : Close k x y) (hy : 0 < y) (hl : Real.log y ≠ 0) (hk : 2 * k / |Real.log y| ≤ 1) :
    Close (2 * k / |Real.log y|) (Real.log x) (Real.log y) := by
  obtain ⟨t, ht, rfl⟩ := h
  have hl' := abs_pos.2 hl
  rw [div_le_one hl'] at hk
  refine close_of_half ?_ hk hl
  rw [Real.log_mul hy.ne' (Real.exp_pos t).ne', Real.log_exp]
  simpa using ht

theorem Close.sin {k x y : ℝ} (h : Close k x y) (h1 : k ≤ 1) (hs : Real.sin y ≠ 0)
    (hk : 4 * k * |y| / |Real.sin y| ≤ 1) : Close (4 * k * |y| / |Real.sin y|) (Real.sin x) (Real.sin y) := by
  refine close_of_scaled h.nonneg h1 (abs_nonneg _) (le_trans ?_ h.abs_sub_le) hk hs
  have := Real.abs_sin_sub_sin_le x y
  exact this

theorem erf_neg (x : ℝ) : erf (-x) = -erf x := by
  have h := intervalIntegral.integral_comp_neg (a := 0) (b := x) (fun t : ℝ => Real.exp (-t ^ 2))
  simp only [neg_sq, neg_zero] at h
  rw [erf, erf, h, intervalIntegral.integral_symm (-x) 0]
  ring

/-- Stretching the argument stretches the error function by at most as much. -/
theorem erf_stretch {c x : ℝ} (hc : 1 ≤ c) (hx : 0 ≤ x) : erf (c * x) ≤ c * erf x := by
  have hc0 : c ≠ 0 := by positivity
  have h := intervalIntegral.integral_comp_mul_left (a := 0) (b := x) (fun t : ℝ => Real.exp (-t ^ 2)) hc0
  rw [mul_zero, smul_eq_mul] at h
  have h2 : ∫ t in (0 : ℝ)..(c * x), Real.exp (-t ^ 2) = c * ∫ t in (0 : ℝ)..x, Real.exp (-(c * t) ^ 2) := by
    rw [h, ← mul_assoc, mul_inv_cancel₀ hc0, one_mul]
  have h3 : ∫ t in (0 : ℝ)..x, Real.exp (-(c * t) ^ 2) ≤ ∫ t in (0 : ℝ)..x, Real.exp (-t ^ 2) := by
    refine intervalIntegral.integral_mono_on hx (Continuous.intervalIntegrable (by fun_prop) _ _)
      (continuous_gauss.intervalIntegrable _ _) fun t ht => Real.exp_le_exp.2 ?_
    have : t ^ 2 ≤ (c * t) ^ 2 := by
      rw [mul_pow]
      nlinarith [sq_nonneg t, one_le_pow₀ hc (n := 2)]
    linarith
  rw [erf, erf, h2]
  have := mul_le_mul_of_nonneg_left h3 (mul_nonneg erf_coeff_pos.le (by linarith : (0 : ℝ) ≤ c))
  nlinarith

theorem Close.erf {k x y : ℝ} (h : Close k x y) : Close k (erf x) (erf y) := by
  have key : ∀ {x y : ℝ}, Close k x y → 0 ≤ y → Close k (Verif.erf x) (Verif.erf y) := by
    intro x y h hy
    obtain ⟨h1, h2⟩ := h.bounds hy
    have hk := h.nonneg
    have hx : 0 ≤ x := (mul_nonneg hy (Real.exp_pos _).le).trans h1
    have e1 : 1 ≤ Real.exp k := Real.one_le_exp hk
    refine Close.of_bounds hk (erf_nonneg hy) ?_ ?_
    · have h3 : y ≤ Real.exp k * x := by
        rw [Real.exp_neg] at h1
        have := mul_le_mul_of_nonneg_left h1 (Real.exp_pos k).le
        rwa [mul_comm y, ← mul_assoc, mul_inv_cancel₀ (Real.exp_pos k).ne', one_mul] at this
      have h4 := (erf_strictMono.monotone h3).trans (erf_stretch e1 hx)
      rw [Real.exp_neg]
      have := mul_le_mul_of_nonneg_left h4 (inv_nonneg.2 (Real.exp_pos k).le)
      rwa [← mul_assoc, inv_mul_cancel₀ (Real.exp_pos k).ne', one_mul, mul_comm] at this
    · have h4 := (erf_strictMono.monotone h2)
      rw [mul_comm y] at h4
      have := h4.trans (erf_stretch e1 hy)
      linarith
  rcases le_total 0 y with hy | hy
  · exact key h hy
  · have := (key h.neg (by linarith : 0 ≤ -y)).neg
    rwa [erf_neg, erf_neg, neg_neg, neg_neg] at this

theorem erf_lipschitz (x y : ℝ) : |erf x - erf y| ≤ 5 / 4 * |x - y| := by
  rw [erf_sub, abs_mul, abs_of_pos erf_coeff_pos]
  have h1 : |∫ t in y..x, Real.exp (-t ^ 2)| ≤ 1 * |x - y| := by
    have := intervalIntegral.norm_integral_le_of_norm_le_const (a := y) (b := x) (C := 1)
      (f := fun t : ℝ => Real.exp (-t ^ 2)) (fun t _ => by
        rw [Real.norm_of_nonneg (Real.exp_pos _).le]
        exact Real.exp_le_one_iff.2 (by have := sq_nonneg t; linarith))
    simpa using this
  have h2 : 2 / Real.sqrt Real.pi ≤ 5 / 4 := by
    have : (8 / 5 : ℝ) ≤ Real.sqrt Real.pi := Real.le_sqrt_of_sq_le (by linarith [Real.pi_gt_three])
    rw [div_le_iff₀ (by linarith)]
    linarith
  calc _ ≤ 5 / 4 * (1 * |x - y|) := mul_le_mul h2 h1 (abs_nonneg _) (by norm_num)
    _ = _ := by ring

theorem Close.erfc {k x y : ℝ} (h : Close k x y) (h1 : k ≤ 1) (hk : 5 * k * |y| / (1 - Verif.erf y) ≤ 1) :
    Close (5 * k * |y| / (1 - Verif.erf y)) (1 - Verif.erf x) (1 - Verif.erf y) := by
  have hp : 0 < 1 - Verif.erf y := by have := erf_lt_one y; linarith
  have hs : 1 - Verif.erf y ≠ 0 := hp.ne'
  have ha : |1 - Verif.erf y| = 1 - Verif.erf y := abs_of_pos hp
  have := close_of_scaled (k := k) (M := 5 / 4 * |y|) (x := 1 - Verif.erf x) (y := 1 - Verif.erf y) h.nonneg h1 (by positivity)
    (by
      have e : 1 - Verif.erf x - (1 - Verif.erf y) = -(Verif.erf x - Verif.erf y) := by ring
      rw [e, abs_neg]
      refine (erf_lipschitz x y).trans ?_
      have := mul_le_mul_of_nonneg_left h.abs_sub_le (show (0 : ℝ) ≤ 5 / 4 by norm_num)
      linarith)
    (by rw [ha]; convert hk using 2; ring) hs
  rw [ha] at this
  convert this using 2
  ring

/-- Correctly rounded operations and functions. -/
noncomputable def FloatMath.ofRounding (fl : ℝ → ℝ) (u : ℝ) (hu0 : 0 ≤ u) (hu : u < 1) (h : ∀ x, |fl x - x| ≤ u * |x|) :
    FloatMath where
  toFloatArith := FloatArith.ofRounding fl u hu0 hu h
  exp x := fl (Real.exp x)
  log x := fl (Real.log x)
  sin x := fl (Real.sin x)
  erf x := fl (Verif.erf x)
  erfc x := fl (1 - Verif.erf x)
  pi := fl Real.pi
  exp_close _ := close_of_abs_sub_le hu0 hu (h _)
  log_close _ _ := close_of_abs_sub_le hu0 hu (h _)
  sin_close _ := close_of_abs_sub_le hu0 hu (h _)
  erf_close _ := close_of_abs_sub_le hu0 hu (h _)
  erfc_close _ := close_of_abs_sub_le hu0 hu (h _)
  pi_close := close_of_abs_sub_le hu0 hu (h _)

/-- Double precision with correctly rounded functions. -/
noncomputable def doubleMath : FloatMath :=
  FloatMath.ofRounding round53 (2⁻¹ ^ 53) (by positivity) (by norm_num) round53_close

end Verif
