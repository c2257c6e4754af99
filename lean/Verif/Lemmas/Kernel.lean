import Verif.Lemmas.Spreading
import Mathlib.Analysis.SpecialFunctions.Gaussian.FourierTransform
import Mathlib.Analysis.Calculus.ParametricIntegral
import Mathlib.MeasureTheory.Measure.Haar.NormedSpace

/-!
# The Gaussian kernel spreads any bounded continuous beginning
-/

namespace Verif

open Filter Topology MeasureTheory

variable {d : ℕ} {κ : ℝ} {t : ℝ}

theorem integrable_gauss {b : ℝ} (hb : 0 < b) : Integrable fun v : Space d => Real.exp (-b * ‖v‖ ^ 2) := by
  apply Integrable.of_integral_ne_zero
  rw [GaussianFourier.integral_rexp_neg_mul_sq_norm hb]
  have := Real.pi_pos
  positivity

theorem integrable_quad_gauss {b : ℝ} (hb : 0 < b) :
    Integrable fun v : Space d => (2 + ‖v‖) ^ 2 * Real.exp (-b * ‖v‖ ^ 2) := by
  refine ((integrable_gauss (d := d) (half_pos hb)).const_mul (8 + 4 / b)).mono'
    (Continuous.aestronglyMeasurable (by fun_prop)) (.of_forall fun v => ?_)
  have h1 : (2 + ‖v‖) ^ 2 ≤ (8 + 4 / b) * Real.exp (b / 2 * ‖v‖ ^ 2) := by
    have h2 := Real.add_one_le_exp (b / 2 * ‖v‖ ^ 2)
    have h3 : 0 ≤ b / 2 * ‖v‖ ^ 2 := by positivity
    have h4 : (8 + 4 / b) * (b / 2 * ‖v‖ ^ 2 + 1) ≤ (8 + 4 / b) * Real.exp (b / 2 * ‖v‖ ^ 2) :=
      mul_le_mul_of_nonneg_left h2 (by positivity)
    have h5 : (8 + 4 / b) * (b / 2 * ‖v‖ ^ 2 + 1) = 4 * b * ‖v‖ ^ 2 + 2 * ‖v‖ ^ 2 + 8 + 4 / b := by field_simp; ring
    have h6 : 0 ≤ 4 * b * ‖v‖ ^ 2 := by positivity
    have h7 : 0 ≤ 4 / b := by positivity
    nlinarith [sq_nonneg (‖v‖ - 2)]
  rw [Real.norm_of_nonneg (by positivity)]
  calc (2 + ‖v‖) ^ 2 * Real.exp (-b * ‖v‖ ^ 2)
      ≤ (8 + 4 / b) * Real.exp (b / 2 * ‖v‖ ^ 2) * Real.exp (-b * ‖v‖ ^ 2) :=
        mul_le_mul_of_nonneg_right h1 (Real.exp_pos _).le
    _ = (8 + 4 / b) * Real.exp (-(b / 2) * ‖v‖ ^ 2) := by rw [mul_assoc, ← Real.exp_add]; ring_nf

/-- The concentration at `z` a time `t` after one unit was released at the origin. -/
noncomputable def kernel (κ t : ℝ) (z : Space d) : ℝ :=
  Real.exp (-‖z‖ ^ 2 / (4 * κ * t)) / (4 * Real.pi * κ * t) ^ ((d : ℝ) / 2)

theorem kernel_scale_pos (hκ : 0 < κ) (ht : 0 < t) : 0 < (4 * Real.pi * κ * t) ^ ((d : ℝ) / 2) := by
  have := Real.pi_pos
  positivity

theorem kernel_pos (hκ : 0 < κ) (ht : 0 < t) (z : Space d) : 0 < kernel κ t z :=
  div_pos (Real.exp_pos _) (kernel_scale_pos hκ ht)

theorem kernel_continuous (κ t : ℝ) : Continuous fun z : Space d => kernel κ t z := by
  unfold kernel; fun_prop

theorem kernel_eq (κ t : ℝ) (z : Space d) :
    kernel κ t z = ((4 * Real.pi * κ * t) ^ ((d : ℝ) / 2))⁻¹ * Real.exp (-(1 / (4 * κ * t)) * ‖z‖ ^ 2) := by
  rw [kernel, div_eq_inv_mul]; congr 2; ring

theorem kernel_integrable (hκ : 0 < κ) (ht : 0 < t) : Integrable fun z : Space d => kernel κ t z := by
  simp only [kernel_eq]
  exact (integrable_gauss (by positivity)).const_mul _

theorem kernel_integral (hκ : 0 < κ) (ht : 0 < t) : ∫ z : Space d, kernel κ t z = 1 := by
  simp only [kernel_eq]
  rw [integral_const_mul, GaussianFourier.integral_rexp_neg_mul_sq_norm (by positivity)]
  have h : Real.pi / (1 / (4 * κ * t)) = 4 * Real.pi * κ * t := by field_simp
  rw [h, finrank_euclideanSpace, Fintype.card_fin]
  exact inv_mul_cancel₀ (kernel_scale_pos hκ ht).ne'

theorem kernel_le (hκ : 0 < κ) (ht : 0 < t) (z : Space d) : kernel κ t z ≤ ((4 * Real.pi * κ * t) ^ ((d : ℝ) / 2))⁻¹ := by
  rw [kernel_eq]
  have h1 : Real.exp (-(1 / (4 * κ * t)) * ‖z‖ ^ 2) ≤ 1 := by
    rw [Real.exp_le_one_iff]
    have : 0 ≤ 1 / (4 * κ * t) * ‖z‖ ^ 2 := by positivity
    linarith
  have := inv_pos.2 (kernel_scale_pos (d := d) hκ ht)
  nlinarith

/-! ## Derivatives of the kernel -/

theorem kernel_along (hκ : 0 < κ) (ht : 0 < t) (z : Space d) (i : Fin d) (r : ℝ) :
    HasDerivAt (fun r : ℝ => kernel κ t (z + r • axis i))
      (-((z i + r) / (2 * κ * t)) * kernel κ t (z + r • axis i)) r := by
  have h := (((hasDerivAt_norm_sq_along z i r).neg.div_const (4 * κ * t)).exp).div_const
    ((4 * Real.pi * κ * t) ^ ((d : ℝ) / 2))
  refine h.congr_deriv ?_
  rw [kernel]
  simp only [Pi.neg_apply]
  field_simp
  ring

theorem kernel_along_twice (hκ : 0 < κ) (ht : 0 < t) (z : Space d) (i : Fin d) (r : ℝ) :
    HasDerivAt (fun r : ℝ => -((z i + r) / (2 * κ * t)) * kernel κ t (z + r • axis i))
      ((-(1 / (2 * κ * t)) + ((z i + r) / (2 * κ * t)) ^ 2) * kernel κ t (z + r • axis i)) r := by
  have h := ((((hasDerivAt_id r).const_add (z i)).div_const (2 * κ * t)).fun_neg).fun_mul (kernel_along hκ ht z i r)
  refine h.congr_deriv ?_
  simp only [id]
  ring

theorem kernel_in_time (hκ : 0 < κ) (ht : 0 < t) (z : Space d) :
    HasDerivAt (fun s => kernel κ s z) ((‖z‖ ^ 2 / (4 * κ * t ^ 2) - d / (2 * t)) * kernel κ t z) t := by
  have hpi := Real.pi_pos
  have hlin : HasDerivAt (fun s => 4 * κ * s) (4 * κ) t := by simpa using (hasDerivAt_id t).const_mul (4 * κ)
  have hlin' : HasDerivAt (fun s => 4 * Real.pi * κ * s) (4 * Real.pi * κ) t := by
    simpa using (hasDerivAt_id t).const_mul (4 * Real.pi * κ)
  have h1 := ((hasDerivAt_const t (-‖z‖ ^ 2)).fun_div hlin (by positivity)).exp
  have h2 := hlin'.rpow_const (p := (d : ℝ) / 2) (Or.inl (by positivity))
  refine (h1.fun_div h2 (kernel_scale_pos hκ ht).ne').congr_deriv ?_
  rw [kernel, Real.rpow_sub_one (by positivity)]
  have hA := (kernel_scale_pos (d := d) hκ ht).ne'
  field_simp
  ring

/-! ## Bounds for the derivatives -/

theorem kernel_near_le (hκ : 0 < κ) (ht : 0 < t) (z : Space d) (i : Fin d) {r : ℝ} (hr : |r| < 1) :
    kernel κ t (z + r • axis i) ≤ ((4 * Real.pi * κ * t) ^ ((d : ℝ) / 2))⁻¹ * Real.exp (1 / (4 * κ * t)) *
      Real.exp (-(1 / (8 * κ * t)) * ‖z‖ ^ 2) := by
  have h1 : ‖z‖ ^ 2 / 2 - 1 ≤ ‖z + r • axis i‖ ^ 2 := by
    have h2 : ‖z‖ ≤ ‖z + r • axis i‖ + 1 := by
      have := norm_sub_le (z + r • axis i) (r • (axis i : Space d))
      rw [add_sub_cancel_right, norm_smul, norm_axis, mul_one, Real.norm_eq_abs] at this
      linarith
    have h3 := norm_nonneg z
    have h4 : ‖z‖ ^ 2 ≤ (‖z + r • axis i‖ + 1) ^ 2 := by gcongr
    nlinarith [sq_nonneg (‖z + r • axis i‖ - 1)]
  rw [kernel_eq, mul_assoc (_)⁻¹, ← Real.exp_add]
  refine mul_le_mul_of_nonneg_left (Real.exp_le_exp.2 ?_) (inv_pos.2 (kernel_scale_pos hκ ht)).le
  have h5 : 1 / (4 * κ * t) * (‖z‖ ^ 2 / 2 - 1) ≤ 1 / (4 * κ * t) * ‖z + r • axis i‖ ^ 2 :=
    mul_le_mul_of_nonneg_left h1 (by positivity)
  have h6 : 1 / (4 * κ * t) * (‖z‖ ^ 2 / 2 - 1) = 1 / (8 * κ * t) * ‖z‖ ^ 2 - 1 / (4 * κ * t) := by field_simp; ring
  linarith

theorem coord_near_le (z : Space d) (i : Fin d) {r : ℝ} (hr : |r| < 1) : |z i + r| ≤ 2 + ‖z‖ := by
  have h1 : |z i| ≤ ‖z‖ := by
    have := EuclideanSpace.norm_sq_eq z
    have h2 : ‖z i‖ ^ 2 ≤ ∑ j, ‖z j‖ ^ 2 := Finset.single_le_sum (f := fun j => ‖z j‖ ^ 2) (fun j _ => by positivity)
      (Finset.mem_univ i)
    rw [← this, Real.norm_eq_abs] at h2
    exact (abs_le_of_sq_le_sq' h2 (norm_nonneg z)).2
  have := abs_add_le (z i) r
  linarith

/-- The constant in the bounds of the derivatives along an axis. -/
noncomputable def alongConst (d : ℕ) (κ t : ℝ) : ℝ :=
  (1 / (2 * κ * t) + (1 / (2 * κ * t)) ^ 2) * (((4 * Real.pi * κ * t) ^ ((d : ℝ) / 2))⁻¹ * Real.exp (1 / (4 * κ * t)))

theorem along_bound (hκ : 0 < κ) (ht : 0 < t) (z : Space d) (i : Fin d) {r : ℝ} (hr : |r| < 1) :
    |-((z i + r) / (2 * κ * t)) * kernel κ t (z + r • axis i)|
      ≤ alongConst d κ t * ((2 + ‖z‖) ^ 2 * Real.exp (-(1 / (8 * κ * t)) * ‖z‖ ^ 2)) := by
  have hk := kernel_near_le hκ ht z i hr
  have hc := coord_near_le z i hr
  have hn := norm_nonneg z
  have h0 := kernel_pos hκ ht (z + r • axis i)
  have h1 : |-((z i + r) / (2 * κ * t))| ≤ (1 / (2 * κ * t) + (1 / (2 * κ * t)) ^ 2) * (2 + ‖z‖) ^ 2 := by
    rw [abs_neg, abs_div, abs_of_pos (show 0 < 2 * κ * t by positivity), div_eq_inv_mul, ← one_div]
    have h2 : |z i + r| ≤ (2 + ‖z‖) ^ 2 := by nlinarith
    have h3 : 0 ≤ (1 / (2 * κ * t)) ^ 2 * (2 + ‖z‖) ^ 2 := by positivity
    have h4 : 1 / (2 * κ * t) * |z i + r| ≤ 1 / (2 * κ * t) * (2 + ‖z‖) ^ 2 :=
      mul_le_mul_of_nonneg_left h2 (by positivity)
    linarith
  rw [abs_mul, abs_of_pos h0]
  refine (mul_le_mul h1 hk h0.le (by positivity)).trans_eq ?_
  rw [alongConst]; ring

theorem along_twice_bound (hκ : 0 < κ) (ht : 0 < t) (z : Space d) (i : Fin d) {r : ℝ} (hr : |r| < 1) :
    |(-(1 / (2 * κ * t)) + ((z i + r) / (2 * κ * t)) ^ 2) * kernel κ t (z + r • axis i)|
      ≤ alongConst d κ t * ((2 + ‖z‖) ^ 2 * Real.exp (-(1 / (8 * κ * t)) * ‖z‖ ^ 2)) := by
  have hk := kernel_near_le hκ ht z i hr
  have hc := coord_near_le z i hr
  have hn := norm_nonneg z
  have h0 := kernel_pos hκ ht (z + r • axis i)
  have h1 : |-(1 / (2 * κ * t)) + ((z i + r) / (2 * κ * t)) ^ 2|
      ≤ (1 / (2 * κ * t) + (1 / (2 * κ * t)) ^ 2) * (2 + ‖z‖) ^ 2 := by
    have h2 : (z i + r) ^ 2 ≤ (2 + ‖z‖) ^ 2 := by rw [← sq_abs]; gcongr
    have h3 : 1 / (2 * κ * t) ≤ 1 / (2 * κ * t) * (2 + ‖z‖) ^ 2 := by
      have : (0 : ℝ) < 1 / (2 * κ * t) := by positivity
      nlinarith
    have h4 : ((z i + r) / (2 * κ * t)) ^ 2 ≤ (1 / (2 * κ * t)) ^ 2 * (2 + ‖z‖) ^ 2 := by
      rw [div_eq_inv_mul, ← one_div, mul_pow]
      exact mul_le_mul_of_nonneg_left h2 (by positivity)
    have h5 : (0 : ℝ) ≤ 1 / (2 * κ * t) := by positivity
    refine (abs_add_le _ _).trans ?_
    rw [abs_neg, abs_of_nonneg h5, abs_of_nonneg (sq_nonneg _)]
    linarith
  rw [abs_mul, abs_of_pos h0]
  refine (mul_le_mul h1 hk h0.le (by positivity)).trans_eq ?_
  rw [alongConst]; ring

theorem in_time_bound (hκ : 0 < κ) (ht : 0 < t) (z : Space d) {s : ℝ} (h1 : t / 2 < s) (h2 : s < 2 * t) :
    |(‖z‖ ^ 2 / (4 * κ * s ^ 2) - d / (2 * s)) * kernel κ s z|
      ≤ (1 / (κ * t ^ 2) + d / t) * ((2 * Real.pi * κ * t) ^ ((d : ℝ) / 2))⁻¹ *
        ((2 + ‖z‖) ^ 2 * Real.exp (-(1 / (8 * κ * t)) * ‖z‖ ^ 2)) := by
  have hs : 0 < s := by linarith
  have hpi := Real.pi_pos
  have hn := norm_nonneg z
  have hk : kernel κ s z ≤ ((2 * Real.pi * κ * t) ^ ((d : ℝ) / 2))⁻¹ * Real.exp (-(1 / (8 * κ * t)) * ‖z‖ ^ 2) := by
    rw [kernel_eq]
    have h3 : ((4 * Real.pi * κ * s) ^ ((d : ℝ) / 2))⁻¹ ≤ ((2 * Real.pi * κ * t) ^ ((d : ℝ) / 2))⁻¹ := by
      apply inv_anti₀ (by positivity)
      apply Real.rpow_le_rpow (by positivity) _ (by positivity)
      have : 0 < Real.pi * κ := by positivity
      nlinarith
    have h4 : Real.exp (-(1 / (4 * κ * s)) * ‖z‖ ^ 2) ≤ Real.exp (-(1 / (8 * κ * t)) * ‖z‖ ^ 2) := by
      apply Real.exp_le_exp.2
      have : 1 / (8 * κ * t) ≤ 1 / (4 * κ * s) := by
        apply one_div_le_one_div_of_le (by positivity); nlinarith
      have := mul_le_mul_of_nonneg_right this (sq_nonneg ‖z‖)
      linarith
    exact mul_le_mul h3 h4 (Real.exp_pos _).le (by positivity)
  have hf : |‖z‖ ^ 2 / (4 * κ * s ^ 2) - d / (2 * s)| ≤ (1 / (κ * t ^ 2) + d / t) * (2 + ‖z‖) ^ 2 := by
    have h3 : ‖z‖ ^ 2 / (4 * κ * s ^ 2) ≤ 1 / (κ * t ^ 2) * (2 + ‖z‖) ^ 2 := by
      rw [div_eq_inv_mul, ← one_div]
      apply mul_le_mul _ _ (by positivity) (by positivity)
      · apply one_div_le_one_div_of_le (by positivity)
        have : t ^ 2 ≤ 4 * s ^ 2 := by nlinarith
        nlinarith
      · gcongr; linarith
    have h4 : (d : ℝ) / (2 * s) ≤ d / t * (2 + ‖z‖) ^ 2 := by
      have h5 : (d : ℝ) / (2 * s) ≤ d / t := by
        apply div_le_div_of_nonneg_left (by positivity) ht (by linarith)
      have h6 : (0 : ℝ) ≤ d / t := by positivity
      nlinarith
    have h7 : 0 ≤ ‖z‖ ^ 2 / (4 * κ * s ^ 2) := by positivity
    have h8 : (0 : ℝ) ≤ d / (2 * s) := by positivity
    rw [abs_le]
    constructor <;> nlinarith
  have h0 := kernel_pos hκ hs z
  rw [abs_mul, abs_of_pos h0]
  refine (mul_le_mul hf hk h0.le (by positivity)).trans_eq ?_
  ring

/-! ## Spreading a bounded continuous beginning -/

/-- The beginning `f` after a time `t`. -/
noncomputable def spread (κ : ℝ) (f : Space d → ℝ) (x : Space d) (t : ℝ) : ℝ :=
  ∫ z, kernel κ 1 z * f (x - √t • z)

theorem spread_eq (hκ : 0 < κ) (f : Space d → ℝ) (x : Space d) (ht : 0 < t) :
    spread κ f x t = ∫ y, kernel κ t (x - y) * f y := by
  have hs := Real.sqrt_pos.2 ht
  have h1 := Measure.integral_comp_inv_smul_of_nonneg volume
    (fun z : Space d => kernel κ 1 z * f (x - √t • z)) hs.le
  have h2 := integral_sub_left_eq_self (fun z : Space d => kernel κ t z * f (x - z)) volume x
  simp only [sub_sub_cancel] at h2
  rw [h2, spread]
  have h3 : ∀ z : Space d, kernel κ 1 ((√t)⁻¹ • z) * f (x - √t • (√t)⁻¹ • z)
      = √t ^ d * (kernel κ t z * f (x - z)) := by
    intro z
    rw [smul_smul, mul_inv_cancel₀ hs.ne', one_smul, ← mul_assoc]
    congr 1
    have hpi := Real.pi_pos
    have h4 : (4 * Real.pi * κ * t) ^ ((d : ℝ) / 2) = (4 * Real.pi * κ * 1) ^ ((d : ℝ) / 2) * √t ^ d := by
      rw [mul_one, Real.mul_rpow (by positivity) ht.le, Real.sqrt_eq_rpow, ← Real.rpow_natCast, ← Real.rpow_mul ht.le]
      congr 2; ring
    rw [kernel, kernel, h4, norm_smul, Real.norm_of_nonneg (by positivity), mul_pow, inv_pow, Real.sq_sqrt ht.le]
    have h5 : -(t⁻¹ * ‖z‖ ^ 2) / (4 * κ * 1) = -‖z‖ ^ 2 / (4 * κ * t) := by field_simp
    rw [h5]
    have h6 : (4 * Real.pi * κ * 1) ^ ((d : ℝ) / 2) ≠ 0 := (kernel_scale_pos hκ one_pos).ne'
    field_simp
  simp only [h3] at h1
  rw [integral_const_mul, finrank_euclideanSpace, Fintype.card_fin, smul_eq_mul] at h1
  exact (mul_left_cancel₀ (pow_pos hs d).ne' h1).symm

variable {f : Space d → ℝ} {M : ℝ}

theorem spread_start (hκ : 0 < κ) (f : Space d → ℝ) (x : Space d) : spread κ f x 0 = f x := by
  rw [spread]
  simp only [Real.sqrt_zero, zero_smul, sub_zero]
  rw [integral_mul_const, kernel_integral hκ one_pos, one_mul]

theorem spread_continuous (hκ : 0 < κ) (hf : Continuous f) (hM : ∀ x, |f x| ≤ M) :
    Continuous fun p : Space d × ℝ => spread κ f p.1 p.2 := by
  unfold spread
  have hk := kernel_continuous (d := d) κ 1
  refine continuous_of_dominated (bound := fun z => kernel κ 1 z * M) (fun p => ?_) (fun p => .of_forall fun z => ?_)
    ((kernel_integrable hκ one_pos).mul_const M) (.of_forall fun z => ?_)
  · exact (hk.mul (hf.comp (by fun_prop))).aestronglyMeasurable
  · rw [norm_mul, Real.norm_of_nonneg (kernel_pos hκ one_pos z).le, Real.norm_eq_abs]
    exact mul_le_mul_of_nonneg_left (hM _) (kernel_pos hκ one_pos z).le
  · exact continuous_const.mul (hf.comp (by fun_prop))

theorem spread_bounded (hκ : 0 < κ) (hM : ∀ x, |f x| ≤ M) (x : Space d) (t : ℝ) : |spread κ f x t| ≤ M := by
  have h := norm_integral_le_of_norm_le ((kernel_integrable (d := d) hκ one_pos).mul_const M)
    (f := fun z => kernel κ 1 z * f (x - √t • z)) (.of_forall fun z => by
      rw [norm_mul, Real.norm_of_nonneg (kernel_pos hκ one_pos z).le, Real.norm_eq_abs]
      exact mul_le_mul_of_nonneg_left (hM _) (kernel_pos hκ one_pos z).le)
  rw [integral_mul_const, kernel_integral hκ one_pos, one_mul, Real.norm_eq_abs] at h
  exact h

theorem convolution_along (hκ : 0 < κ) (ht : 0 < t) (hf : Continuous f) (hM : ∀ x, |f x| ≤ M) (x : Space d) (i : Fin d)
    {r : ℝ} (hr : |r| < 1) :
    HasDerivAt (fun r : ℝ => ∫ y, kernel κ t (x + r • axis i - y) * f y)
      (∫ y, -(((x - y) i + r) / (2 * κ * t)) * kernel κ t (x + r • axis i - y) * f y) r ∧
    HasDerivAt (fun r : ℝ => ∫ y, -(((x - y) i + r) / (2 * κ * t)) * kernel κ t (x + r • axis i - y) * f y)
      (∫ y, (-(1 / (2 * κ * t)) + (((x - y) i + r) / (2 * κ * t)) ^ 2) * kernel κ t (x + r • axis i - y) * f y) r ∧
    Integrable fun y => (-(1 / (2 * κ * t)) + (((x - y) i + r) / (2 * κ * t)) ^ 2) * kernel κ t (x + r • axis i - y) * f y := by
  have hk := kernel_continuous (d := d) κ t
  have hM0 : 0 ≤ M := (abs_nonneg _).trans (hM 0)
  have hsw : ∀ (r : ℝ) (y : Space d), x + r • axis i - y = x - y + r • axis i := fun r y => by abel
  simp only [hsw]
  have hcoord : Continuous fun y : Space d => (x - y) i := by fun_prop
  have hball : Metric.ball (0 : ℝ) 1 ∈ 𝓝 r := Metric.isOpen_ball.mem_nhds (by simpa using hr)
  have hbi : Integrable fun y : Space d =>
      alongConst d κ t * ((2 + ‖x - y‖) ^ 2 * Real.exp (-(1 / (8 * κ * t)) * ‖x - y‖ ^ 2)) * M :=
    (((integrable_quad_gauss (d := d) (b := 1 / (8 * κ * t)) (by positivity)).comp_sub_left x).const_mul _).mul_const M
  have hc0 : ∀ r : ℝ, Continuous fun y : Space d => kernel κ t (x - y + r • axis i) * f y := fun r =>
    (hk.comp (by fun_prop)).mul hf
  have hc1 : ∀ r : ℝ, Continuous fun y : Space d => -(((x - y) i + r) / (2 * κ * t)) * kernel κ t (x - y + r • axis i) * f y :=
    fun r => (((hcoord.add_const r).div_const _).neg.mul (hk.comp (by fun_prop))).mul hf
  have hc2 : ∀ r : ℝ, Continuous fun y : Space d =>
      (-(1 / (2 * κ * t)) + (((x - y) i + r) / (2 * κ * t)) ^ 2) * kernel κ t (x - y + r • axis i) * f y :=
    fun r => ((continuous_const.add (((hcoord.add_const r).div_const _).pow 2)).mul (hk.comp (by fun_prop))).mul hf
  have hb1 : ∀ y : Space d, ∀ r ∈ Metric.ball (0 : ℝ) 1,
      ‖-(((x - y) i + r) / (2 * κ * t)) * kernel κ t (x - y + r • axis i) * f y‖
        ≤ alongConst d κ t * ((2 + ‖x - y‖) ^ 2 * Real.exp (-(1 / (8 * κ * t)) * ‖x - y‖ ^ 2)) * M := by
    intro y r hr
    rw [norm_mul, Real.norm_eq_abs, Real.norm_eq_abs]
    have h := along_bound hκ ht (x - y) i (r := r) (by simpa using hr)
    exact mul_le_mul h (hM y) (abs_nonneg _) ((abs_nonneg _).trans h)
  have hb2 : ∀ y : Space d, ∀ r ∈ Metric.ball (0 : ℝ) 1,
      ‖(-(1 / (2 * κ * t)) + (((x - y) i + r) / (2 * κ * t)) ^ 2) * kernel κ t (x - y + r • axis i) * f y‖
        ≤ alongConst d κ t * ((2 + ‖x - y‖) ^ 2 * Real.exp (-(1 / (8 * κ * t)) * ‖x - y‖ ^ 2)) * M := by
    intro y r hr
    rw [norm_mul, Real.norm_eq_abs, Real.norm_eq_abs]
    have h := along_twice_bound hκ ht (x - y) i (r := r) (by simpa using hr)
    exact mul_le_mul h (hM y) (abs_nonneg _) ((abs_nonneg _).trans h)
  have hint0 : Integrable fun y : Space d => kernel κ t (x - y + r • axis i) * f y := by
    have h := ((kernel_integrable (d := d) hκ ht).comp_sub_left (x + r • axis i)).mul_const M
    refine h.mono' (hc0 r).aestronglyMeasurable (.of_forall fun y => ?_)
    rw [norm_mul, Real.norm_of_nonneg (kernel_pos hκ ht _).le, Real.norm_eq_abs, hsw]
    exact mul_le_mul_of_nonneg_left (hM y) (kernel_pos hκ ht _).le
  have h1 := hasDerivAt_integral_of_dominated_loc_of_deriv_le (μ := volume) hball
    (F := fun (r : ℝ) (y : Space d) => kernel κ t (x - y + r • axis i) * f y)
    (F' := fun r y => -(((x - y) i + r) / (2 * κ * t)) * kernel κ t (x - y + r • axis i) * f y)
    (.of_forall fun r => (hc0 r).aestronglyMeasurable) hint0 (hc1 r).aestronglyMeasurable (.of_forall hb1) hbi
    (.of_forall fun y s _ => (kernel_along hκ ht (x - y) i s).mul_const (f y))
  have h2 := hasDerivAt_integral_of_dominated_loc_of_deriv_le (μ := volume) hball
    (F := fun (r : ℝ) (y : Space d) => -(((x - y) i + r) / (2 * κ * t)) * kernel κ t (x - y + r • axis i) * f y)
    (F' := fun r y => (-(1 / (2 * κ * t)) + (((x - y) i + r) / (2 * κ * t)) ^ 2) * kernel κ t (x - y + r • axis i) * f y)
    (.of_forall fun r => (hc1 r).aestronglyMeasurable) h1.1 (hc2 r).aestronglyMeasurable (.of_forall hb2) hbi
    (.of_forall fun y s _ => (kernel_along_twice hκ ht (x - y) i s).mul_const (f y))
  exact ⟨h1.2, h2.2, h2.1⟩

theorem convolution_in_time (hκ : 0 < κ) (ht : 0 < t) (hf : Continuous f) (hM : ∀ x, |f x| ≤ M) (x : Space d) :
    HasDerivAt (fun s : ℝ => ∫ y, kernel κ s (x - y) * f y)
      (∫ y, (‖x - y‖ ^ 2 / (4 * κ * t ^ 2) - d / (2 * t)) * kernel κ t (x - y) * f y) t := by
  have hk := fun s => kernel_continuous (d := d) κ s
  have hint0 : Integrable fun y : Space d => kernel κ t (x - y) * f y := by
    refine (((kernel_integrable (d := d) hκ ht).comp_sub_left x).mul_const M).mono'
      (((hk t).comp (by fun_prop)).mul hf).aestronglyMeasurable (.of_forall fun y => ?_)
    rw [norm_mul, Real.norm_of_nonneg (kernel_pos hκ ht _).le, Real.norm_eq_abs]
    exact mul_le_mul_of_nonneg_left (hM y) (kernel_pos hκ ht _).le
  have hbi : Integrable fun y : Space d => (1 / (κ * t ^ 2) + d / t) * ((2 * Real.pi * κ * t) ^ ((d : ℝ) / 2))⁻¹ *
        ((2 + ‖x - y‖) ^ 2 * Real.exp (-(1 / (8 * κ * t)) * ‖x - y‖ ^ 2)) * M :=
    (((integrable_quad_gauss (d := d) (b := 1 / (8 * κ * t)) (by positivity)).comp_sub_left x).const_mul _).mul_const M
  refine (hasDerivAt_integral_of_dominated_loc_of_deriv_le (μ := volume) (s := Set.Ioo (t / 2) (2 * t))
    (Ioo_mem_nhds (by linarith) (by linarith))
    (F := fun (s : ℝ) (y : Space d) => kernel κ s (x - y) * f y)
    (F' := fun s y => (‖x - y‖ ^ 2 / (4 * κ * s ^ 2) - d / (2 * s)) * kernel κ s (x - y) * f y)
    (.of_forall fun s => (((hk s).comp (by fun_prop)).mul hf).aestronglyMeasurable) hint0
    ((Continuous.mul (by fun_prop) ((hk t).comp (by fun_prop))).mul hf).aestronglyMeasurable
    (.of_forall fun y s hs => ?_) hbi
    (.of_forall fun y s hs => (kernel_in_time hκ (by linarith [hs.1]) (x - y)).mul_const (f y))).2
  rw [norm_mul, Real.norm_eq_abs, Real.norm_eq_abs]
  have h := in_time_bound hκ ht (x - y) hs.1 hs.2
  exact mul_le_mul h (hM y) (abs_nonneg _) ((abs_nonneg _).trans h)

theorem sum_coord_sq (z : Space d) : ∑ i, z i ^ 2 = ‖z‖ ^ 2 := by
  rw [EuclideanSpace.norm_sq_eq]; simp

/-- The two sides of the diffusion equation for the kernel. -/
theorem kernel_balance (hκ : 0 < κ) (ht : 0 < t) (z : Space d) :
    κ * ∑ i, (-(1 / (2 * κ * t)) + (z i / (2 * κ * t)) ^ 2) = ‖z‖ ^ 2 / (4 * κ * t ^ 2) - d / (2 * t) := by
  simp only [div_pow]
  rw [Finset.sum_add_distrib, ← Finset.sum_div, sum_coord_sq, Finset.sum_const, Finset.card_univ, Fintype.card_fin,
    nsmul_eq_mul]
  field_simp
  ring

theorem spread_spreads (hκ : 0 < κ) (ht : 0 < t) (hf : Continuous f) (hM : ∀ x, |f x| ≤ M) (x : Space d) :
    SpreadsAt κ (spread κ f) x t := by
  refine ⟨fun i r => ∫ y, -(((x - y) i + r) / (2 * κ * t)) * kernel κ t (x + r • axis i - y) * f y,
    fun i => ∫ y, (-(1 / (2 * κ * t)) + (((x - y) i + 0) / (2 * κ * t)) ^ 2) * kernel κ t (x + (0 : ℝ) • axis i - y) * f y,
    fun i => ⟨?_, (convolution_along hκ ht hf hM x i (by simp)).2.1⟩, ?_⟩
  · filter_upwards [Metric.ball_mem_nhds (0 : ℝ) one_pos] with r hr
    simp only [spread_eq hκ f _ ht]
    exact (convolution_along hκ ht hf hM x i (by simpa using hr)).1
  · have h1 : (fun s => spread κ f x s) =ᶠ[𝓝 t] fun s => ∫ y, kernel κ s (x - y) * f y := by
      filter_upwards [Ioi_mem_nhds ht] with s hs using spread_eq hκ f x hs
    refine ((convolution_in_time hκ ht hf hM x).congr_of_eventuallyEq h1).congr_deriv ?_
    rw [← integral_finsetSum _ fun i _ => (convolution_along hκ ht hf hM x i (by simp)).2.2, ← integral_const_mul]
    congr 1
    ext y
    simp only [zero_smul, add_zero]
    rw [← Finset.sum_mul, ← Finset.sum_mul, ← kernel_balance hκ ht]
    ring

/-- Every bounded continuous beginning spreads in exactly one way. -/
theorem spread_spreading (hκ : 0 < κ) (hf : Continuous f) (hM : ∀ x, |f x| ≤ M) : Spreading κ f (spread κ f) where
  bounded := ⟨M, fun x t _ => spread_bounded hκ hM x t⟩
  continuous := (spread_continuous hκ hf hM).continuousOn
  spreads x _ ht := spread_spreads hκ ht hf hM x
  start := spread_start hκ f

/-! ## The release at a point -/

theorem kernel_spreads (hκ : 0 < κ) (ht : 0 < t) (x : Space d) : SpreadsAt κ (fun x t => kernel κ t x) x t := by
  refine ⟨fun i r => -((x i + r) / (2 * κ * t)) * kernel κ t (x + r • axis i),
    fun i => (-(1 / (2 * κ * t)) + ((x i + 0) / (2 * κ * t)) ^ 2) * kernel κ t (x + (0 : ℝ) • axis i),
    fun i => ⟨.of_forall fun r => kernel_along hκ ht x i r, kernel_along_twice hκ ht x i 0⟩,
    (kernel_in_time hκ ht x).congr_deriv ?_⟩
  simp only [zero_smul, add_zero]
  rw [← Finset.sum_mul, ← mul_assoc, kernel_balance hκ ht]

theorem kernel_release (hκ : 0 < κ) (m : ℝ) : PointRelease (d := d) κ m fun x t => m * kernel κ t x where
  bounded s hs := ⟨|m| * ((4 * Real.pi * κ * s) ^ ((d : ℝ) / 2))⁻¹, fun x t hst => by
    have hpi := Real.pi_pos
    rw [abs_mul, abs_of_pos (kernel_pos hκ (hs.trans_le hst) x)]
    refine mul_le_mul_of_nonneg_left ((kernel_le hκ (hs.trans_le hst) x).trans ?_) (abs_nonneg m)
    exact inv_anti₀ (by positivity) (Real.rpow_le_rpow (by positivity) (by gcongr) (by positivity))⟩
  continuous := by
    have hpi := Real.pi_pos
    unfold kernel
    refine continuousOn_const.mul (ContinuousOn.div ?_ ?_ ?_)
    · refine Real.continuous_exp.comp_continuousOn (ContinuousOn.div (by fun_prop) (by fun_prop) ?_)
      intro p hp
      have : 0 < p.2 := hp.2
      positivity
    · refine ContinuousOn.rpow_const (by fun_prop) fun p hp => Or.inl ?_
      have : 0 < p.2 := hp.2
      positivity
    · intro p hp
      exact (kernel_scale_pos hκ (show 0 < p.2 from hp.2)).ne'
  spreads x _ ht := (kernel_spreads hκ ht x).smul m
  integrable _ ht := (kernel_integrable hκ ht).const_mul m
  start φ hφ hM := by
    obtain ⟨M, hM⟩ := hM
    have h1 : Tendsto (fun t => m * spread κ φ 0 t) (𝓝[>] 0) (𝓝 (m * φ 0)) := by
      have := ((spread_continuous hκ hφ hM).comp (continuous_const.prodMk continuous_id : Continuous fun t : ℝ => ((0 : Space d), t)))
      have h := (this.tendsto 0).mono_left (nhdsWithin_le_nhds (s := Set.Ioi 0))
      simp only [Function.comp_apply, spread_start hκ φ] at h
      exact h.const_mul m
    refine h1.congr' ?_
    filter_upwards [self_mem_nhdsWithin] with t ht
    rw [spread_eq hκ φ 0 ht, ← integral_const_mul]
    congr 1
    ext y
    have : kernel κ t (0 - y) = kernel κ t y := by rw [kernel, kernel, zero_sub, norm_neg]
    rw [this]; ring

/-- The semigroup form: a field followed from the time `s` on. -/
theorem PointRelease.from_time {κ m : ℝ} {u : Space d → ℝ → ℝ} (hu : PointRelease κ m u) {s : ℝ} (hs : 0 < s) :
    Spreading κ (fun x => u x s) fun x t => u x (s + t) where
  bounded := by
    obtain ⟨M, hM⟩ := hu.bounded s hs
    exact ⟨M, fun x t ht => hM x _ (by linarith)⟩
  continuous := by
    refine hu.continuous.comp (f := fun p : Space d × ℝ => (p.1, s + p.2)) (by fun_prop) fun p hp => ⟨trivial, ?_⟩
    have : 0 ≤ p.2 := hp.2
    exact (by positivity : 0 < s + p.2)
  spreads x t ht := by
    obtain ⟨g, c, h1, h2⟩ := hu.spreads x (s + t) (by positivity)
    exact ⟨g, c, h1, h2.comp_const_add s t⟩
  start x := by simp

/-- There is only one way in which an amount released at a point spreads. -/
theorem PointRelease.eq_kernel (hκ : 0 < κ) {m : ℝ} {u : Space d → ℝ → ℝ} (hu : PointRelease κ m u) (x : Space d)
    (ht : 0 < t) : u x t = m * kernel κ t x := by
  have hk := kernel_continuous (d := d) κ t
  have h1 : Tendsto (fun s => u x (s + t)) (𝓝[>] 0) (𝓝 (u x t)) := by
    have hc : ContinuousAt (fun p : Space d × ℝ => u p.1 p.2) (x, t) :=
      hu.continuous.continuousAt (prod_mem_nhds univ_mem (Ioi_mem_nhds ht))
    have h2 : Tendsto (fun s : ℝ => (x, s + t)) (𝓝[>] 0) (𝓝 (x, t)) := by
      have : Continuous fun s : ℝ => (x, s + t) := by fun_prop
      have h := (this.tendsto 0).mono_left (nhdsWithin_le_nhds (s := Set.Ioi 0))
      simpa using h
    exact hc.tendsto.comp h2
  have h3 := hu.start (fun y => kernel κ t (x - y)) (hk.comp (by fun_prop))
    ⟨_, fun y => by rw [abs_of_pos (kernel_pos hκ ht _)]; exact kernel_le hκ ht _⟩
  rw [sub_zero] at h3
  refine tendsto_nhds_unique h1 (h3.congr' ?_)
  filter_upwards [self_mem_nhdsWithin] with s hs
  have hsp := hu.from_time hs
  obtain ⟨M, hM⟩ := hu.bounded s hs
  have hcont : Continuous fun x => u x s := by
    rw [← continuousOn_univ]
    exact hu.continuous.comp (f := fun x : Space d => (x, s)) (by fun_prop) fun x _ => ⟨trivial, hs⟩
  have := hsp.unique hκ.le (spread_spreading hκ hcont fun y => hM y s le_rfl) x t ht.le
  rw [this, spread_eq hκ _ x ht]

end Verif
