import Verif.Lemmas.Erf
import Verif.Spec.Fields
import Mathlib.Analysis.Calculus.MeanValue
import Mathlib.Analysis.SpecialFunctions.Sqrt
import Mathlib.Analysis.SpecialFunctions.Trigonometric.Deriv
import Mathlib.Analysis.SpecialFunctions.ExpDeriv
import Mathlib.Analysis.SpecialFunctions.Pow.Deriv

/-!
# Calculus for the fields
-/

namespace Verif

theorem hasDerivAt_erf (x : ℝ) : HasDerivAt erf (2 / Real.sqrt Real.pi * Real.exp (-x ^ 2)) x := by
  have h := intervalIntegral.integral_hasDerivAt_right (continuous_gauss.intervalIntegrable 0 x)
    (continuous_gauss.stronglyMeasurableAtFilter _ _) continuous_gauss.continuousAt
  exact h.const_mul _

theorem hasDerivAt_gauss (x : ℝ) : HasDerivAt (fun x => Real.exp (-x ^ 2)) (-(2 * x) * Real.exp (-x ^ 2)) x := by
  have h : HasDerivAt (fun x : ℝ => -x ^ 2) (-(2 * x)) x := by
    simpa using (hasDerivAt_pow 2 x).fun_neg
  have := h.exp
  rwa [mul_comm] at this

/-- `1/√(4 κ t)` as a function of time. -/
theorem hasDerivAt_invSqrt {κ t : ℝ} (hκ : 0 < κ) (ht : 0 < t) :
    HasDerivAt (fun s => 1 / Real.sqrt (4 * κ * s)) (-(1 / (2 * t)) * (1 / Real.sqrt (4 * κ * t))) t := by
  have hp : 0 < 4 * κ * t := by positivity
  have h1 : HasDerivAt (fun s => 4 * κ * s) (4 * κ) t := by simpa using (hasDerivAt_id t).const_mul (4 * κ)
  have h2 := h1.sqrt hp.ne'
  have h3 := h2.fun_inv (Real.sqrt_pos.2 hp).ne'
  simp only [one_div]
  refine h3.congr_deriv ?_
  have hs := Real.sq_sqrt hp.le
  have hs0 := (Real.sqrt_pos.2 hp).ne'
  rw [hs]
  field_simp

/-- `erf ((b + σ x)/√(4 κ t))` obeys the diffusion equation when `σ² = 1`, and so do sums of such terms; this gives the
three derivatives. -/
theorem erf_field {κ : ℝ} (hκ : 0 < κ) (b σ x t : ℝ) (ht : 0 < t) :
    HasDerivAt (fun y => erf ((b + σ * y) / Real.sqrt (4 * κ * t)))
        (σ / Real.sqrt (4 * κ * t) * (2 / Real.sqrt Real.pi * Real.exp (-((b + σ * x) / Real.sqrt (4 * κ * t)) ^ 2))) x ∧
      HasDerivAt (fun y => σ / Real.sqrt (4 * κ * t) *
          (2 / Real.sqrt Real.pi * Real.exp (-((b + σ * y) / Real.sqrt (4 * κ * t)) ^ 2)))
        (-(σ ^ 2 / (2 * κ * t)) * ((b + σ * x) / Real.sqrt (4 * κ * t)) *
          (2 / Real.sqrt Real.pi * Real.exp (-((b + σ * x) / Real.sqrt (4 * κ * t)) ^ 2))) x ∧
      HasDerivAt (fun s => erf ((b + σ * x) / Real.sqrt (4 * κ * s)))
        (-(1 / (2 * t)) * ((b + σ * x) / Real.sqrt (4 * κ * t)) *
          (2 / Real.sqrt Real.pi * Real.exp (-((b + σ * x) / Real.sqrt (4 * κ * t)) ^ 2))) t := by
  have hp : 0 < 4 * κ * t := by positivity
  have hs0 := (Real.sqrt_pos.2 hp).ne'
  have hs := Real.sq_sqrt hp.le
  have hin : ∀ y, HasDerivAt (fun y => (b + σ * y) / Real.sqrt (4 * κ * t)) (σ / Real.sqrt (4 * κ * t)) y := by
    intro y
    have h1 : HasDerivAt (fun y => b + σ * y) σ y := by
      simpa using ((hasDerivAt_id y).const_mul σ).const_add b
    exact h1.div_const _
  refine ⟨?_, ?_, ?_⟩
  · have := (hasDerivAt_erf ((b + σ * x) / Real.sqrt (4 * κ * t))).comp x (hin x)
    refine this.congr_deriv ?_
    ring
  · have := ((hasDerivAt_gauss ((b + σ * x) / Real.sqrt (4 * κ * t))).comp x (hin x)).const_mul (2 / Real.sqrt Real.pi)
    have := this.const_mul (σ / Real.sqrt (4 * κ * t))
    refine this.congr_deriv ?_
    have e : σ ^ 2 / (2 * κ * t) = 2 * (σ / Real.sqrt (4 * κ * t)) ^ 2 := by
      rw [div_pow, hs]; field_simp; norm_num
    rw [e]
    ring
  · have h1 : HasDerivAt (fun s => (b + σ * x) / Real.sqrt (4 * κ * s))
        (-(1 / (2 * t)) * ((b + σ * x) / Real.sqrt (4 * κ * t))) t := by
      have := (hasDerivAt_invSqrt hκ ht).const_mul (b + σ * x)
      simp only [mul_one_div] at this
      refine this.congr_deriv ?_
      ring
    have := (hasDerivAt_erf ((b + σ * x) / Real.sqrt (4 * κ * t))).comp t h1
    refine this.congr_deriv ?_
    ring

theorem Diffuses.const (κ c : ℝ) : Diffuses 1 κ fun _ _ => c := fun x t _ _ =>
  ⟨fun _ => 0, 0, fun y => hasDerivAt_const y c, hasDerivAt_const x 0, by simpa using hasDerivAt_const t c⟩

theorem Diffuses.add {n κ : ℝ} {u v : ℝ → ℝ → ℝ} (hu : Diffuses n κ u) (hv : Diffuses n κ v) :
    Diffuses n κ fun x t => u x t + v x t := by
  intro x t ht hx
  obtain ⟨g, c, h1, h2, h3⟩ := hu x t ht hx
  obtain ⟨g', c', h1', h2', h3'⟩ := hv x t ht hx
  exact ⟨fun y => g y + g' y, c + c', fun y => (h1 y).add (h1' y), h2.add h2', (h3.add h3').congr_deriv (by ring)⟩

theorem Diffuses.smul {n κ : ℝ} {u : ℝ → ℝ → ℝ} (hu : Diffuses n κ u) (a : ℝ) : Diffuses n κ fun x t => a * u x t := by
  intro x t ht hx
  obtain ⟨g, c, h1, h2, h3⟩ := hu x t ht hx
  exact ⟨fun y => a * g y, a * c, fun y => (h1 y).const_mul a, h2.const_mul a, (h3.const_mul a).congr_deriv (by ring)⟩

theorem Diffuses.sum {κ : ℝ} {u : ℕ → ℝ → ℝ → ℝ} (hu : ∀ i, Diffuses 1 κ (u i)) (N : ℕ) :
    Diffuses 1 κ fun x t => ∑ i ∈ Finset.range N, u i x t := by
  induction N with
  | zero => simpa using Diffuses.const κ 0
  | succ N ih => simpa only [Finset.sum_range_succ] using ih.add (hu N)

theorem diffuses_erf {κ : ℝ} (hκ : 0 < κ) (b σ : ℝ) (hσ : σ ^ 2 = 1) :
    Diffuses 1 κ fun x t => erf ((b + σ * x) / Real.sqrt (4 * κ * t)) := by
  intro x t ht _
  refine ⟨_, _, fun y => (erf_field hκ b σ y t ht).1, (erf_field hκ b σ x t ht).2.1, ?_⟩
  refine (erf_field hκ b σ x t ht).2.2.congr_deriv ?_
  rw [hσ]
  field_simp
  ring

/-- One term of the sine series. -/
theorem diffuses_sin (κ l : ℝ) : Diffuses 1 κ fun x t => Real.sin (l * x) * Real.exp (-(l ^ 2 * (κ * t))) := by
  intro x t _ _
  have hin : ∀ y, HasDerivAt (fun y : ℝ => l * y) l y := fun y => by simpa using (hasDerivAt_id y).const_mul l
  have htt : HasDerivAt (fun s : ℝ => -(l ^ 2 * (κ * s))) (-(l ^ 2 * κ)) t := by
    simpa using (((hasDerivAt_id t).const_mul κ).const_mul (l ^ 2)).fun_neg
  refine ⟨fun y => Real.cos (l * y) * l * Real.exp (-(l ^ 2 * (κ * t))), _, fun y => ((hin y).sin).mul_const _,
    (((hin x).cos).mul_const l).mul_const _, (htt.exp.const_mul (Real.sin (l * x))).congr_deriv ?_⟩
  ring

/-- Two points of a profile that carries a flow, when `G` has the derivative `1/area`. -/
theorem Carries.drop {k q a b : ℝ} {area T G : ℝ → ℝ} (hk : k ≠ 0) (hab : a ≤ b) (h : Carries k area T q a b)
    (hA : ∀ r ∈ Set.Icc a b, area r ≠ 0) (hG : ∀ r ∈ Set.Icc a b, HasDerivAt G (1 / area r) r) :
    T b - T a = -(q / k) * (G b - G a) := by
  have hd : ∀ r ∈ Set.Icc a b, HasDerivAt (fun r => T r + q / k * G r) 0 r := by
    intro r hr
    obtain ⟨d, h1, h2⟩ := h r hr
    refine (h1.add ((hG r hr).const_mul (q / k))).congr_deriv ?_
    have := hA r hr
    rw [h2]; field_simp; ring
  have hc := constant_of_has_deriv_right_zero (f := fun r => T r + q / k * G r) (a := a) (b := b)
    (fun r hr => (hd r hr).continuousAt.continuousWithinAt)
    (fun r hr => (hd r (Set.Ico_subset_Icc_self hr)).hasDerivWithinAt) b (Set.right_mem_Icc.2 hab)
  linear_combination hc

end Verif
