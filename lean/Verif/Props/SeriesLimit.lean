import Verif.Props.Fields
import Verif.Lemmas.Series
import Mathlib.Analysis.SpecialFunctions.Exp
import Mathlib.Analysis.Real.Pi.Bounds

/-!
# C84: the series converge, and how fast

The finite slab formulas are series cut after a number of terms that the user chooses.  Explicit bounds for the rest, and
the limits solve the problem that the truncated series solve approximately.
-/

namespace Verif

open Filter Topology

/-! ## The finite slab: conduction -/

/-- The error of `finite_slab_conduction` after the terms `0 … N`, for a unit temperature step; `F` is the Fourier number. -/
noncomputable def slabRest (N : ℕ) (ξ F : ℝ) : ℝ :=
  8 / (Real.pi * (N + 1) * Real.sin (Real.pi / 2 * ξ)) * Real.exp (-((2 * N + 3) * (Real.pi / 2)) ^ 2 * F)

/-- One term of the series. -/
noncomputable def slabMode (s κ : ℝ) (n : ℕ) (x t : ℝ) : ℝ :=
  1 / (2 * (n : ℝ) + 1) * (Real.sin ((2 * (n : ℝ) + 1) * Real.pi / (2 * s) * x) *
    Real.exp (-(((2 * (n : ℝ) + 1) * Real.pi / (2 * s)) ^ 2 * (κ * t))))

theorem slabField_eq (ts t0 s κ : ℝ) (N : ℕ) (x t : ℝ) :
    slabField ts t0 s κ N x t = ts - (ts - t0) * (4 / Real.pi) * ∑ n ∈ Finset.range (N + 1), slabMode s κ n x t := rfl

theorem slabMode_tail {s κ x t : ℝ} (hs : 0 < s) (hκ : 0 ≤ κ) (hx : 0 < x) (hx2 : x < 2 * s) (ht : 0 ≤ t) (N M : ℕ) :
    |∑ n ∈ Finset.Ico (N + 1) M, slabMode s κ n x t| ≤
      2 * (1 / ((N + 1) * Real.sin (Real.pi / 2 * (x / s)))) *
        Real.exp (-((2 * N + 3) * (Real.pi / 2)) ^ 2 * (κ * t / s ^ 2)) := by
  have hpi := Real.pi_pos
  have h0 : 0 < Real.pi / 2 * (x / s) := by positivity
  have h1 : Real.pi / 2 * (x / s) < Real.pi := by
    have : x / s < 2 := by rw [div_lt_iff₀ hs]; exact hx2
    nlinarith
  have hF : 0 ≤ κ * t / s ^ 2 := by positivity
  have key := abel_tail (b := fun n : ℕ => Real.sin ((2 * (n : ℝ) + 1) * (Real.pi / 2 * (x / s))) / (2 * (n : ℝ) + 1))
    (e := fun n : ℕ => Real.exp (-((2 * (n : ℝ) + 1) * (Real.pi / 2)) ^ 2 * (κ * t / s ^ 2)))
    (fun i j hij => by
      have hij' : (i : ℝ) ≤ j := by exact_mod_cast hij
      have : ((2 * (i : ℝ) + 1) * (Real.pi / 2)) ^ 2 ≤ ((2 * (j : ℝ) + 1) * (Real.pi / 2)) ^ 2 := by gcongr
      exact Real.exp_le_exp.2 (by nlinarith))
    (fun n => (Real.exp_pos _).le) (L := Real.pi / 4) (r := 1 / ((N + 1) * Real.sin (Real.pi / 2 * (x / s)))) (N := N + 1)
    (fun n hn => by
      have h := oddSine_rate (N := n) (by omega) h0 h1
      refine h.trans (one_div_le_one_div_of_le ?_ ?_)
      · have := Real.sin_pos_of_pos_of_lt_pi h0 h1
        positivity
      · have hsin := Real.sin_pos_of_pos_of_lt_pi h0 h1
        have : ((N : ℝ) + 1) ≤ n := by exact_mod_cast hn
        gcongr) M
  have e : ∑ n ∈ Finset.Ico (N + 1) M, slabMode s κ n x t =
      ∑ n ∈ Finset.Ico (N + 1) M, Real.sin ((2 * (n : ℝ) + 1) * (Real.pi / 2 * (x / s))) / (2 * (n : ℝ) + 1) *
        Real.exp (-((2 * (n : ℝ) + 1) * (Real.pi / 2)) ^ 2 * (κ * t / s ^ 2)) := by
    refine Finset.sum_congr rfl fun n _ => ?_
    unfold slabMode
    rw [← mul_assoc, one_div_mul_eq_div]
    congr 2
    · congr 1; field_simp
    · field_simp
  rw [e]
  have e2 : (2 * ((N + 1 : ℕ) : ℝ) + 1) = 2 * N + 3 := by push_cast; ring
  rw [e2] at key
  exact key

theorem slabField_tail (ts t0 : ℝ) {s κ x t : ℝ} (hs : 0 < s) (hκ : 0 ≤ κ) (hx : 0 < x) (hx2 : x < 2 * s) (ht : 0 ≤ t)
    {N M : ℕ} (hNM : N ≤ M) :
    |slabField ts t0 s κ M x t - slabField ts t0 s κ N x t| ≤ |ts - t0| * slabRest N (x / s) (κ * t / s ^ 2) := by
  rw [slabField_eq, slabField_eq, ← Finset.sum_range_add_sum_Ico _ (Nat.succ_le_succ hNM)]
  have h := slabMode_tail hs hκ hx hx2 ht N (M + 1)
  have hpi := Real.pi_pos
  rw [show ∀ a b c : ℝ, ts - a * (b + c) - (ts - a * b) = -(a * c) by intros; ring, abs_neg, abs_mul, abs_mul,
    abs_of_pos (show (0 : ℝ) < 4 / Real.pi by positivity), mul_assoc]
  refine mul_le_mul_of_nonneg_left ?_ (abs_nonneg _)
  refine (mul_le_mul_of_nonneg_left h (by positivity)).trans (le_of_eq ?_)
  unfold slabRest
  rw [← mul_assoc]
  congr 1
  rw [mul_one_div, div_mul_div_comm]
  norm_num [mul_assoc]

/-- Without heat conduction nothing has changed: at time zero the series tends to the initial temperature. -/
theorem slabField_zero (ts t0 : ℝ) {s κ x : ℝ} (hs : 0 < s) (hx : 0 < x) (hx2 : x < 2 * s) (N : ℕ) :
    |slabField ts t0 s κ N x 0 - t0| ≤ |ts - t0| * slabRest N (x / s) 0 := by
  have hpi := Real.pi_pos
  have h0 : 0 < Real.pi / 2 * (x / s) := by positivity
  have h1 : Real.pi / 2 * (x / s) < Real.pi := by
    have : x / s < 2 := by rw [div_lt_iff₀ hs]; exact hx2
    nlinarith
  have hsin := Real.sin_pos_of_pos_of_lt_pi h0 h1
  have e : ∑ n ∈ Finset.range (N + 1), slabMode s κ n x 0 = oddSine (N + 1) (Real.pi / 2 * (x / s)) := by
    refine Finset.sum_congr rfl fun n _ => ?_
    unfold slabMode
    rw [mul_zero, mul_zero, neg_zero, Real.exp_zero, mul_one, one_div_mul_eq_div]
    congr 2
    field_simp
  have h := oddSine_rate (N := N + 1) (by omega) h0 h1
  rw [slabField_eq, e]
  have e2 : ts - (ts - t0) * (4 / Real.pi) * oddSine (N + 1) (Real.pi / 2 * (x / s)) - t0 =
      -((ts - t0) * (4 / Real.pi * (oddSine (N + 1) (Real.pi / 2 * (x / s)) - Real.pi / 4))) := by
    field_simp; ring
  rw [e2, abs_neg, abs_mul, abs_mul, abs_of_pos (show (0 : ℝ) < 4 / Real.pi by positivity)]
  refine mul_le_mul_of_nonneg_left ?_ (abs_nonneg _)
  refine (mul_le_mul_of_nonneg_left h (by positivity)).trans ?_
  unfold slabRest
  rw [mul_zero, Real.exp_zero, mul_one, div_mul_div_comm, mul_one]
  push_cast
  rw [← mul_assoc]
  gcongr
  norm_num

/-- The sum of the whole series. -/
noncomputable def slabExact (ts t0 s κ x t : ℝ) : ℝ := ts - (ts - t0) * (4 / Real.pi) * ∑' n, slabMode s κ n x t

theorem summable_odd_exp (k : ℕ) {c : ℝ} (hc : 0 < c) :
    Summable fun n : ℕ => (2 * (n : ℝ) + 1) ^ k * Real.exp (-((2 * (n : ℝ) + 1) ^ 2 * c)) := by
  have h := (Real.summable_pow_mul_exp_neg_nat_mul k hc).comp_injective
    (i := fun n : ℕ => 2 * n + 1) (fun a b h => by simpa using h)
  refine Summable.of_nonneg_of_le (fun n => by positivity) (fun n => ?_) h
  simp only [Function.comp]
  push_cast
  gcongr
  have : (0 : ℝ) ≤ n := by positivity
  nlinarith [mul_nonneg this hc.le, mul_nonneg (mul_nonneg this this) hc.le]

section limit

variable {s κ : ℝ}

theorem odd_exp_eq (s κ : ℝ) (n : ℕ) (t : ℝ) :
    Real.exp (-(((2 * (n : ℝ) + 1) * Real.pi / (2 * s)) ^ 2 * (κ * t))) =
      Real.exp (-((2 * (n : ℝ) + 1) ^ 2 * ((Real.pi / (2 * s)) ^ 2 * (κ * t)))) := by
  congr 1; ring

theorem summable_modes (hs : 0 < s) (hκ : 0 < κ) (k : ℕ) {t : ℝ} (ht : 0 < t) :
    Summable fun n : ℕ => (2 * (n : ℝ) + 1) ^ k *
      Real.exp (-(((2 * (n : ℝ) + 1) * Real.pi / (2 * s)) ^ 2 * (κ * t))) := by
  simp only [odd_exp_eq]
  exact summable_odd_exp k (by have := Real.pi_pos; positivity)

theorem slabMode_le (n : ℕ) (x t : ℝ) :
    ‖slabMode s κ n x t‖ ≤ (2 * (n : ℝ) + 1) ^ 0 *
      Real.exp (-(((2 * (n : ℝ) + 1) * Real.pi / (2 * s)) ^ 2 * (κ * t))) := by
  unfold slabMode
  rw [Real.norm_eq_abs, abs_mul, abs_mul, Real.abs_exp, pow_zero, one_mul,
    abs_of_pos (show (0 : ℝ) < 1 / (2 * (n : ℝ) + 1) by positivity)]
  have h1 : (1 : ℝ) / (2 * (n : ℝ) + 1) ≤ 1 := by
    rw [div_le_one (by positivity)]
    have : (0 : ℝ) ≤ n := by positivity
    linarith
  have h2 := mul_le_mul_of_nonneg_right (Real.abs_sin_le_one ((2 * (n : ℝ) + 1) * Real.pi / (2 * s) * x))
    (Real.exp_pos (-(((2 * (n : ℝ) + 1) * Real.pi / (2 * s)) ^ 2 * (κ * t)))).le
  rw [one_mul] at h2
  exact (mul_le_of_le_one_left (by positivity) h1).trans h2

theorem slabMode_summable (hs : 0 < s) (hκ : 0 < κ) (x : ℝ) {t : ℝ} (ht : 0 < t) :
    Summable fun n => slabMode s κ n x t :=
  Summable.of_norm_bounded (summable_modes hs hκ 0 ht) fun n => slabMode_le n x t

theorem slabExact_gradient (ts t0 : ℝ) (hs : 0 < s) (hκ : 0 < κ) {t : ℝ} (ht : 0 < t) (x : ℝ) :
    HasDerivAt (fun x => slabExact ts t0 s κ x t) (-((ts - t0) * (4 / Real.pi) * ∑' n : ℕ, Real.pi / (2 * s) *
      (Real.cos ((2 * (n : ℝ) + 1) * Real.pi / (2 * s) * x) *
        Real.exp (-(((2 * (n : ℝ) + 1) * Real.pi / (2 * s)) ^ 2 * (κ * t)))))) x := by
  have hpi := Real.pi_pos
  unfold slabExact
  refine ((hasDerivAt_tsum (g := fun n x => slabMode s κ n x t) (y₀ := 0)
      (g' := fun n x => Real.pi / (2 * s) * (Real.cos ((2 * (n : ℝ) + 1) * Real.pi / (2 * s) * x) *
        Real.exp (-(((2 * (n : ℝ) + 1) * Real.pi / (2 * s)) ^ 2 * (κ * t)))))
      (u := fun n : ℕ => Real.pi / (2 * s) * ((2 * (n : ℝ) + 1) ^ 0 *
      Real.exp (-(((2 * (n : ℝ) + 1) * Real.pi / (2 * s)) ^ 2 * (κ * t)))))
      ((summable_modes hs hκ 0 ht).mul_left _) (fun n y => ?_) (fun n y => ?_)
      (slabMode_summable hs hκ 0 ht) x).const_mul ((ts - t0) * (4 / Real.pi))).const_sub ts
  · have hin : HasDerivAt (fun y : ℝ => (2 * (n : ℝ) + 1) * Real.pi / (2 * s) * y)
        ((2 * (n : ℝ) + 1) * Real.pi / (2 * s)) y := by
      simpa using (hasDerivAt_id y).const_mul ((2 * (n : ℝ) + 1) * Real.pi / (2 * s))
    have hm : (2 * (n : ℝ) + 1) ≠ 0 := by positivity
    refine ((hin.sin.mul_const _).const_mul (1 / (2 * (n : ℝ) + 1))).congr_deriv ?_
    field_simp
  · rw [Real.norm_eq_abs, abs_mul, abs_mul, Real.abs_exp, abs_of_pos (show 0 < Real.pi / (2 * s) by positivity), pow_zero]
    gcongr
    exact Real.abs_cos_le_one _

theorem slabExact_diffuses (ts t0 : ℝ) (hs : 0 < s) (hκ : 0 < κ) : Diffuses 1 κ fun x t => slabExact ts t0 s κ x t := by
  intro x t ht _
  have hpi := Real.pi_pos
  refine ⟨_, _, fun y => slabExact_gradient ts t0 hs hκ ht y, HasDerivAt.fun_neg (HasDerivAt.const_mul _
    (hasDerivAt_tsum (u := fun n : ℕ => (Real.pi / (2 * s)) ^ 2 * ((2 * (n : ℝ) + 1) ^ 1 *
      Real.exp (-(((2 * (n : ℝ) + 1) * Real.pi / (2 * s)) ^ 2 * (κ * t)))))
      (g' := fun n y => Real.pi / (2 * s) * (-Real.sin ((2 * (n : ℝ) + 1) * Real.pi / (2 * s) * y) *
        ((2 * (n : ℝ) + 1) * Real.pi / (2 * s)) *
          Real.exp (-(((2 * (n : ℝ) + 1) * Real.pi / (2 * s)) ^ 2 * (κ * t)))))
      ((summable_modes hs hκ 1 ht).mul_left _) (fun n y => ?_) (fun n y => ?_) (y₀ := 0) ?_ x)), ?_⟩
  · have hin : HasDerivAt (fun y : ℝ => (2 * (n : ℝ) + 1) * Real.pi / (2 * s) * y)
        ((2 * (n : ℝ) + 1) * Real.pi / (2 * s)) y := by
      simpa using (hasDerivAt_id y).const_mul ((2 * (n : ℝ) + 1) * Real.pi / (2 * s))
    exact ((hin.cos.mul_const _).const_mul _)
  · rw [Real.norm_eq_abs, abs_mul, abs_mul, abs_mul, Real.abs_exp, abs_neg, abs_of_pos (show 0 < Real.pi / (2 * s) by positivity),
      abs_of_pos (show (0 : ℝ) < (2 * (n : ℝ) + 1) * Real.pi / (2 * s) by positivity)]
    have := Real.abs_sin_le_one ((2 * (n : ℝ) + 1) * Real.pi / (2 * s) * y)
    calc _ ≤ Real.pi / (2 * s) * (1 * ((2 * (n : ℝ) + 1) * Real.pi / (2 * s)) *
          Real.exp (-(((2 * (n : ℝ) + 1) * Real.pi / (2 * s)) ^ 2 * (κ * t)))) := by gcongr
      _ = _ := by ring
  · refine Summable.of_norm_bounded (((summable_modes hs hκ 0 ht).mul_left (Real.pi / (2 * s)))) fun n => ?_
    rw [Real.norm_eq_abs, abs_mul, abs_mul, Real.abs_exp, abs_of_pos (show 0 < Real.pi / (2 * s) by positivity), pow_zero]
    gcongr
    exact Real.abs_cos_le_one _
  · have htime := hasDerivAt_tsum_of_isPreconnected (g := fun (n : ℕ) τ => slabMode s κ n x τ)
      (g' := fun n τ => -(((2 * (n : ℝ) + 1) * Real.pi / (2 * s)) ^ 2 * κ) * slabMode s κ n x τ)
      (t := Set.Ioi (t / 2)) (u := fun n : ℕ => (Real.pi / (2 * s)) ^ 2 * κ * ((2 * (n : ℝ) + 1) ^ 2 *
        Real.exp (-(((2 * (n : ℝ) + 1) * Real.pi / (2 * s)) ^ 2 * (κ * (t / 2))))))
      ((summable_modes hs hκ 2 (half_pos ht)).mul_left _) isOpen_Ioi isPreconnected_Ioi (fun n τ _ => ?_) (fun n τ hτ => ?_)
      (show t ∈ Set.Ioi (t / 2) by simpa using half_lt_self ht) (slabMode_summable hs hκ x ht)
      (show t ∈ Set.Ioi (t / 2) by simpa using half_lt_self ht)
    · refine ((htime.const_mul ((ts - t0) * (4 / Real.pi))).const_sub ts).congr_deriv ?_
      rw [sub_self, zero_div, zero_mul, add_zero, mul_neg, neg_inj, mul_left_comm κ, ← tsum_mul_left (a := κ)]
      refine congrArg _ (tsum_congr fun n : ℕ => ?_)
      unfold slabMode
      have hm : (2 * (n : ℝ) + 1) ≠ 0 := by positivity
      field_simp
    · have htt : HasDerivAt (fun τ : ℝ => -(((2 * (n : ℝ) + 1) * Real.pi / (2 * s)) ^ 2 * (κ * τ)))
          (-(((2 * (n : ℝ) + 1) * Real.pi / (2 * s)) ^ 2 * κ)) τ := by
        simpa using (((hasDerivAt_id τ).const_mul κ).const_mul (((2 * (n : ℝ) + 1) * Real.pi / (2 * s)) ^ 2)).fun_neg
      refine ((htt.exp.const_mul (Real.sin ((2 * (n : ℝ) + 1) * Real.pi / (2 * s) * x))).const_mul
        (1 / (2 * (n : ℝ) + 1))).congr_deriv ?_
      unfold slabMode
      ring
    · have hτ' : t / 2 ≤ τ := le_of_lt hτ
      rw [norm_mul, norm_neg, Real.norm_eq_abs, abs_of_pos (show (0 : ℝ) < ((2 * (n : ℝ) + 1) * Real.pi / (2 * s)) ^ 2 * κ by positivity)]
      calc _ ≤ ((2 * (n : ℝ) + 1) * Real.pi / (2 * s)) ^ 2 * κ * ((2 * (n : ℝ) + 1) ^ 0 *
            Real.exp (-(((2 * (n : ℝ) + 1) * Real.pi / (2 * s)) ^ 2 * (κ * τ)))) := by
            gcongr
            exact slabMode_le n x τ
        _ ≤ ((2 * (n : ℝ) + 1) * Real.pi / (2 * s)) ^ 2 * κ * ((2 * (n : ℝ) + 1) ^ 0 *
            Real.exp (-(((2 * (n : ℝ) + 1) * Real.pi / (2 * s)) ^ 2 * (κ * (t / 2))))) := by gcongr
        _ = _ := by ring

theorem slabExact_tendsto (ts t0 : ℝ) (hs : 0 < s) (hκ : 0 < κ) (x : ℝ) {t : ℝ} (ht : 0 < t) :
    Tendsto (fun N => slabField ts t0 s κ N x t) atTop (𝓝 (slabExact ts t0 s κ x t)) := by
  have h := ((slabMode_summable hs hκ x ht).hasSum.tendsto_sum_nat.comp (tendsto_add_atTop_nat 1)).const_mul
    ((ts - t0) * (4 / Real.pi))
  exact h.const_sub ts

theorem slabExact_rest (ts t0 : ℝ) (hs : 0 < s) (hκ : 0 < κ) {x : ℝ} (hx : 0 < x) (hx2 : x < 2 * s) {t : ℝ} (ht : 0 < t)
    (N : ℕ) : |slabExact ts t0 s κ x t - slabField ts t0 s κ N x t| ≤ |ts - t0| * slabRest N (x / s) (κ * t / s ^ 2) := by
  refine le_of_tendsto ((slabExact_tendsto ts t0 hs hκ x ht).sub_const _).abs ?_
  filter_upwards [eventually_ge_atTop N] with M hM
  exact slabField_tail ts t0 hs hκ.le hx hx2 ht.le hM

theorem slabRest_le (N : ℕ) {ξ F : ℝ} (hξ : 0 < ξ) (hξ2 : ξ < 2) (hF : 0 ≤ F) : slabRest N ξ F ≤ slabRest N ξ 0 := by
  have hpi := Real.pi_pos
  have hsin := Real.sin_pos_of_pos_of_lt_pi (show 0 < Real.pi / 2 * ξ by positivity) (by nlinarith)
  unfold slabRest
  have : 0 ≤ ((2 * (N : ℝ) + 3) * (Real.pi / 2)) ^ 2 := by positivity
  exact mul_le_mul_of_nonneg_left (Real.exp_le_exp.2 (by rw [mul_zero]; nlinarith)) (by positivity)

theorem slabRest_tendsto (ξ : ℝ) : Tendsto (fun N => slabRest N ξ 0) atTop (𝓝 0) := by
  have h : Tendsto (fun N : ℕ => 8 / (Real.pi * Real.sin (Real.pi / 2 * ξ)) * (1 / ((N : ℝ) + 1))) atTop
      (𝓝 (8 / (Real.pi * Real.sin (Real.pi / 2 * ξ)) * 0)) := tendsto_one_div_add_atTop_nhds_zero_nat.const_mul _
  rw [mul_zero] at h
  refine h.congr fun N => ?_
  unfold slabRest
  rw [mul_zero, Real.exp_zero, mul_one, div_mul_div_comm, mul_one]
  congr 1
  ring

theorem slabExact_start (ts t0 : ℝ) (hs : 0 < s) (hκ : 0 < κ) {x : ℝ} (hx : 0 < x) (hx2 : x < 2 * s) :
    Tendsto (fun t => slabExact ts t0 s κ x t) (𝓝[>] 0) (𝓝 t0) := by
  have hξ : 0 < x / s := by positivity
  have hξ2 : x / s < 2 := by rw [div_lt_iff₀ hs]; exact hx2
  rw [Metric.tendsto_nhds]
  intro ε hε
  have hrest : Tendsto (fun N => |ts - t0| * slabRest N (x / s) 0) atTop (𝓝 0) := by
    simpa using (slabRest_tendsto (x / s)).const_mul |ts - t0|
  obtain ⟨N, hN⟩ := (hrest.eventually (gt_mem_nhds (show (0 : ℝ) < ε / 3 by positivity))).exists
  have hcont : Tendsto (fun t => slabField ts t0 s κ N x t) (𝓝[>] 0) (𝓝 (slabField ts t0 s κ N x 0)) := by
    have : Continuous fun t => slabField ts t0 s κ N x t := by unfold slabField; fun_prop
    exact (this.tendsto 0).mono_left nhdsWithin_le_nhds
  filter_upwards [Metric.tendsto_nhds.1 hcont (ε / 3) (by positivity), self_mem_nhdsWithin] with t h1 ht
  have ht' : 0 < t := ht
  have h2 := slabExact_rest ts t0 hs hκ hx hx2 ht' N
  have h3 := slabField_zero ts t0 (κ := κ) hs hx hx2 N
  have h4 := mul_le_mul_of_nonneg_left (slabRest_le N hξ hξ2 (show 0 ≤ κ * t / s ^ 2 by positivity)) (abs_nonneg (ts - t0))
  rw [Real.dist_eq] at h1 ⊢
  have h5 := abs_sub_le (slabExact ts t0 s κ x t) (slabField ts t0 s κ N x t) t0
  have h6 := abs_sub_le (slabField ts t0 s κ N x t) (slabField ts t0 s κ N x 0) t0
  linarith

end limit

/-- How many terms `finite_slab_conduction` needs: results with `N` and with more iterations differ by at most
`|Ts - To| 8/(π (N+1) sin(π x/2s)) exp(-((2N+3) π/2)² Fo)`, for all times. -/
theorem C84_conduction_terms (ts t0 x s k rho cp t : ℝ) {N M : ℕ} (hNM : N ≤ M) (hs : 0 < s) (hx : 0 < x) (hx2 : x < 2 * s)
    (hr : 0 < rho) (hc : 0 < cp) (hk : 0 ≤ k) (ht : 0 ≤ t) :
    ∃ T T' : ℝ,
      finiteSlabConduction (tempSI ts) (tempSI t0) (lenSI x) (lenSI s) (condSI k) (densSI rho) (cpSI cp) (timeSI t) N =
        tempSI T ∧
      finiteSlabConduction (tempSI ts) (tempSI t0) (lenSI x) (lenSI s) (condSI k) (densSI rho) (cpSI cp) (timeSI t) M =
        tempSI T' ∧
      |T' - T| ≤ |ts - t0| * (8 / (Real.pi * (N + 1) * Real.sin (Real.pi / 2 * (x / s))) *
        Real.exp (-((2 * N + 3) * (Real.pi / 2)) ^ 2 * (k / (rho * cp) * t / s ^ 2))) :=
  ⟨_, _, slabField_value ts t0 x s k rho cp t N hs.ne' hr.ne' hc.ne', slabField_value ts t0 x s k rho cp t M hs.ne' hr.ne' hc.ne',
    slabField_tail ts t0 hs (by positivity) hx hx2 ht hNM⟩

/-- The limit of `finite_slab_conduction` is the solution of the problem: the heat equation, the surface at `Ts`, no flow at
the middle, and the temperature `To` in the beginning.  With `N` iterations the result is off by at most the bound of
`C84_conduction_terms`. -/
theorem C84_conduction_limit (ts t0 s k rho cp : ℝ) (hs : 0 < s) (hr : 0 < rho) (hc : 0 < cp) (hk : 0 < k) :
    ∃ U : ℝ → ℝ → ℝ,
      Diffuses 1 (k / (rho * cp)) U ∧ (∀ t, U 0 t = ts) ∧ (∀ t, 0 < t → HasDerivAt (fun x => U x t) 0 s) ∧
      (∀ x, 0 < x → x < 2 * s → Tendsto (U x) (𝓝[>] 0) (𝓝 t0)) ∧
      ∀ x t (N : ℕ), 0 < x → x < 2 * s → 0 < t → ∃ T : ℝ,
        finiteSlabConduction (tempSI ts) (tempSI t0) (lenSI x) (lenSI s) (condSI k) (densSI rho) (cpSI cp) (timeSI t) N =
          tempSI T ∧
        |U x t - T| ≤ |ts - t0| * (8 / (Real.pi * (N + 1) * Real.sin (Real.pi / 2 * (x / s))) *
          Real.exp (-((2 * N + 3) * (Real.pi / 2)) ^ 2 * (k / (rho * cp) * t / s ^ 2))) := by
  have hκ : 0 < k / (rho * cp) := by positivity
  refine ⟨fun x t => slabExact ts t0 s (k / (rho * cp)) x t, slabExact_diffuses ts t0 hs hκ, fun t => ?_, fun t ht => ?_,
    fun x hx hx2 => slabExact_start ts t0 hs hκ hx hx2, fun x t N hx hx2 ht =>
      ⟨_, slabField_value ts t0 x s k rho cp t N hs.ne' hr.ne' hc.ne', slabExact_rest ts t0 hs hκ hx hx2 ht N⟩⟩
  · simp [slabExact, slabMode]
  · refine (slabExact_gradient ts t0 hs hκ ht s).congr_deriv ?_
    have h : ∀ n : ℕ, Real.cos ((2 * (n : ℝ) + 1) * Real.pi / (2 * s) * s) = 0 := fun n => by
      have : (2 * (n : ℝ) + 1) * Real.pi / (2 * s) * s = Real.pi / 2 + (n : ℝ) * Real.pi := by field_simp; ring
      rw [this, Real.cos_add_nat_mul_pi]
      simp
    simp [h]

/-- At time zero the result tends to `To`, at the rate `1/N`. -/
theorem C84_conduction_start (ts t0 x s k rho cp : ℝ) (N : ℕ) (hs : 0 < s) (hx : 0 < x) (hx2 : x < 2 * s)
    (hr : 0 < rho) (hc : 0 < cp) :
    ∃ T : ℝ,
      finiteSlabConduction (tempSI ts) (tempSI t0) (lenSI x) (lenSI s) (condSI k) (densSI rho) (cpSI cp) (timeSI 0) N =
        tempSI T ∧
      |T - t0| ≤ |ts - t0| * (8 / (Real.pi * (N + 1) * Real.sin (Real.pi / 2 * (x / s)))) := by
  refine ⟨_, slabField_value ts t0 x s k rho cp 0 N hs.ne' hr.ne' hc.ne', (slabField_zero ts t0 hs hx hx2 N).trans ?_⟩
  rw [slabRest, mul_zero, Real.exp_zero, mul_one]

/-! ## Total heat -/

theorem odd_square_tail {N : ℕ} (hN : 0 < N) (M : ℕ) (hNM : N ≤ M) :
    ∑ n ∈ Finset.Ico N M, 1 / (2 * (n : ℝ) + 1) ^ 2 ≤ 1 / 4 * (1 / (N : ℝ) - 1 / (M : ℝ)) := by
  induction M, hNM using Nat.le_induction with
  | base => simp
  | succ M hM ih =>
    rw [Finset.sum_Ico_succ_top hM]
    have hM' : (0 : ℝ) < M := by exact_mod_cast hN.trans_le hM
    have : 1 / (2 * (M : ℝ) + 1) ^ 2 ≤ 1 / 4 * (1 / M - 1 / ((M + 1 : ℕ) : ℝ)) := by
      push_cast
      rw [div_sub_div _ _ hM'.ne' (by positivity), div_mul_div_comm, div_le_div_iff₀ (by positivity) (by positivity)]
      nlinarith
    linarith

/-- `finite_slab_total_heat` with `N` and with more terms differ by at most `2/(π² N)` of the heat that the slab can take
up. -/
theorem C84_total_heat_terms (s rho cp ts t0 k t a : ℝ) {N M : ℕ} (hN : 0 < N) (hNM : N ≤ M) (hs : 0 < s)
    (hr : 0 < rho) (hc : 0 < cp) (hk : 0 ≤ k) (ht : 0 ≤ t) :
    ∃ Q Q' : ℝ,
      finiteSlabTotalHeat (lenSI s) (densSI rho) (cpSI cp) (tempSI ts) (tempSI t0) (condSI k) (timeSI t) (areaSI a) N =
        qU .unit Q c!"J" ∧
      finiteSlabTotalHeat (lenSI s) (densSI rho) (cpSI cp) (tempSI ts) (tempSI t0) (condSI k) (timeSI t) (areaSI a) M =
        qU .unit Q' c!"J" ∧
      |Q' - Q| ≤ |s * rho * cp * (ts - t0) * a| * (2 / (Real.pi ^ 2 * N)) := by
  refine ⟨_, _, C47_value s rho cp ts t0 k t a N hs.ne' hr.ne' hc.ne', C47_value s rho cp ts t0 k t a M hs.ne' hr.ne' hc.ne',
    ?_⟩
  have hpi := Real.pi_pos
  have hN' : (0 : ℝ) < N := by exact_mod_cast hN
  have hF : 0 ≤ fourier s rho cp k t := by unfold fourier; positivity
  simp only [Int.toNat_natCast]
  unfold slabFraction
  rw [← Finset.sum_range_add_sum_Ico _ hNM,
    show ∀ p q b c : ℝ, p * (q * (b + c)) - p * (q * b) = p * (q * c) by intros; ring, abs_mul]
  refine mul_le_mul_of_nonneg_left ?_ (abs_nonneg _)
  have h0 : ∀ n : ℕ, 0 ≤ 1 - Real.exp (-((2 * (n : ℝ) + 1) * (Real.pi / 2)) ^ 2 * fourier s rho cp k t) ∧
      1 - Real.exp (-((2 * (n : ℝ) + 1) * (Real.pi / 2)) ^ 2 * fourier s rho cp k t) ≤ 1 := fun n => by
    have h1 : Real.exp (-((2 * (n : ℝ) + 1) * (Real.pi / 2)) ^ 2 * fourier s rho cp k t) ≤ 1 := by
      rw [Real.exp_le_one_iff]
      have : 0 ≤ ((2 * (n : ℝ) + 1) * (Real.pi / 2)) ^ 2 := by positivity
      nlinarith
    have h2 := Real.exp_pos (-((2 * (n : ℝ) + 1) * (Real.pi / 2)) ^ 2 * fourier s rho cp k t)
    constructor <;> linarith
  have h1 : 0 ≤ ∑ n ∈ Finset.Ico N M, 1 / (2 * (n : ℝ) + 1) ^ 2 *
      (1 - Real.exp (-((2 * (n : ℝ) + 1) * (Real.pi / 2)) ^ 2 * fourier s rho cp k t)) :=
    Finset.sum_nonneg fun n _ => mul_nonneg (by positivity) (h0 n).1
  have h2 : ∑ n ∈ Finset.Ico N M, 1 / (2 * (n : ℝ) + 1) ^ 2 *
      (1 - Real.exp (-((2 * (n : ℝ) + 1) * (Real.pi / 2)) ^ 2 * fourier s rho cp k t)) ≤ 1 / 4 * (1 / (N : ℝ)) := by
    refine (Finset.sum_le_sum fun n _ => mul_le_of_le_one_right (by positivity) (h0 n).2).trans
      ((odd_square_tail hN M hNM).trans ?_)
    have : (0 : ℝ) ≤ 1 / M := by positivity
    linarith
  rw [abs_of_nonneg (by positivity)]
  refine (mul_le_mul_of_nonneg_left h2 (by positivity)).trans (le_of_eq ?_)
  field_simp
  norm_num

/-! ## The finite slab: diffusion -/

theorem erfcR_nonneg (x : ℝ) : 0 ≤ erfcR x := sub_nonneg.2 (erf_le_one x)

theorem erfcR_anti : Antitone erfcR := fun _ _ h => sub_le_sub_left (erf_strictMono.monotone h) 1

theorem slabSeries_tail {a z D t : ℝ} (ha : 0 ≤ a) (hD : 0 < D) (ht : 0 < t) {N M : ℕ} (hNM : N ≤ M) :
    |slabSeries a z D t M - slabSeries a z D t N| ≤
      erfcR (((2 * N + 1) * a + z) / Real.sqrt (4 * D * t)) + erfcR (((2 * N + 1) * a - z) / Real.sqrt (4 * D * t)) := by
  unfold slabSeries
  rw [← Finset.sum_range_add_sum_Ico _ hNM, add_sub_cancel_left]
  have hs : 0 < Real.sqrt (4 * D * t) := Real.sqrt_pos.2 (by positivity)
  refine alternating_tail (b := fun n : ℕ => erfcR (((2 * n + 1) * a + z) / Real.sqrt (4 * D * t)) +
    erfcR (((2 * n + 1) * a - z) / Real.sqrt (4 * D * t))) (fun i j hij => ?_)
    (fun n => add_nonneg (erfcR_nonneg _) (erfcR_nonneg _)) N M
  have hij' : (i : ℝ) ≤ j := by exact_mod_cast hij
  refine add_le_add (erfcR_anti ?_) (erfcR_anti ?_)
  · gcongr
  · gcongr

/-- `finite_slab_diffusion` with `N` and with more terms differ by at most the first omitted term. -/
theorem C84_diffusion_terms (cs c0 a z D t : ℝ) {N M : ℕ} (hNM : N ≤ M) (ha : 0 ≤ a) (hD : 0 < D) (ht : 0 < t) :
    ∃ C C' : ℝ,
      finiteSlabDiffusion (concSI cs) (concSI c0) (lenSI a) (lenSI z) (diffSI D) (timeSI t) N = qMulti C c!"kg/m^3" ∧
      finiteSlabDiffusion (concSI cs) (concSI c0) (lenSI a) (lenSI z) (diffSI D) (timeSI t) M = qMulti C' c!"kg/m^3" ∧
      |C' - C| ≤ |cs - c0| * ((1 - erf (((2 * N + 1) * a + z) / Real.sqrt (4 * D * t))) +
        (1 - erf (((2 * N + 1) * a - z) / Real.sqrt (4 * D * t)))) := by
  refine ⟨_, _, C71_value cs c0 a z D t hD ht N, C71_value cs c0 a z D t hD ht M, ?_⟩
  rw [show cs - (cs - c0) * slabSeries a z D t M - (cs - (cs - c0) * slabSeries a z D t N) =
    -((cs - c0) * (slabSeries a z D t M - slabSeries a z D t N)) by ring, abs_neg, abs_mul]
  exact mul_le_mul_of_nonneg_left (slabSeries_tail ha hD ht hNM) (abs_nonneg _)

theorem gauss_le (w : ℝ) : Real.exp (-w ^ 2) ≤ Real.exp (1 / 4) * Real.exp (-w) := by
  rw [← Real.exp_add]
  exact Real.exp_le_exp.2 (by nlinarith [sq_nonneg (w - 1 / 2)])

/-- A crude bound of the complementary error function. -/
theorem erfcR_le (x : ℝ) : erfcR x ≤ 2 / Real.sqrt Real.pi * Real.exp (1 / 4) * Real.exp (-x) := by
  have hd : ∀ x, HasDerivAt (fun x => 2 / Real.sqrt Real.pi * Real.exp (1 / 4) * Real.exp (-x) - erfcR x)
      (-(2 / Real.sqrt Real.pi * Real.exp (1 / 4) * Real.exp (-x)) + 2 / Real.sqrt Real.pi * Real.exp (-x ^ 2)) x := fun x => by
    have h1 : HasDerivAt (fun x : ℝ => Real.exp (-x)) (Real.exp (-x) * -1) x := (hasDerivAt_id x).fun_neg.exp
    have h2 : HasDerivAt erfcR (-(2 / Real.sqrt Real.pi * Real.exp (-x ^ 2))) x := (hasDerivAt_erf x).const_sub 1
    exact ((h1.const_mul _).fun_sub h2).congr_deriv (by ring)
  have hanti : Antitone fun x => 2 / Real.sqrt Real.pi * Real.exp (1 / 4) * Real.exp (-x) - erfcR x := by
    refine antitone_of_deriv_nonpos (fun x => (hd x).differentiableAt) fun x => ?_
    rw [(hd x).deriv]
    have := mul_le_mul_of_nonneg_left (gauss_le x) erf_coeff_pos.le
    linarith
  have hlim : Tendsto (fun x => 2 / Real.sqrt Real.pi * Real.exp (1 / 4) * Real.exp (-x) - erfcR x) atTop
      (𝓝 (2 / Real.sqrt Real.pi * Real.exp (1 / 4) * 0 - (1 - 1))) :=
    (Real.tendsto_exp_neg_atTop_nhds_zero.const_mul _).sub (erf_tendsto.const_sub 1)
  have := hanti.le_of_tendsto hlim x
  rw [mul_zero, sub_self, sub_zero] at this
  exact sub_nonneg.1 this

/-- Termwise differentiation of a series of solutions. -/
theorem Diffuses.tsum {κ : ℝ} {u g c : ℕ → ℝ → ℝ → ℝ}
    (h1 : ∀ n y t, 0 < t → HasDerivAt (fun y => u n y t) (g n y t) y)
    (h2 : ∀ n y t, 0 < t → HasDerivAt (fun y => g n y t) (c n y t) y)
    (h3 : ∀ n y t, 0 < t → HasDerivAt (fun t => u n y t) (κ * c n y t) t)
    (hb : ∀ R : ℝ, 0 < R → ∃ B : ℕ → ℝ, Summable B ∧ ∀ n y t, |y| < R → 1 / R < t → t < R →
      |u n y t| ≤ B n ∧ |g n y t| ≤ B n ∧ |c n y t| ≤ B n) :
    Diffuses 1 κ (fun x t => ∑' n, u n x t) ∧
      ∀ x t, 0 < t → HasDerivAt (fun x => ∑' n, u n x t) (∑' n, g n x t) x := by
  have hx : ∀ x t, 0 < t → HasDerivAt (fun x => ∑' n, u n x t) (∑' n, g n x t) x := by
    intro x t ht
    obtain ⟨B, hB, hb⟩ := hb (|x| + t + 1 / t + 1) (by positivity)
    have ht1 : 1 / (|x| + t + 1 / t + 1) < t := by
      rw [div_lt_iff₀ (by positivity)]
      have : t * (1 / t) = 1 := by field_simp
      nlinarith [abs_nonneg x]
    have ht2 : t < |x| + t + 1 / t + 1 := by have := abs_nonneg x; have : 0 < 1 / t := by positivity
                                             linarith
    have hxx : |x| < |x| + t + 1 / t + 1 := by have : 0 < 1 / t := by positivity
                                               linarith
    have hopen : IsOpen {y : ℝ | |y| < |x| + t + 1 / t + 1} := isOpen_lt continuous_abs continuous_const
    have hconn : IsPreconnected {y : ℝ | |y| < |x| + t + 1 / t + 1} := by
      have : {y : ℝ | |y| < |x| + t + 1 / t + 1} = Set.Ioo (-(|x| + t + 1 / t + 1)) (|x| + t + 1 / t + 1) := by
        ext y; simp [abs_lt]
      rw [this]; exact isPreconnected_Ioo
    exact hasDerivAt_tsum_of_isPreconnected hB hopen hconn (fun n y _ => h1 n y t ht)
      (fun n y hy => (hb n y t hy ht1 ht2).2.1) hxx
      (Summable.of_norm_bounded hB fun n => (hb n x t hxx ht1 ht2).1) hxx
  refine ⟨fun x t ht _ => ⟨fun y => ∑' n, g n y t, ∑' n, c n x t, fun y => hx y t ht, ?_, ?_⟩, hx⟩
  all_goals
    obtain ⟨B, hB, hb⟩ := hb (|x| + t + 1 / t + 1) (by positivity)
    have ht1 : 1 / (|x| + t + 1 / t + 1) < t := by
      rw [div_lt_iff₀ (by positivity)]
      have : t * (1 / t) = 1 := by field_simp
      nlinarith [abs_nonneg x]
    have ht2 : t < |x| + t + 1 / t + 1 := by have := abs_nonneg x; have : 0 < 1 / t := by positivity
                                             linarith
    have hxx : |x| < |x| + t + 1 / t + 1 := by have : 0 < 1 / t := by positivity
                                               linarith
  · have hopen : IsOpen {y : ℝ | |y| < |x| + t + 1 / t + 1} := isOpen_lt continuous_abs continuous_const
    have hconn : IsPreconnected {y : ℝ | |y| < |x| + t + 1 / t + 1} := by
      have : {y : ℝ | |y| < |x| + t + 1 / t + 1} = Set.Ioo (-(|x| + t + 1 / t + 1)) (|x| + t + 1 / t + 1) := by
        ext y; simp [abs_lt]
      rw [this]; exact isPreconnected_Ioo
    exact hasDerivAt_tsum_of_isPreconnected hB hopen hconn (fun n y _ => h2 n y t ht)
      (fun n y hy => (hb n y t hy ht1 ht2).2.2) hxx
      (Summable.of_norm_bounded hB fun n => (hb n x t hxx ht1 ht2).2.1) hxx
  · rw [sub_self, zero_div, zero_mul, add_zero, ← tsum_mul_left]
    refine hasDerivAt_tsum_of_isPreconnected (hB.mul_left |κ|) isOpen_Ioo
      (isPreconnected_Ioo (a := 1 / (|x| + t + 1 / t + 1)) (b := |x| + t + 1 / t + 1))
      (fun n τ hτ => h3 n x τ (lt_trans (by positivity) hτ.1)) (fun n τ hτ => ?_) (⟨ht1, ht2⟩ : t ∈ Set.Ioo _ _)
      (Summable.of_norm_bounded hB fun n => (hb n x t hxx ht1 ht2).1) ⟨ht1, ht2⟩
    rw [norm_mul]
    exact mul_le_mul_of_nonneg_left (hb n x τ hxx hτ.1 hτ.2).2.2 (norm_nonneg _)

section diffusionLimit

variable {a D : ℝ}

/-- `2/√π exp(-w²)`, the derivative of erf, at `w = (b + σ z)/√(4 D t)`. -/
noncomputable def bell (D b σ z t : ℝ) : ℝ :=
  2 / Real.sqrt Real.pi * Real.exp (-((b + σ * z) / Real.sqrt (4 * D * t)) ^ 2)

theorem erfc_derivs (hD : 0 < D) (b σ z t : ℝ) (hσ : σ ^ 2 = 1) (ht : 0 < t) :
    HasDerivAt (fun y => erfcR ((b + σ * y) / Real.sqrt (4 * D * t))) (-(σ / Real.sqrt (4 * D * t) * bell D b σ z t)) z ∧
      HasDerivAt (fun y => -(σ / Real.sqrt (4 * D * t) * bell D b σ y t))
        (1 / (2 * D * t) * ((b + σ * z) / Real.sqrt (4 * D * t)) * bell D b σ z t) z ∧
      HasDerivAt (fun s => erfcR ((b + σ * z) / Real.sqrt (4 * D * s)))
        (D * (1 / (2 * D * t) * ((b + σ * z) / Real.sqrt (4 * D * t)) * bell D b σ z t)) t := by
  obtain ⟨h1, h2, h3⟩ := erf_field hD b σ z t ht
  refine ⟨h1.const_sub 1, h2.fun_neg.congr_deriv ?_, (h3.const_sub 1).congr_deriv ?_⟩
  · rw [hσ, bell]; ring
  · rw [bell]; field_simp

theorem bell_bounds (ha : 0 < a) (hD : 0 < D) {R : ℝ} (hR : 0 < R) {σ : ℝ} (hσ : |σ| = 1) (n : ℕ) {y t : ℝ} (hy : |y| < R)
    (ht1 : 1 / R < t) (ht2 : t < R) :
    erfcR (((2 * (n : ℝ) + 1) * a + σ * y) / Real.sqrt (4 * D * t)) ≤ 2 / Real.sqrt Real.pi * Real.exp (1 / 4) *
        Real.exp (R / Real.sqrt (4 * D * (1 / R))) * Real.exp (-(a / Real.sqrt (4 * D * R)) * (2 * (n : ℝ) + 1)) ∧
      bell D ((2 * (n : ℝ) + 1) * a) σ y t ≤ 2 / Real.sqrt Real.pi * Real.exp (1 / 4) *
        Real.exp (R / Real.sqrt (4 * D * (1 / R))) * Real.exp (-(a / Real.sqrt (4 * D * R)) * (2 * (n : ℝ) + 1)) ∧
      |((2 * (n : ℝ) + 1) * a + σ * y) / Real.sqrt (4 * D * t)| ≤
        (2 * (n : ℝ) + 1) * ((a + R) / Real.sqrt (4 * D * (1 / R))) := by
  have ht0 : 0 < t := lt_trans (by positivity) ht1
  have hS : 0 < Real.sqrt (4 * D * t) := Real.sqrt_pos.2 (by positivity)
  have hS0 : 0 < Real.sqrt (4 * D * (1 / R)) := Real.sqrt_pos.2 (by positivity)
  have hS1 : 0 < Real.sqrt (4 * D * R) := Real.sqrt_pos.2 (by positivity)
  have h0 : Real.sqrt (4 * D * (1 / R)) ≤ Real.sqrt (4 * D * t) := Real.sqrt_le_sqrt (by gcongr)
  have h1 : Real.sqrt (4 * D * t) ≤ Real.sqrt (4 * D * R) := Real.sqrt_le_sqrt (by gcongr)
  have hσy : |σ * y| ≤ R := by rw [abs_mul, hσ, one_mul]; exact hy.le
  have hn : (0 : ℝ) ≤ n := by positivity
  have hlow : -R / Real.sqrt (4 * D * (1 / R)) + a / Real.sqrt (4 * D * R) * (2 * (n : ℝ) + 1) ≤
      ((2 * (n : ℝ) + 1) * a + σ * y) / Real.sqrt (4 * D * t) := by
    rw [add_div, add_comm]
    refine add_le_add ?_ ?_
    · rw [div_mul_eq_mul_div, mul_comm a]
      gcongr
    · have : -(R / Real.sqrt (4 * D * (1 / R))) ≤ -(|σ * y| / Real.sqrt (4 * D * t)) := by
        rw [neg_le_neg_iff]
        gcongr
      rw [neg_div]
      refine this.trans ?_
      rw [← neg_div]
      gcongr
      exact neg_abs_le _
  have hexp : Real.exp (-(((2 * (n : ℝ) + 1) * a + σ * y) / Real.sqrt (4 * D * t))) ≤
      Real.exp (R / Real.sqrt (4 * D * (1 / R))) * Real.exp (-(a / Real.sqrt (4 * D * R)) * (2 * (n : ℝ) + 1)) := by
    rw [← Real.exp_add]
    refine Real.exp_le_exp.2 ?_
    rw [neg_div] at hlow
    linarith
  have hK : 0 ≤ 2 / Real.sqrt Real.pi * Real.exp (1 / 4) := mul_nonneg erf_coeff_pos.le (Real.exp_pos _).le
  refine ⟨?_, ?_, ?_⟩
  · rw [mul_assoc _ (Real.exp (R / _))]
    exact (erfcR_le _).trans (mul_le_mul_of_nonneg_left hexp hK)
  · rw [mul_assoc _ (Real.exp (R / _))]
    refine le_trans ?_ (mul_le_mul_of_nonneg_left hexp hK)
    rw [mul_assoc]
    exact mul_le_mul_of_nonneg_left (gauss_le _) erf_coeff_pos.le
  · rw [abs_div, abs_of_pos hS, ← mul_div_assoc]
    refine div_le_div₀ (by positivity) ?_ hS0 h0
    refine (abs_add_le _ _).trans ?_
    rw [abs_of_pos (show (0 : ℝ) < (2 * (n : ℝ) + 1) * a by positivity)]
    nlinarith

theorem sum_of_two {p q x y : ℝ} (hp : |p| ≤ x) (hq : |q| ≤ y) : |p + q| ≤ x + y := (abs_add_le p q).trans (add_le_add hp hq)

/-- The term of the series. -/
noncomputable def slabImage (a D : ℝ) (n : ℕ) (z t : ℝ) : ℝ :=
  (-1) ^ n * (erfcR (((2 * n + 1) * a + 1 * z) / Real.sqrt (4 * D * t)) +
    erfcR (((2 * n + 1) * a + -1 * z) / Real.sqrt (4 * D * t)))

theorem slabSeries_eq (a D : ℝ) (N : ℕ) (z t : ℝ) : slabSeries a z D t N = ∑ n ∈ Finset.range N, slabImage a D n z t := by
  refine Finset.sum_congr rfl fun n _ => ?_
  unfold slabImage
  rw [one_mul, neg_one_mul, ← sub_eq_add_neg]

theorem slabImage_tsum (ha : 0 < a) (hD : 0 < D) :
    Diffuses 1 D (fun z t => ∑' n, slabImage a D n z t) ∧
      (∀ z t, 0 < t → Summable fun n => slabImage a D n z t) ∧
      ∀ t, 0 < t → HasDerivAt (fun z => ∑' n, slabImage a D n z t) 0 0 := by
  have hbound : ∀ R : ℝ, 0 < R → ∃ B : ℕ → ℝ, Summable B ∧ ∀ n y t, |y| < R → 1 / R < t → t < R →
      |slabImage a D n y t| ≤ B n ∧
      |(-1) ^ n * (-(1 / Real.sqrt (4 * D * t) * bell D ((2 * n + 1) * a) 1 y t) +
        -(-1 / Real.sqrt (4 * D * t) * bell D ((2 * n + 1) * a) (-1) y t))| ≤ B n ∧
      |(-1) ^ n * (1 / (2 * D * t) * (((2 * n + 1) * a + 1 * y) / Real.sqrt (4 * D * t)) * bell D ((2 * n + 1) * a) 1 y t +
        1 / (2 * D * t) * (((2 * n + 1) * a + -1 * y) / Real.sqrt (4 * D * t)) * bell D ((2 * n + 1) * a) (-1) y t)| ≤ B n := by
    intro R hR
    have hS0 : 0 < Real.sqrt (4 * D * (1 / R)) := Real.sqrt_pos.2 (by positivity)
    have hS1 : 0 < Real.sqrt (4 * D * R) := Real.sqrt_pos.2 (by positivity)
    obtain ⟨E, hE⟩ : ∃ E, E = 2 / Real.sqrt Real.pi * Real.exp (1 / 4) * Real.exp (R / Real.sqrt (4 * D * (1 / R))) := ⟨_, rfl⟩
    have hE0 : 0 < E := by rw [hE]; exact mul_pos (mul_pos erf_coeff_pos (Real.exp_pos _)) (Real.exp_pos _)
    refine ⟨fun n => 2 * E * (1 + 1 / Real.sqrt (4 * D * (1 / R)) + R / (2 * D) * ((a + R) / Real.sqrt (4 * D * (1 / R)))) *
      ((2 * (n : ℝ) + 1) * Real.exp (-(a / Real.sqrt (4 * D * R)) * (2 * (n : ℝ) + 1))), ?_, ?_⟩
    · refine Summable.mul_left _ ?_
      have h := (Real.summable_pow_mul_exp_neg_nat_mul 1 (show 0 < a / Real.sqrt (4 * D * R) by positivity)).comp_injective
        (i := fun n : ℕ => 2 * n + 1) (fun a b h => by simpa using h)
      refine h.congr fun n => ?_
      simp only [Function.comp]
      push_cast
      ring
    intro n y t hy ht1 ht2
    have ht0 : 0 < t := lt_trans (by positivity) ht1
    have hS : 0 < Real.sqrt (4 * D * t) := Real.sqrt_pos.2 (by positivity)
    have hSS : Real.sqrt (4 * D * (1 / R)) ≤ Real.sqrt (4 * D * t) := Real.sqrt_le_sqrt (by gcongr)
    obtain ⟨p1, p2, p3⟩ := bell_bounds ha hD hR (σ := 1) (by simp) n hy ht1 ht2
    obtain ⟨m1, m2, m3⟩ := bell_bounds ha hD hR (σ := -1) (by simp) n hy ht1 ht2
    rw [← hE] at p1 p2 m1 m2
    have q1 : 0 ≤ bell D ((2 * n + 1) * a) 1 y t := mul_nonneg erf_coeff_pos.le (Real.exp_pos _).le
    have q2 : 0 ≤ bell D ((2 * n + 1) * a) (-1) y t := mul_nonneg erf_coeff_pos.le (Real.exp_pos _).le
    have hn : (0 : ℝ) ≤ n := by positivity
    obtain ⟨X, hX⟩ : ∃ X, X = Real.exp (-(a / Real.sqrt (4 * D * R)) * (2 * (n : ℝ) + 1)) := ⟨_, rfl⟩
    beta_reduce
    rw [← hX] at p1 p2 m1 m2 ⊢
    have hX0 : 0 < X := by rw [hX]; exact Real.exp_pos _
    have hi : 1 / Real.sqrt (4 * D * t) ≤ 1 / Real.sqrt (4 * D * (1 / R)) := by gcongr
    have hi' : 1 / (2 * D * t) ≤ R / (2 * D) := by
      rw [div_le_div_iff₀ (by positivity) (by positivity)]
      have : 1 < R * t := by rwa [div_lt_iff₀' hR] at ht1
      nlinarith
    have hA : 0 ≤ R / (2 * D) * ((a + R) / Real.sqrt (4 * D * (1 / R))) := by positivity
    have hI : 0 < 1 / Real.sqrt (4 * D * (1 / R)) := by positivity
    have hEX : 0 < E * X := by positivity
    have hodd : (1 : ℝ) ≤ 2 * (n : ℝ) + 1 := by linarith
    refine ⟨?_, ?_, ?_⟩
    · unfold slabImage
      rw [abs_mul, abs_pow, abs_neg, abs_one, one_pow, one_mul]
      refine (sum_of_two (x := E * X) (y := E * X) (by rwa [abs_of_nonneg (erfcR_nonneg _)])
        (by rwa [abs_of_nonneg (erfcR_nonneg _)])).trans ?_
      have : E * X * 1 ≤ E * X * ((1 + 1 / Real.sqrt (4 * D * (1 / R)) +
          R / (2 * D) * ((a + R) / Real.sqrt (4 * D * (1 / R)))) * (2 * (n : ℝ) + 1)) := by
        gcongr
        exact one_le_mul_of_one_le_of_one_le (by linarith) hodd
      linarith
    · rw [abs_mul, abs_pow, abs_neg, abs_one, one_pow, one_mul]
      refine (sum_of_two (x := 1 / Real.sqrt (4 * D * (1 / R)) * (E * X)) (y := 1 / Real.sqrt (4 * D * (1 / R)) * (E * X))
        ?_ ?_).trans ?_
      · rw [abs_neg, abs_of_nonneg (by positivity)]
        gcongr
      · rw [neg_div, neg_mul, neg_neg, abs_of_nonneg (by positivity)]
        gcongr
      have : E * X * (1 / Real.sqrt (4 * D * (1 / R)) * 1) ≤ E * X * ((1 + 1 / Real.sqrt (4 * D * (1 / R)) +
          R / (2 * D) * ((a + R) / Real.sqrt (4 * D * (1 / R)))) * (2 * (n : ℝ) + 1)) := by
        gcongr
        linarith
      linarith
    · rw [abs_mul, abs_pow, abs_neg, abs_one, one_pow, one_mul]
      refine (sum_of_two (x := R / (2 * D) * ((2 * (n : ℝ) + 1) * ((a + R) / Real.sqrt (4 * D * (1 / R)))) * (E * X))
        (y := R / (2 * D) * ((2 * (n : ℝ) + 1) * ((a + R) / Real.sqrt (4 * D * (1 / R)))) * (E * X))
        ?_ ?_).trans ?_
      · rw [abs_mul, abs_mul, abs_of_nonneg q1, abs_of_pos (show 0 < 1 / (2 * D * t) by positivity)]
        gcongr
      · rw [abs_mul, abs_mul, abs_of_nonneg q2, abs_of_pos (show 0 < 1 / (2 * D * t) by positivity)]
        gcongr
      have : E * X * (R / (2 * D) * ((a + R) / Real.sqrt (4 * D * (1 / R))) * (2 * (n : ℝ) + 1)) ≤
          E * X * ((1 + 1 / Real.sqrt (4 * D * (1 / R)) +
          R / (2 * D) * ((a + R) / Real.sqrt (4 * D * (1 / R)))) * (2 * (n : ℝ) + 1)) := by
        gcongr
        linarith
      linarith
  have h := Diffuses.tsum (κ := D) (u := slabImage a D)
    (g := fun n y t => (-1) ^ n * (-(1 / Real.sqrt (4 * D * t) * bell D ((2 * n + 1) * a) 1 y t) +
        -(-1 / Real.sqrt (4 * D * t) * bell D ((2 * n + 1) * a) (-1) y t)))
    (c := fun n y t => (-1) ^ n * (1 / (2 * D * t) * (((2 * n + 1) * a + 1 * y) / Real.sqrt (4 * D * t)) * bell D ((2 * n + 1) * a) 1 y t +
        1 / (2 * D * t) * (((2 * n + 1) * a + -1 * y) / Real.sqrt (4 * D * t)) * bell D ((2 * n + 1) * a) (-1) y t))
    (fun n y t ht => (((erfc_derivs hD _ 1 y t (by norm_num) ht).1.fun_add
      (erfc_derivs hD _ (-1) y t (by norm_num) ht).1).const_mul _))
    (fun n y t ht => (((erfc_derivs hD _ 1 y t (by norm_num) ht).2.1.fun_add
      (erfc_derivs hD _ (-1) y t (by norm_num) ht).2.1).const_mul _))
    (fun n y t ht => (((erfc_derivs hD _ 1 y t (by norm_num) ht).2.2.fun_add
      (erfc_derivs hD _ (-1) y t (by norm_num) ht).2.2).const_mul _).congr_deriv (by ring)) hbound
  refine ⟨h.1, fun z t ht => ?_, fun t ht => ?_⟩
  · have hR : 0 < |z| + t + 1 / t + 1 := by positivity
    obtain ⟨B, hB, hb⟩ := hbound _ hR
    refine Summable.of_norm_bounded hB fun n => (hb n z t ?_ ?_ ?_).1
    · have : 0 < 1 / t := by positivity
      linarith
    · rw [div_lt_iff₀ hR]
      have : t * (1 / t) = 1 := by field_simp
      nlinarith [abs_nonneg z]
    · have : 0 < 1 / t := by positivity
      linarith [abs_nonneg z]
  · refine (h.2 0 t ht).congr_deriv ?_
    refine (tsum_congr fun n => ?_).trans tsum_zero
    unfold bell
    rw [mul_zero, mul_zero]
    ring

/-- The limit of `finite_slab_diffusion` solves the diffusion equation, without flow through the middle, with the wall held
exactly at its argument `Co` and the slab starting from its argument `Cs` (the documentation has the two exchanged, C71).
With `N` terms the result is off by at most the first omitted term. -/
theorem C84_diffusion_limit (cs c0 a D : ℝ) (ha : 0 < a) (hD : 0 < D) :
    ∃ U : ℝ → ℝ → ℝ,
      Diffuses 1 D U ∧ (∀ t, 0 < t → HasDerivAt (fun z => U z t) 0 0) ∧ (∀ t, 0 < t → U a t = c0) ∧
      (∀ z, |z| < a → Tendsto (U z) (𝓝[>] 0) (𝓝 cs)) ∧
      ∀ z t (N : ℕ), 0 < t → ∃ C : ℝ,
        finiteSlabDiffusion (concSI cs) (concSI c0) (lenSI a) (lenSI z) (diffSI D) (timeSI t) N = qMulti C c!"kg/m^3" ∧
        |U z t - C| ≤ |cs - c0| * ((1 - erf (((2 * N + 1) * a + z) / Real.sqrt (4 * D * t))) +
          (1 - erf (((2 * N + 1) * a - z) / Real.sqrt (4 * D * t)))) := by
  obtain ⟨h1, h2, h3⟩ := slabImage_tsum ha hD
  have hlim : ∀ z t, 0 < t → Tendsto (fun N => slabSeries a z D t N) atTop (𝓝 (∑' n, slabImage a D n z t)) := by
    intro z t ht
    simp only [slabSeries_eq]
    exact (h2 z t ht).hasSum.tendsto_sum_nat
  have hrest : ∀ z t (N : ℕ), 0 < t → |(cs - (cs - c0) * ∑' n, slabImage a D n z t) - (cs - (cs - c0) * slabSeries a z D t N)| ≤
      |cs - c0| * (erfcR (((2 * N + 1) * a + z) / Real.sqrt (4 * D * t)) +
        erfcR (((2 * N + 1) * a - z) / Real.sqrt (4 * D * t))) := by
    intro z t N ht
    rw [show cs - (cs - c0) * ∑' n, slabImage a D n z t - (cs - (cs - c0) * slabSeries a z D t N) =
      -((cs - c0) * (∑' n, slabImage a D n z t - slabSeries a z D t N)) by ring, abs_neg, abs_mul]
    refine mul_le_mul_of_nonneg_left (le_of_tendsto ((hlim z t ht).sub_const _).abs ?_) (abs_nonneg _)
    filter_upwards [eventually_ge_atTop N] with M hM
    exact slabSeries_tail ha.le hD ht hM
  refine ⟨fun z t => cs - (cs - c0) * ∑' n, slabImage a D n z t, ?_, fun t ht => ?_, fun t ht => ?_, fun z hz => ?_,
    fun z t N ht => ⟨_, C71_value cs c0 a z D t hD ht N, hrest z t N ht⟩⟩
  · have h := (Diffuses.const D cs).add (h1.smul (-(cs - c0)))
    refine cast (congrArg (Diffuses 1 D) ?_) h
    funext z t
    ring
  · simpa using ((h3 t ht).const_mul (cs - c0)).const_sub cs
  · have hw : Tendsto (fun N : ℕ => slabSeries a a D t N) atTop (𝓝 1) := by
      have hS : 0 < Real.sqrt (4 * D * t) := Real.sqrt_pos.2 (by positivity)
      have he : Tendsto (fun N : ℕ => erfcR (2 * N * a / Real.sqrt (4 * D * t))) atTop (𝓝 0) := by
        have : Tendsto (fun N : ℕ => 2 * (N : ℝ) * a / Real.sqrt (4 * D * t)) atTop atTop := by
          have hp : 0 < 2 * a / Real.sqrt (4 * D * t) := by positivity
          refine (tendsto_natCast_atTop_atTop.const_mul_atTop hp).congr fun N => ?_
          ring
        simpa [erfcR] using (erf_tendsto.comp this).const_sub 1
      have habs : Tendsto (fun N : ℕ => |slabSeries a a D t N - 1|) atTop (𝓝 0) := by
        refine he.congr fun N => ?_
        rw [slabSeries_wall, show ∀ x : ℝ, 1 - x - 1 = -x by intro x; ring, abs_neg, abs_mul, abs_pow, abs_neg, abs_one, one_pow,
          one_mul, abs_of_nonneg (erfcR_nonneg _)]
      have := (tendsto_zero_iff_abs_tendsto_zero _).2 habs
      simpa using this.add_const 1
    have := tendsto_nhds_unique (hlim a t ht) hw
    beta_reduce
    rw [this]; ring
  · obtain ⟨hz1, hz2⟩ := abs_lt.1 hz
    have hb : Tendsto (fun t => |cs - c0| * (erfcR ((a + z) / Real.sqrt (4 * D * t)) +
        erfcR ((a - z) / Real.sqrt (4 * D * t)))) (𝓝[>] 0) (𝓝 0) := by
      simpa using ((erfcR_tendsto hD (show 0 < a + z by linarith)).add (erfcR_tendsto hD (show 0 < a - z by linarith))).const_mul
        |cs - c0|
    rw [← tendsto_sub_nhds_zero_iff]
    refine squeeze_zero_norm' ?_ hb
    filter_upwards [self_mem_nhdsWithin] with t ht
    have := hrest z t 0 ht
    simpa [slabSeries] using this

end diffusionLimit

/-! ## Non-vacuity -/

/-- The example in the documentation of `finite_slab_conduction` asks for 100 iterations; the default of 3 gives the same
temperature to within 10⁻¹⁰ K. -/
example : ∃ T T' : ℝ,
    finiteSlabConduction (tempSI (6063 / 20)) (tempSI (7263 / 20)) (lenSI (1 / 50)) (lenSI (1 / 25)) (condSI (9 / 5))
      (densSI 1050) (cpSI 800) (timeSI 180) 3 = tempSI T ∧
    finiteSlabConduction (tempSI (6063 / 20)) (tempSI (7263 / 20)) (lenSI (1 / 50)) (lenSI (1 / 25)) (condSI (9 / 5))
      (densSI 1050) (cpSI 800) (timeSI 180) 100 = tempSI T' ∧ |T' - T| ≤ 1 / 10 ^ 10 := by
  obtain ⟨T, T', h1, h2, h3⟩ := C84_conduction_terms (6063 / 20) (7263 / 20) (1 / 50) (1 / 25) (9 / 5) 1050 800 180
    (N := 3) (M := 100) (by norm_num) (by norm_num) (by norm_num) (by norm_num) (by norm_num) (by norm_num) (by norm_num)
    (by norm_num)
  refine ⟨T, T', by exact_mod_cast h1, by exact_mod_cast h2, h3.trans ?_⟩
  have hpi := Real.pi_gt_three
  have hsin : (1 : ℝ) / 2 ≤ Real.sin (Real.pi / 2 * (1 / 50 / (1 / 25))) := by
    rw [show Real.pi / 2 * (1 / 50 / (1 / 25)) = Real.pi / 4 by ring, Real.sin_pi_div_four]
    have : (1 : ℝ) ≤ Real.sqrt 2 := by rw [Real.one_le_sqrt]; norm_num
    linarith
  have hexp : Real.exp (-((2 * ((3 : ℕ) : ℝ) + 3) * (Real.pi / 2)) ^ 2 * (9 / 5 / (1050 * 800) * 180 / (1 / 25) ^ 2)) ≤
      1 / 2 ^ 43 := by
    have h2 : (2 : ℝ) ^ 43 ≤ Real.exp 43 := by
      have h := Real.add_one_le_exp 1
      have := pow_le_pow_left₀ (by norm_num) (show (2 : ℝ) ≤ Real.exp 1 by linarith) 43
      rwa [← Real.exp_nat_mul, mul_one] at this
    rw [show ∀ p q : ℝ, -p ^ 2 * q = -(p ^ 2 * q) by intros; ring, Real.exp_neg, ← one_div]
    refine one_div_le_one_div_of_le (by positivity) (h2.trans (Real.exp_le_exp.2 ?_))
    norm_num
    nlinarith
  have hfrac : 8 / (Real.pi * (((3 : ℕ) : ℝ) + 1) * Real.sin (Real.pi / 2 * (1 / 50 / (1 / 25)))) ≤ 8 / 6 := by
    refine div_le_div_of_nonneg_left (by norm_num) (by norm_num) ?_
    push_cast
    nlinarith
  refine (mul_le_mul_of_nonneg_left (mul_le_mul hfrac hexp (Real.exp_pos _).le (by norm_num)) (abs_nonneg _)).trans ?_
  norm_num [abs_of_neg]

end Verif
