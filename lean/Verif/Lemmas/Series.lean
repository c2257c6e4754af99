import Mathlib.Analysis.Real.Pi.Leibniz
import Mathlib.Analysis.SpecialFunctions.Trigonometric.Deriv
import Mathlib.Analysis.Calculus.Deriv.MeanValue
import Mathlib.Analysis.Calculus.SmoothSeries

/-!
# Series: summation by parts, alternating series, the square wave
-/

namespace Verif

open Filter Topology

/-- A tail of an alternating series with decreasing terms is at most its first term. -/
theorem alternating_tail {b : ℕ → ℝ} (hb : Antitone b) (h0 : ∀ n, 0 ≤ b n) (N M : ℕ) :
    |∑ n ∈ Finset.Ico N M, (-1) ^ n * b n| ≤ b N := by
  rcases le_or_gt M N with h | h
  · rw [Finset.Ico_eq_empty (by omega)]; simpa using h0 N
  obtain ⟨k, rfl⟩ : ∃ k, M = N + k := ⟨M - N, by omega⟩
  have key : ∀ (k N : ℕ), 0 ≤ ∑ i ∈ Finset.range k, (-1 : ℝ) ^ i * b (N + i) ∧
      ∑ i ∈ Finset.range k, (-1 : ℝ) ^ i * b (N + i) ≤ b N := by
    intro k
    induction k with
    | zero => intro N; simpa using h0 N
    | succ k ih =>
      intro N
      rw [Finset.sum_range_succ']
      have e : ∑ i ∈ Finset.range k, (-1 : ℝ) ^ (i + 1) * b (N + (i + 1)) =
          -∑ i ∈ Finset.range k, (-1 : ℝ) ^ i * b (N + 1 + i) := by
        rw [← Finset.sum_neg_distrib]
        refine Finset.sum_congr rfl fun i _ => ?_
        rw [pow_succ, add_comm i 1, ← add_assoc]; ring
      rw [e]
      obtain ⟨h1, h2⟩ := ih (N + 1)
      have h3 := hb (Nat.le_succ N)
      simp only [Nat.succ_eq_add_one] at h3
      simp only [pow_zero, one_mul, add_zero]
      constructor <;> linarith
  rw [Finset.sum_Ico_eq_sum_range]
  have e : ∑ i ∈ Finset.range (N + k - N), (-1 : ℝ) ^ (N + i) * b (N + i) =
      (-1) ^ N * ∑ i ∈ Finset.range k, (-1 : ℝ) ^ i * b (N + i) := by
    rw [Nat.add_sub_cancel_left, Finset.mul_sum]
    refine Finset.sum_congr rfl fun i _ => ?_
    rw [pow_add]; ring
  rw [e, abs_mul, abs_pow, abs_neg, abs_one, one_pow, one_mul, abs_of_nonneg (key k N).1]
  exact (key k N).2

/-- Summation by parts: decreasing factors improve the rate at which a series converges. -/
theorem abel_tail {b e : ℕ → ℝ} (he : Antitone e) (h0 : ∀ n, 0 ≤ e n) {L r : ℝ} {N : ℕ}
    (hr : ∀ n, N ≤ n → |∑ i ∈ Finset.range n, b i - L| ≤ r) (M : ℕ) :
    |∑ n ∈ Finset.Ico N M, b n * e n| ≤ 2 * r * e N := by
  have hr0 : 0 ≤ r := (abs_nonneg _).trans (hr N le_rfl)
  rcases le_or_gt M N with h | h
  · rw [Finset.Ico_eq_empty (by omega)]
    simpa using mul_nonneg (mul_nonneg zero_le_two hr0) (h0 N)
  obtain ⟨k, rfl⟩ : ∃ k, M = N + k + 1 := ⟨M - N - 1, by omega⟩
  set R : ℕ → ℝ := fun n => ∑ i ∈ Finset.range n, b i - L with hR
  have hb : ∀ n, b n = R (n + 1) - R n := fun n => by simp only [hR, Finset.sum_range_succ]; ring
  have key : ∀ k, |∑ n ∈ Finset.Ico N (N + k + 1), b n * e n - R (N + k + 1) * e (N + k)| ≤ r * (2 * e N - e (N + k)) := by
    intro k
    induction k with
    | zero =>
      rw [add_zero, Finset.sum_Ico_succ_top le_rfl, Finset.Ico_self, Finset.sum_empty, hb,
        show 0 + (R (N + 1) - R N) * e N - R (N + 1) * e N = -(R N * e N) by ring, abs_neg, abs_mul, abs_of_nonneg (h0 N)]
      have := mul_le_mul_of_nonneg_right (hr N le_rfl) (h0 N)
      linarith
    | succ k ih =>
      rw [Finset.sum_Ico_succ_top (by omega), hb (N + (k + 1)), ← add_assoc]
      have e1 : ∑ n ∈ Finset.Ico N (N + k + 1), b n * e n + (R (N + k + 1 + 1) - R (N + k + 1)) * e (N + k + 1) -
          R (N + k + 1 + 1) * e (N + k + 1) = (∑ n ∈ Finset.Ico N (N + k + 1), b n * e n - R (N + k + 1) * e (N + k)) +
          R (N + k + 1) * (e (N + k) - e (N + k + 1)) := by ring
      rw [e1]
      have hm : 0 ≤ e (N + k) - e (N + k + 1) := sub_nonneg.2 (he (Nat.le_succ _))
      refine (abs_add_le _ _).trans ?_
      rw [abs_mul, abs_of_nonneg hm]
      have := mul_le_mul_of_nonneg_right (hr (N + k + 1) (by omega)) hm
      linarith
  have h1 := key k
  have h2 := mul_le_mul_of_nonneg_right (hr (N + k + 1) (by omega)) (h0 (N + k))
  rw [← abs_of_nonneg (h0 (N + k)), ← abs_mul, abs_of_nonneg (h0 (N + k))] at h2
  have h3 := abs_add_le (∑ n ∈ Finset.Ico N (N + k + 1), b n * e n - R (N + k + 1) * e (N + k)) (R (N + k + 1) * e (N + k))
  rw [sub_add_cancel] at h3
  have h4 : |R (N + k + 1) * e (N + k)| ≤ r * e (N + k) := h2
  linarith

/-! ## The square wave -/

/-- The Fourier series of the square wave, `N` terms. -/
noncomputable def oddSine (N : ℕ) (y : ℝ) : ℝ := ∑ n ∈ Finset.range N, Real.sin ((2 * (n : ℝ) + 1) * y) / (2 * (n : ℝ) + 1)

theorem sum_cos_odd (N : ℕ) (y : ℝ) :
    2 * Real.sin y * ∑ n ∈ Finset.range N, Real.cos ((2 * (n : ℝ) + 1) * y) = Real.sin (2 * N * y) := by
  induction N with
  | zero => simp
  | succ N ih =>
    rw [Finset.sum_range_succ, mul_add, ih]
    have h1 : 2 * ((N + 1 : ℕ) : ℝ) * y = (2 * (N : ℝ) + 1) * y + y := by push_cast; ring
    have h2 : 2 * (N : ℝ) * y = (2 * (N : ℝ) + 1) * y - y := by ring
    rw [h1, h2, Real.sin_add, Real.sin_sub]
    ring

theorem hasDerivAt_oddSine (N : ℕ) (y : ℝ) :
    HasDerivAt (oddSine N) (∑ n ∈ Finset.range N, Real.cos ((2 * (n : ℝ) + 1) * y)) y := by
  refine HasDerivAt.fun_sum fun n _ => ?_
  have hin : HasDerivAt (fun y : ℝ => (2 * (n : ℝ) + 1) * y) (2 * (n : ℝ) + 1) y := by
    simpa using (hasDerivAt_id y).const_mul (2 * (n : ℝ) + 1)
  have hm : 2 * (n : ℝ) + 1 ≠ 0 := by positivity
  refine (hin.sin.div_const _).congr_deriv ?_
  field_simp

theorem oddSine_pi_sub (N : ℕ) (y : ℝ) : oddSine N (Real.pi - y) = oddSine N y := by
  refine Finset.sum_congr rfl fun n _ => ?_
  congr 1
  have : (2 * (n : ℝ) + 1) * (Real.pi - y) = Real.pi - (2 * (n : ℝ) + 1) * y + (n : ℝ) * (2 * Real.pi) := by ring
  rw [this, Real.sin_add_nat_mul_two_pi, Real.sin_pi_sub]

/-- At the crest: Leibniz' series for π/4. -/
theorem oddSine_crest (N : ℕ) : |oddSine N (Real.pi / 2) - Real.pi / 4| ≤ 1 / (2 * N + 1) := by
  have hterm : ∀ n : ℕ, Real.sin ((2 * (n : ℝ) + 1) * (Real.pi / 2)) = (-1) ^ n := fun n => by
    rw [show (2 * (n : ℝ) + 1) * (Real.pi / 2) = Real.pi / 2 + (n : ℝ) * Real.pi by ring, Real.sin_add_nat_mul_pi]
    simp
  have hs : ∀ N, oddSine N (Real.pi / 2) = ∑ n ∈ Finset.range N, (-1 : ℝ) ^ n / (2 * n + 1) := fun N =>
    Finset.sum_congr rfl fun n _ => by rw [hterm]
  have hlim : Tendsto (fun M => |oddSine N (Real.pi / 2) - oddSine M (Real.pi / 2)|) atTop
      (𝓝 |oddSine N (Real.pi / 2) - Real.pi / 4|) := by
    simp only [hs]
    exact (Real.tendsto_sum_pi_div_four.const_sub _).abs
  refine le_of_tendsto hlim ?_
  filter_upwards [eventually_ge_atTop N] with M hM
  rw [abs_sub_comm, hs, hs, ← Finset.sum_range_add_sum_Ico _ hM, add_sub_cancel_left]
  have h := alternating_tail (b := fun n : ℕ => 1 / (2 * (n : ℝ) + 1)) (fun i j hij => by
    have : (i : ℝ) ≤ j := by exact_mod_cast hij
    exact one_div_le_one_div_of_le (by positivity) (by linarith)) (fun n => by positivity) N M
  simpa only [mul_one_div] using h

theorem oddSine_half {N : ℕ} (hN : 0 < N) {y : ℝ} (h0 : 0 < y) (h1 : y ≤ Real.pi / 2) :
    |oddSine N (Real.pi / 2) - oddSine N y| ≤ 1 / (2 * N * Real.sin y) := by
  have hN' : (0 : ℝ) < N := by exact_mod_cast hN
  have hsin : ∀ u ∈ Set.Icc y (Real.pi / 2), 0 < Real.sin u := fun u hu =>
    Real.sin_pos_of_pos_of_lt_pi (h0.trans_le hu.1) (by linarith [hu.2, Real.pi_pos])
  have hF : ∀ u ∈ Set.Icc y (Real.pi / 2), HasDerivAt (fun u => oddSine N u + Real.cos (2 * N * u) / (4 * N * Real.sin u))
      (-(Real.cos (2 * N * u) * Real.cos u / (4 * N * Real.sin u ^ 2))) u := by
    intro u hu
    have hs := hsin u hu
    have hc : HasDerivAt (fun u : ℝ => Real.cos (2 * N * u)) (-Real.sin (2 * N * u) * (2 * N)) u := by
      have : HasDerivAt (fun u : ℝ => 2 * N * u) (2 * (N : ℝ)) u := by
        simpa using (hasDerivAt_id u).const_mul (2 * (N : ℝ))
      exact this.cos
    have hd := (hasDerivAt_oddSine N u).fun_add
      (hc.fun_div ((Real.hasDerivAt_sin u).const_mul (4 * (N : ℝ))) (by positivity))
    refine hd.congr_deriv ?_
    have hsum := sum_cos_odd N u
    have hsum' : ∑ n ∈ Finset.range N, Real.cos ((2 * (n : ℝ) + 1) * u) = Real.sin (2 * N * u) / (2 * Real.sin u) := by
      rw [eq_div_iff (by positivity)]; linear_combination hsum
    rw [hsum']
    field_simp
    ring
  have hG : ∀ u ∈ Set.Icc y (Real.pi / 2), HasDerivAt (fun u => -(1 / (4 * N * Real.sin u)))
      (Real.cos u / (4 * N * Real.sin u ^ 2)) u := by
    intro u hu
    have hs := hsin u hu
    have h := ((Real.hasDerivAt_sin u).const_mul (4 * (N : ℝ))).fun_inv (by positivity)
    simp only [one_div]
    refine h.fun_neg.congr_deriv ?_
    field_simp
  have hcos : ∀ u ∈ Set.Icc y (Real.pi / 2), 0 ≤ Real.cos u := fun u hu =>
    Real.cos_nonneg_of_mem_Icc ⟨by linarith [hu.1, Real.pi_pos], hu.2⟩
  have hb := image_norm_le_of_norm_deriv_right_le_deriv_boundary' (a := y) (b := Real.pi / 2)
    (f := fun u => (oddSine N u + Real.cos (2 * N * u) / (4 * N * Real.sin u)) -
      (oddSine N y + Real.cos (2 * N * y) / (4 * N * Real.sin y)))
    (f' := fun u => -(Real.cos (2 * N * u) * Real.cos u / (4 * N * Real.sin u ^ 2)))
    (B := fun u => -(1 / (4 * N * Real.sin u)) - -(1 / (4 * N * Real.sin y)))
    (B' := fun u => Real.cos u / (4 * N * Real.sin u ^ 2))
    (fun u hu => ((hF u hu).sub_const _).continuousAt.continuousWithinAt)
    (fun u hu => ((hF u (Set.Ico_subset_Icc_self hu)).sub_const _).hasDerivWithinAt)
    (by simp) (fun u hu => ((hG u hu).sub_const _).continuousAt.continuousWithinAt)
    (fun u hu => ((hG u (Set.Ico_subset_Icc_self hu)).sub_const _).hasDerivWithinAt)
    (fun u hu => by
      have hs := hsin u (Set.Ico_subset_Icc_self hu)
      have hcu := hcos u (Set.Ico_subset_Icc_self hu)
      rw [norm_neg, Real.norm_eq_abs, abs_div, abs_mul, abs_of_nonneg hcu,
        abs_of_pos (show (0 : ℝ) < 4 * N * Real.sin u ^ 2 by positivity)]
      gcongr
      exact mul_le_of_le_one_left hcu (Real.abs_cos_le_one _))
    (Set.right_mem_Icc.2 h1)
  rw [Real.norm_eq_abs, Real.sin_pi_div_two] at hb
  have hsy := hsin y (Set.left_mem_Icc.2 h1)
  have a1 : |Real.cos (2 * N * (Real.pi / 2)) / (4 * N * 1)| ≤ 1 / (4 * N) := by
    rw [abs_div, mul_one, abs_of_pos (show (0 : ℝ) < 4 * N by positivity)]
    gcongr
    exact Real.abs_cos_le_one _
  have a2 : |Real.cos (2 * N * y) / (4 * N * Real.sin y)| ≤ 1 / (4 * N * Real.sin y) := by
    rw [abs_div, abs_of_pos (show (0 : ℝ) < 4 * N * Real.sin y by positivity)]
    gcongr
    exact Real.abs_cos_le_one _
  have e : 1 / (2 * N * Real.sin y) = 1 / (4 * N * Real.sin y) + 1 / (4 * N * Real.sin y) := by field_simp; norm_num
  rw [e, abs_le]
  rw [mul_one] at hb a1
  obtain ⟨b1, b2⟩ := abs_le.1 hb
  obtain ⟨c1, c2⟩ := abs_le.1 a1
  obtain ⟨d1, d2⟩ := abs_le.1 a2
  constructor <;> linarith

/-- The square wave is reached at the rate `1/N`. -/
theorem oddSine_rate {N : ℕ} (hN : 0 < N) {y : ℝ} (h0 : 0 < y) (h1 : y < Real.pi) :
    |oddSine N y - Real.pi / 4| ≤ 1 / (N * Real.sin y) := by
  have hN' : (0 : ℝ) < N := by exact_mod_cast hN
  have hs := Real.sin_pos_of_pos_of_lt_pi h0 h1
  have key : ∀ y, 0 < y → y ≤ Real.pi / 2 → |oddSine N y - Real.pi / 4| ≤ 1 / (N * Real.sin y) := by
    intro y h0 h1
    have hs := Real.sin_pos_of_pos_of_lt_pi h0 (by linarith [Real.pi_pos])
    have a := oddSine_half hN h0 h1
    have b := oddSine_crest N
    have c : (1 : ℝ) / (2 * N + 1) ≤ 1 / (2 * N * Real.sin y) := by
      refine one_div_le_one_div_of_le (by positivity) ?_
      nlinarith [Real.sin_le_one y]
    have e : 1 / (N * Real.sin y) = 1 / (2 * N * Real.sin y) + 1 / (2 * N * Real.sin y) := by field_simp; norm_num
    rw [e]
    have h := abs_sub_le (oddSine N y) (oddSine N (Real.pi / 2)) (Real.pi / 4)
    rw [abs_sub_comm] at a
    linarith
  rcases le_total y (Real.pi / 2) with h | h
  · exact key y h0 h
  · have := key (Real.pi - y) (by linarith) (by linarith)
    rwa [oddSine_pi_sub, Real.sin_pi_sub] at this

end Verif
