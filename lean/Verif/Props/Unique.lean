import Verif.Lemmas.MaxPrinciple
import Verif.Lemmas.FloatMath
import Verif.Props.SeriesLimit

/-!
# C87: the transient formulas give the only solution

`Verif/Spec/Histories.lean` states the physical problems as conditions on an unknown field.  Each has exactly one solution,
and it is the one that the library computes.
-/

namespace Verif

open Filter Topology

/-! ## The fields of the formulas are histories -/

theorem Diffuses.at {κ : ℝ} {u : ℝ → ℝ → ℝ} (h : Diffuses 1 κ u) (x : ℝ) {t : ℝ} (ht : 0 < t) : DiffusesAt κ u x t := by
  obtain ⟨g, c, h1, h2, h3⟩ := h x t ht (.inl rfl)
  refine ⟨g, c, .of_forall h1, h2, h3.congr_deriv ?_⟩
  rw [sub_self, zero_div, zero_mul, add_zero]

theorem continuous_erf : Continuous erf := continuous_iff_continuousAt.2 fun x => (hasDerivAt_erf x).continuousAt

theorem abs_erf_le (x : ℝ) : |erf x| ≤ 1 :=
  abs_le.2 ⟨by have := erf_le_one (-x); rw [erf_neg] at this; linarith, erf_le_one x⟩

theorem erfcR_le_two (x : ℝ) : erfcR x ≤ 2 := by
  have := (abs_le.1 (abs_erf_le x)).1
  unfold erfcR; linarith

theorem erf_line_continuous {κ : ℝ} (hκ : 0 < κ) (b σ : ℝ) (S : Set ℝ) :
    ContinuousOn (fun p : ℝ × ℝ => erf ((b + σ * p.1) / Real.sqrt (4 * κ * p.2))) (S ×ˢ Set.Ioi 0) := by
  refine continuous_erf.comp_continuousOn (ContinuousOn.div (by fun_prop) (by fun_prop) ?_)
  rintro ⟨x, t⟩ ⟨_, ht⟩
  have ht' : 0 < t := ht
  exact (Real.sqrt_pos.2 (by simp only; positivity)).ne'

/-- `erf ((b + σ x)/√(4 κ t))` tends to 1 at all places with `b + σ x > 0`, also when the place varies. -/
theorem erf_line_start {κ : ℝ} (hκ : 0 < κ) (b σ : ℝ) {x : ℝ} (hx : 0 < b + σ * x) :
    Tendsto (fun p : ℝ × ℝ => erf ((b + σ * p.1) / Real.sqrt (4 * κ * p.2))) (𝓝 x ×ˢ 𝓝[>] 0) (𝓝 1) := by
  refine erf_tendsto.comp ?_
  have h1 : Tendsto (fun t : ℝ => Real.sqrt (4 * κ * t)) (𝓝[>] 0) (𝓝[>] 0) := by
    refine tendsto_nhdsWithin_iff.2 ⟨?_, ?_⟩
    · have : Continuous fun t : ℝ => Real.sqrt (4 * κ * t) := by fun_prop
      have h := this.tendsto 0
      simp only [mul_zero, Real.sqrt_zero] at h
      exact h.mono_left nhdsWithin_le_nhds
    · filter_upwards [self_mem_nhdsWithin] with t ht
      exact Real.sqrt_pos.2 (by have : 0 < t := ht; positivity)
  have h2 : Tendsto (fun p : ℝ × ℝ => b + σ * p.1) (𝓝 x ×ˢ 𝓝[>] 0) (𝓝 (b + σ * x)) := by
    have : Continuous fun y : ℝ => b + σ * y := by fun_prop
    exact (this.tendsto x).comp tendsto_fst
  have h3 := h2.pos_mul_atTop hx (h1.inv_tendsto_nhdsGT_zero.comp tendsto_snd)
  exact h3.congr fun p => by simp [div_eq_mul_inv]

/-- The field of the semi-infinite formulas. -/
noncomputable def halfField (κ us u0 x t : ℝ) : ℝ := us - (us - u0) * erf (x / Real.sqrt (4 * κ * t))

theorem halfField_history {κ : ℝ} (hκ : 0 < κ) (us u0 : ℝ) : HalfSpaceHistory κ us u0 (halfField κ us u0) where
  bounded := ⟨|us| + |us - u0|, fun x _ t _ => by
    unfold halfField
    refine (abs_sub _ _).trans (add_le_add le_rfl ?_)
    rw [abs_mul]
    exact mul_le_of_le_one_right (abs_nonneg _) (abs_erf_le _)⟩
  continuous := by
    have h := (continuousOn_const (c := us)).sub ((continuousOn_const (c := us - u0)).mul (erf_line_continuous hκ 0 1 (Set.Ici 0)))
    simp only [zero_add, one_mul] at h
    exact h
  diffuses := fun x _ t ht => (semiInfinite_field hκ us u0).1.at x ht
  surface := fun x hx t _ => by
    obtain rfl : x = 0 := hx
    simp [halfField, erf_zero]
  start := fun x hx => by
    have hx0 : 0 < x := lt_of_le_of_ne hx.1 (Ne.symm hx.2)
    have h := ((erf_line_start hκ 0 1 (x := x) (by linarith)).const_mul (us - u0)).const_sub us
    simp only [zero_add, one_mul, mul_one, sub_sub_cancel] at h
    exact h

theorem abs_sin_odd_le (n : ℕ) (θ : ℝ) : |Real.sin ((2 * (n : ℝ) + 1) * θ)| ≤ (2 * (n : ℝ) + 1) * |Real.sin θ| := by
  have key : ∀ m : ℕ, |Real.sin (m * θ)| ≤ m * |Real.sin θ| := by
    intro m
    induction m with
    | zero => simp
    | succ m ih =>
      push_cast
      rw [add_mul, one_mul, Real.sin_add]
      refine (abs_add_le _ _).trans ?_
      rw [abs_mul, abs_mul, add_mul, one_mul]
      refine add_le_add ?_ ?_
      · exact (mul_le_of_le_one_right (abs_nonneg _) (Real.abs_cos_le_one _)).trans ih
      · exact mul_le_of_le_one_left (abs_nonneg _) (Real.abs_cos_le_one _)
  have := key (2 * n + 1)
  push_cast at this
  exact this

section slab

variable {s κ : ℝ}

theorem slabMode_sum_bounded (hs : 0 < s) (hκ : 0 < κ) {x : ℝ} (hx : 0 ≤ x) (hx2 : x ≤ 2 * s) {t : ℝ} (ht : 0 < t) :
    |∑' n, slabMode s κ n x t| ≤ 4 := by
  have hpi := Real.pi_pos
  have harg : ∀ n : ℕ, (2 * (n : ℝ) + 1) * Real.pi / (2 * s) * x = (2 * (n : ℝ) + 1) * (Real.pi / 2 * (x / s)) := fun n => by
    field_simp
  have hone : ∀ n, |slabMode s κ n x t| ≤ |Real.sin (Real.pi / 2 * (x / s))| := by
    intro n
    unfold slabMode
    rw [harg, abs_mul, abs_mul, Real.abs_exp, abs_of_pos (show (0 : ℝ) < 1 / (2 * (n : ℝ) + 1) by positivity)]
    have h1 := abs_sin_odd_le n (Real.pi / 2 * (x / s))
    have h2 : Real.exp (-(((2 * (n : ℝ) + 1) * Real.pi / (2 * s)) ^ 2 * (κ * t))) ≤ 1 :=
      Real.exp_le_one_iff.2 (neg_nonpos.2 (by positivity))
    rw [one_div_mul_eq_div, div_le_iff₀ (by positivity), mul_comm |Real.sin (Real.pi / 2 * (x / s))|]
    exact (mul_le_of_le_one_right (abs_nonneg _) h2).trans h1
  rcases hx.eq_or_lt with rfl | hx0
  · simp [slabMode]
  rcases hx2.eq_or_lt with rfl | hx2'
  · have : ∀ n, slabMode s κ n (2 * s) t = 0 := fun n => by
      have := hone n
      rw [show Real.pi / 2 * (2 * s / s) = Real.pi by field_simp, Real.sin_pi, abs_zero] at this
      exact abs_eq_zero.1 (le_antisymm this (abs_nonneg _))
    simp [this]
  have h0 : 0 < Real.pi / 2 * (x / s) := by positivity
  have h1 : Real.pi / 2 * (x / s) < Real.pi := by
    have : x / s < 2 := by rw [div_lt_iff₀ hs]; exact hx2'
    nlinarith
  have hsin := Real.sin_pos_of_pos_of_lt_pi h0 h1
  have hsin1 := Real.sin_le_one (Real.pi / 2 * (x / s))
  set σ := Real.sin (Real.pi / 2 * (x / s)) with hσ
  set N := ⌊1 / σ⌋₊ with hN
  have hN1 : (N : ℝ) * σ ≤ 1 := by
    have := Nat.floor_le (show 0 ≤ 1 / σ by positivity)
    rw [le_div_iff₀ hsin] at this
    exact this
  have hN2 : 1 ≤ ((N : ℝ) + 1) * σ := by
    have := Nat.lt_floor_add_one (1 / σ)
    rw [div_lt_iff₀ hsin] at this
    exact this.le
  refine le_of_tendsto ((slabMode_summable hs hκ x ht).hasSum.tendsto_sum_nat).abs ?_
  filter_upwards [eventually_ge_atTop (N + 1)] with M hM
  rw [← Finset.sum_range_add_sum_Ico _ hM]
  refine (abs_add_le _ _).trans ?_
  have hA : |∑ n ∈ Finset.range (N + 1), slabMode s κ n x t| ≤ 2 := by
    refine (Finset.abs_sum_le_sum_abs _ _).trans ((Finset.sum_le_sum fun n _ => hone n).trans ?_)
    rw [Finset.sum_const, Finset.card_range, nsmul_eq_mul, abs_of_pos hsin]
    push_cast
    linarith
  have hB : |∑ n ∈ Finset.Ico (N + 1) M, slabMode s κ n x t| ≤ 2 := by
    refine (slabMode_tail hs hκ.le hx0 hx2' ht.le N M).trans ?_
    have h2 : Real.exp (-((2 * (N : ℝ) + 3) * (Real.pi / 2)) ^ 2 * (κ * t / s ^ 2)) ≤ 1 := by
      refine Real.exp_le_one_iff.2 ?_
      have : 0 ≤ ((2 * (N : ℝ) + 3) * (Real.pi / 2)) ^ 2 * (κ * t / s ^ 2) := by positivity
      linarith
    have h3 : 1 / (((N : ℝ) + 1) * σ) ≤ 1 := by rw [div_le_one (by positivity)]; exact hN2
    have h4 : 0 ≤ 1 / (((N : ℝ) + 1) * σ) := by positivity
    calc _ ≤ 2 * 1 * (1 : ℝ) := by gcongr
      _ = 2 := by norm_num
  linarith

theorem slabExact_history (hs : 0 < s) (hκ : 0 < κ) (ts t0 : ℝ) :
    SlabHistory 0 (2 * s) κ ts t0 (fun x t => slabExact ts t0 s κ x t) where
  bounded := ⟨|ts| + |(ts - t0) * (4 / Real.pi)| * 4, fun x hx t ht => by
    unfold slabExact
    refine (abs_sub _ _).trans (add_le_add le_rfl ?_)
    rw [abs_mul ((ts - t0) * (4 / Real.pi))]
    exact mul_le_mul_of_nonneg_left (slabMode_sum_bounded hs hκ hx.1 hx.2 ht) (abs_nonneg _)⟩
  continuous := by
    rintro ⟨x, t⟩ ⟨_, ht⟩
    have ht' : 0 < t := ht
    refine ContinuousAt.continuousWithinAt ?_
    have hnhds : (Set.univ : Set ℝ) ×ˢ Set.Ioi (t / 2) ∈ 𝓝 (x, t) :=
      prod_mem_nhds univ_mem (Ioi_mem_nhds (half_lt_self ht'))
    have hsum : ContinuousOn (fun p : ℝ × ℝ => ∑' n, slabMode s κ n p.1 p.2) ((Set.univ : Set ℝ) ×ˢ Set.Ioi (t / 2)) := by
      refine continuousOn_tsum (fun n => ?_) (summable_modes hs hκ 0 (half_pos ht')) (fun n p hp => ?_)
      · unfold slabMode; fun_prop
      · refine (slabMode_le n p.1 p.2).trans ?_
        have : t / 2 ≤ p.2 := le_of_lt hp.2
        gcongr
    have h := hsum.continuousAt hnhds
    exact continuousAt_const.sub (continuousAt_const.mul h)
  diffuses := fun x _ t ht => (slabExact_diffuses ts t0 hs hκ).at x ht
  surface := fun x hx t _ => by
    rcases hx with rfl | rfl
    · simp [slabExact, slabMode]
    · have : ∀ n : ℕ, Real.sin ((2 * (n : ℝ) + 1) * Real.pi / (2 * s) * (2 * s)) = 0 := fun n => by
        have h := Real.sin_nat_mul_pi (2 * n + 1)
        push_cast at h
        rw [div_mul_cancel₀ _ (by positivity)]
        exact h
      simp [slabExact, slabMode, this]
  start := fun x hx => by
    have hx1 : 0 < x := lt_of_le_of_ne hx.1.1 fun h => hx.2 (by simp [← h])
    have hx2 : x < 2 * s := lt_of_le_of_ne hx.1.2 fun h => hx.2 (by simp [h])
    have hpi := Real.pi_pos
    rw [Metric.tendsto_nhds]
    intro ε hε
    have hrest : Tendsto (fun N => |ts - t0| * slabRest N (x / s) 0) atTop (𝓝 0) := by
      simpa using (slabRest_tendsto (x / s)).const_mul |ts - t0|
    obtain ⟨N, hN⟩ := (hrest.eventually (gt_mem_nhds (show (0 : ℝ) < ε / 3 by positivity))).exists
    have hcont : Tendsto (fun p : ℝ × ℝ => slabField ts t0 s κ N p.1 p.2) (𝓝 x ×ˢ 𝓝[>] 0) (𝓝 (slabField ts t0 s κ N x 0)) := by
      have : Continuous fun p : ℝ × ℝ => slabField ts t0 s κ N p.1 p.2 := by unfold slabField; fun_prop
      have h := this.tendsto (x, 0)
      rw [nhds_prod_eq] at h
      exact h.mono_left (Filter.prod_mono le_rfl nhdsWithin_le_nhds)
    have hrc : Tendsto (fun y => |ts - t0| * slabRest N (y / s) 0) (𝓝 x) (𝓝 (|ts - t0| * slabRest N (x / s) 0)) := by
      have hsin : Real.sin (Real.pi / 2 * (x / s)) ≠ 0 := by
        refine (Real.sin_pos_of_pos_of_lt_pi (by positivity) ?_).ne'
        have : x / s < 2 := by rw [div_lt_iff₀ hs]; exact hx2
        nlinarith
      have : ContinuousAt (fun y => |ts - t0| * slabRest N (y / s) 0) x := by
        unfold slabRest
        refine continuousAt_const.mul (ContinuousAt.mul (ContinuousAt.div continuousAt_const (by fun_prop) ?_) continuousAt_const)
        positivity
      exact this
    have hin : ∀ᶠ y in 𝓝 x, 0 < y ∧ y < 2 * s := Ioo_mem_nhds hx1 hx2
    filter_upwards [Metric.tendsto_nhds.1 hcont (ε / 3) (by positivity),
      (tendsto_fst (f := 𝓝 x) (g := 𝓝[>] (0 : ℝ))).eventually (hrc.eventually (gt_mem_nhds hN)),
      (tendsto_fst (f := 𝓝 x) (g := 𝓝[>] (0 : ℝ))).eventually hin,
      (tendsto_snd (f := 𝓝 x) (g := 𝓝[>] (0 : ℝ))).eventually self_mem_nhdsWithin] with p h1 h7 h8 ht
    have ht' : 0 < p.2 := ht
    have h2 := slabExact_rest ts t0 hs hκ h8.1 h8.2 ht' N
    have h3 := slabField_zero ts t0 (κ := κ) hs hx1 hx2 N
    have h4 := mul_le_mul_of_nonneg_left (slabRest_le N (ξ := p.1 / s) (div_pos h8.1 hs)
      (by rw [div_lt_iff₀ hs]; exact h8.2) (show 0 ≤ κ * p.2 / s ^ 2 by positivity)) (abs_nonneg (ts - t0))
    rw [Real.dist_eq] at h1 ⊢
    have h5 := abs_sub_le (slabExact ts t0 s κ p.1 p.2) (slabField ts t0 s κ N p.1 p.2) t0
    have h6 := abs_sub_le (slabField ts t0 s κ N p.1 p.2) (slabField ts t0 s κ N x 0) t0
    linarith

end slab

section image

variable {a D : ℝ}

theorem slabImage_limit (ha : 0 < a) (hD : 0 < D) (z : ℝ) {t : ℝ} (ht : 0 < t) :
    Tendsto (fun N => slabSeries a z D t N) atTop (𝓝 (∑' n, slabImage a D n z t)) := by
  simp only [slabSeries_eq]
  exact ((slabImage_tsum ha hD).2.1 z t ht).hasSum.tendsto_sum_nat

theorem slabImage_rest (ha : 0 < a) (hD : 0 < D) (z : ℝ) {t : ℝ} (ht : 0 < t) (N : ℕ) :
    |∑' n, slabImage a D n z t - slabSeries a z D t N| ≤
      erfcR (((2 * N + 1) * a + z) / Real.sqrt (4 * D * t)) + erfcR (((2 * N + 1) * a - z) / Real.sqrt (4 * D * t)) := by
  refine le_of_tendsto ((slabImage_limit ha hD z ht).sub_const _).abs ?_
  filter_upwards [eventually_ge_atTop N] with M hM
  exact slabSeries_tail ha.le hD ht hM

theorem slabImage_even (n : ℕ) (z t : ℝ) : slabImage a D n (-z) t = slabImage a D n z t := by
  unfold slabImage
  rw [add_comm (erfcR _)]
  congr 4 <;> ring

theorem slabImage_wall (ha : 0 < a) (hD : 0 < D) {t : ℝ} (ht : 0 < t) : ∑' n, slabImage a D n a t = 1 := by
  refine tendsto_nhds_unique (slabImage_limit ha hD a ht) ?_
  have hS : 0 < Real.sqrt (4 * D * t) := Real.sqrt_pos.2 (by positivity)
  have he : Tendsto (fun N : ℕ => erfcR (2 * N * a / Real.sqrt (4 * D * t))) atTop (𝓝 0) := by
    have : Tendsto (fun N : ℕ => 2 * (N : ℝ) * a / Real.sqrt (4 * D * t)) atTop atTop := by
      have hp : 0 < 2 * a / Real.sqrt (4 * D * t) := by positivity
      refine (tendsto_natCast_atTop_atTop.const_mul_atTop hp).congr fun N => ?_
      ring
    simpa [erfcR] using (erf_tendsto.comp this).const_sub 1
  have habs : Tendsto (fun N : ℕ => |slabSeries a a D t N - 1|) atTop (𝓝 0) := by
    refine he.congr fun N => ?_
    rw [slabSeries_wall, show ∀ x : ℝ, 1 - x - 1 = -x by intro x; ring, abs_neg, abs_mul, abs_pow, abs_neg, abs_one, one_pow,
      one_mul, abs_of_nonneg (erfcR_nonneg _)]
  have := (tendsto_zero_iff_abs_tendsto_zero _).2 habs
  simpa using this.add_const 1

/-- The limit of `finite_slab_diffusion`. -/
noncomputable def imageField (cs c0 a D z t : ℝ) : ℝ := cs - (cs - c0) * ∑' n, slabImage a D n z t

theorem imageField_history (ha : 0 < a) (hD : 0 < D) (cs c0 : ℝ) :
    SlabHistory (-a) a D c0 cs (fun z t => imageField cs c0 a D z t) where
  bounded := ⟨|cs| + |cs - c0| * 4, fun z _ t ht => by
    unfold imageField
    refine (abs_sub _ _).trans (add_le_add le_rfl ?_)
    rw [abs_mul]
    refine mul_le_mul_of_nonneg_left ?_ (abs_nonneg _)
    have := slabImage_rest ha hD z ht 0
    rw [slabSeries, Finset.sum_range_zero, sub_zero] at this
    refine this.trans ?_
    have h1 := erfcR_le_two (((2 * ((0 : ℕ) : ℝ) + 1) * a + z) / Real.sqrt (4 * D * t))
    have h2 := erfcR_le_two (((2 * ((0 : ℕ) : ℝ) + 1) * a - z) / Real.sqrt (4 * D * t))
    linarith⟩
  continuous := by
    rintro ⟨z, t⟩ ⟨_, ht⟩
    have ht' : 0 < t := ht
    refine ContinuousAt.continuousWithinAt ?_
    set R := |z| + t + 1 / t + 1 with hR
    have hinv : 0 < 1 / t := by positivity
    have hR0 : 0 < R := by positivity
    have ht1 : 1 / R < t := by
      rw [div_lt_iff₀ hR0, hR]
      have : t * (1 / t) = 1 := by field_simp
      nlinarith [abs_nonneg z]
    have ht2 : t < R := by have := abs_nonneg z; linarith
    have hz : |z| < R := by linarith
    have hnhds : {y : ℝ | |y| < R} ×ˢ Set.Ioo (1 / R) R ∈ 𝓝 (z, t) :=
      prod_mem_nhds ((isOpen_lt continuous_abs continuous_const).mem_nhds hz) (Ioo_mem_nhds ht1 ht2)
    set C := 2 / Real.sqrt Real.pi * Real.exp (1 / 4) * Real.exp (R / Real.sqrt (4 * D * (1 / R))) with hC
    have hc : 0 < a / Real.sqrt (4 * D * R) := div_pos ha (Real.sqrt_pos.2 (by positivity))
    have hB : Summable fun n : ℕ => 2 * (C * Real.exp (-(a / Real.sqrt (4 * D * R)) * (2 * (n : ℝ) + 1))) := by
      have h := (Real.summable_pow_mul_exp_neg_nat_mul 0 hc).comp_injective
        (i := fun n : ℕ => 2 * n + 1) (fun a b h => by simpa using h)
      refine (h.mul_left (2 * C)).congr fun n => ?_
      simp only [Function.comp, pow_zero, one_mul]
      push_cast
      ring
    have hsum : ContinuousOn (fun p : ℝ × ℝ => ∑' n, slabImage a D n p.1 p.2) ({y : ℝ | |y| < R} ×ˢ Set.Ioo (1 / R) R) := by
      refine continuousOn_tsum (fun n => ?_) hB (fun n p hp => ?_)
      · have hsub : {y : ℝ | |y| < R} ×ˢ Set.Ioo (1 / R) R ⊆ {y : ℝ | |y| < R} ×ˢ Set.Ioi 0 :=
          Set.prod_mono le_rfl fun τ hτ => lt_trans (by positivity) hτ.1
        unfold slabImage erfcR
        exact continuousOn_const.mul ((continuousOn_const.sub ((erf_line_continuous hD _ 1 _).mono hsub)).add
          (continuousOn_const.sub ((erf_line_continuous hD _ (-1) _).mono hsub)))
      · have h1 := (bell_bounds ha hD hR0 (σ := 1) (by simp) n hp.1 hp.2.1 hp.2.2).1
        have h2 := (bell_bounds ha hD hR0 (σ := -1) (by simp) n hp.1 hp.2.1 hp.2.2).1
        rw [slabImage, Real.norm_eq_abs, abs_mul, abs_pow, abs_neg, abs_one, one_pow, one_mul,
          abs_of_nonneg (add_nonneg (erfcR_nonneg _) (erfcR_nonneg _))]
        linarith
    have h := hsum.continuousAt hnhds
    exact continuousAt_const.sub (continuousAt_const.mul h)
  diffuses := fun z _ t ht => by
    have h := (Diffuses.const D cs).add ((slabImage_tsum ha hD).1.smul (-(cs - c0)))
    have e : (fun z t => imageField cs c0 a D z t) = fun z t => cs + -(cs - c0) * ∑' n, slabImage a D n z t := by
      funext z t; unfold imageField; ring
    rw [e]
    exact h.at z ht
  surface := fun z hz t ht => by
    have h : ∑' n, slabImage a D n z t = 1 := by
      rcases hz with rfl | rfl
      · simp only [slabImage_even]
        exact slabImage_wall ha hD ht
      · exact slabImage_wall ha hD ht
    unfold imageField
    rw [h]; ring
  start := fun z hz => by
    have hz1 : -a < z := lt_of_le_of_ne hz.1.1 fun h => hz.2 (by simp [← h])
    have hz2 : z < a := lt_of_le_of_ne hz.1.2 fun h => hz.2 (by simp [h])
    have h1 := (erf_line_start hD a 1 (x := z) (by linarith)).const_sub 1
    have h2 := (erf_line_start hD a (-1) (x := z) (by linarith)).const_sub 1
    have hb : Tendsto (fun p : ℝ × ℝ => |cs - c0| * (erfcR ((a + 1 * p.1) / Real.sqrt (4 * D * p.2)) +
        erfcR ((a + -1 * p.1) / Real.sqrt (4 * D * p.2)))) (𝓝 z ×ˢ 𝓝[>] 0) (𝓝 0) := by
      have := (h1.add h2).const_mul |cs - c0|
      simp only [sub_self, add_zero, mul_zero] at this
      exact this
    rw [← tendsto_sub_nhds_zero_iff]
    refine squeeze_zero_norm' ?_ hb
    filter_upwards [(tendsto_snd (f := 𝓝 z) (g := 𝓝[>] (0 : ℝ))).eventually self_mem_nhdsWithin] with p ht
    have := slabImage_rest ha hD p.1 (show 0 < p.2 from ht) 0
    rw [slabSeries, Finset.sum_range_zero, sub_zero, Nat.cast_zero, mul_zero, zero_add, one_mul] at this
    rw [imageField, Real.norm_eq_abs, show ∀ y : ℝ, cs - (cs - c0) * y - cs = -((cs - c0) * y) by intro y; ring, abs_neg, abs_mul,
      one_mul, neg_one_mul, ← sub_eq_add_neg]
    exact mul_le_mul_of_nonneg_left this (abs_nonneg _)

end image

/-! ## Comparison -/

theorem History.neg {region wall : Set ℝ} {κ us u0 : ℝ} {u : ℝ → ℝ → ℝ} (h : History region wall κ us u0 u) :
    History region wall κ (-us) (-u0) (fun x t => -1 * u x t) where
  bounded := by
    obtain ⟨M, hM⟩ := h.bounded
    exact ⟨M, fun x hx t ht => by rw [neg_one_mul, abs_neg]; exact hM x hx t ht⟩
  continuous := continuousOn_const.mul h.continuous
  diffuses := fun x hx t ht => (h.diffuses x hx t ht).smul (-1)
  surface := fun x hx t ht => by rw [h.surface x hx t ht, neg_one_mul]
  start := fun x hx => by simpa using (h.start x hx).const_mul (-1)

theorem Ioo_inner {a b x : ℝ} (hx : x ∈ Set.Ioo a b) : x ∈ Set.Icc a b \ {a, b} :=
  ⟨⟨hx.1.le, hx.2.le⟩, by rintro (rfl | rfl); exacts [lt_irrefl _ hx.1, lt_irrefl _ hx.2]⟩

/-- A slab never leaves the interval between its initial and its surface value. -/
theorem slab_between {a b κ us u0 : ℝ} {u : ℝ → ℝ → ℝ} (hκ : 0 < κ) (h : SlabHistory a b κ us u0 u) :
    ∀ x ∈ Set.Icc a b, ∀ t, 0 < t → min us u0 ≤ u x t ∧ u x t ≤ max us u0 := by
  have half : ∀ {us u0 : ℝ} {u : ℝ → ℝ → ℝ}, SlabHistory a b κ us u0 u → ∀ x ∈ Set.Icc a b, ∀ t, 0 < t →
      u x t ≤ max us u0 := by
    intro us u0 u h x hx t ht
    obtain ⟨M, hM⟩ := h.bounded
    have := slab_nonpos hκ (w := fun x t => u x t + -max us u0) (a := a) (b := b) (M := M + -max us u0)
      (l := u0 + -max us u0) (by have := le_max_right us u0; linarith)
      (fun x hx t ht => by have := (le_abs_self _).trans (hM x hx t ht); linarith)
      (h.continuous.add continuousOn_const) (fun y hy t ht => (h.diffuses y (Ioo_inner hy) t ht).add (DiffusesAt.const _ _ _ _))
      (fun t ht => by
        have h1 := h.surface a (by simp) t ht
        have := le_max_left us u0
        linarith)
      (fun t ht => by
        have h1 := h.surface b (by simp) t ht
        have := le_max_left us u0
        linarith)
      (fun y hy => (h.start y (Ioo_inner hy)).add_const _) x hx t ht
    linarith
  intro x hx t ht
  have h1 := half h.neg x hx t ht
  rw [max_neg_neg] at h1
  exact ⟨by linarith, half h x hx t ht⟩

/-- As long as the other surface is not felt, a slab behaves like a half space. -/
theorem slab_near_halfSpace {s κ us u0 : ℝ} {u : ℝ → ℝ → ℝ} (hs : 0 < s) (hκ : 0 < κ) (h : SlabHistory 0 (2 * s) κ us u0 u) :
    ∀ x ∈ Set.Icc 0 (2 * s), ∀ t, 0 < t →
      |u x t - halfField κ us u0 x t| ≤ |us - u0| * (1 - erf ((2 * s - x) / Real.sqrt (4 * κ * t))) := by
  have half : ∀ {us u0 : ℝ} {u : ℝ → ℝ → ℝ}, SlabHistory 0 (2 * s) κ us u0 u → ∀ x ∈ Set.Icc 0 (2 * s), ∀ t, 0 < t →
      u x t - halfField κ us u0 x t ≤ |us - u0| * (1 - erf ((2 * s - x) / Real.sqrt (4 * κ * t))) := by
    intro us u0 u h x hx t ht
    have hf := halfField_history hκ us u0
    obtain ⟨M, hM⟩ := h.bounded
    obtain ⟨K, hK⟩ := hf.bounded
    have herf : ∀ x t, 0 ≤ |us - u0| * (1 - erf ((2 * s + -1 * x) / Real.sqrt (4 * κ * t))) := fun x t =>
      mul_nonneg (abs_nonneg _) (erfcR_nonneg _)
    have hd : Diffuses 1 κ fun x t => 1 + -1 * erf ((2 * s + -1 * x) / Real.sqrt (4 * κ * t)) :=
      (Diffuses.const κ 1).add ((diffuses_erf hκ (2 * s) (-1) (by norm_num)).smul (-1))
    have hone : ∀ e : ℝ, 1 + -1 * e = 1 - e := fun e => by ring
    simp only [hone] at hd
    have := slab_nonpos hκ
      (w := fun x t => (u x t + -1 * halfField κ us u0 x t) +
        -|us - u0| * (1 - erf ((2 * s + -1 * x) / Real.sqrt (4 * κ * t))))
      (a := 0) (b := 2 * s) (M := M + K) le_rfl
      (fun x hx t ht => by
        have h1 := (le_abs_self _).trans (hM x hx t ht)
        have h2 := (neg_le_abs _).trans (hK x hx.1 t ht)
        have h3 := herf x t
        linarith)
      ((h.continuous.add (continuousOn_const.mul (hf.continuous.mono (Set.prod_mono Set.Icc_subset_Ici_self le_rfl)))).add
        (continuousOn_const.mul (continuousOn_const.sub (erf_line_continuous hκ (2 * s) (-1) _))))
      (fun y hy t ht => ((h.diffuses y (Ioo_inner hy) t ht).add ((hf.diffuses y ⟨hy.1.le, hy.1.ne'⟩ t ht).smul (-1))).add
        ((hd.at y ht).smul (-|us - u0|)))
      (fun t ht => by
        have h1 := h.surface 0 (by simp) t ht
        have h2 := hf.surface 0 rfl t ht
        have h3 := herf 0 t
        rw [h1, h2]
        linarith)
      (fun t ht => by
        have h1 := h.surface (2 * s) (by simp) t ht
        rw [h1, halfField, show 2 * s + -1 * (2 * s) = 0 by ring, zero_div, erf_zero]
        have h2 : 0 ≤ erf (2 * s / Real.sqrt (4 * κ * t)) := erf_nonneg (by positivity)
        have h3 := erf_le_one (2 * s / Real.sqrt (4 * κ * t))
        have h4 := mul_le_mul_of_nonneg_left h3 (abs_nonneg (us - u0))
        have h5 := mul_le_mul_of_nonneg_right (le_abs_self (us - u0)) h2
        linarith)
      (fun y hy => by
        have h1 := ((h.start y (Ioo_inner hy)).add ((hf.start y ⟨hy.1.le, hy.1.ne'⟩).const_mul (-1))).add
          ((((erf_line_start hκ (2 * s) (-1) (x := y) (by linarith [hy.2])).const_sub 1).const_mul (-|us - u0|)))
        have e : u0 + -1 * u0 + -|us - u0| * (1 - 1) = 0 := by ring
        rw [e] at h1
        exact h1) x hx t ht
    rw [neg_one_mul x, ← sub_eq_add_neg] at this
    linarith
  intro x hx t ht
  have h1 := half h x hx t ht
  have h2 := half h.neg x hx t ht
  have e : halfField κ (-us) (-u0) x t = -halfField κ us u0 x t := by unfold halfField; ring
  rw [e, show -us - -u0 = -(us - u0) by ring, abs_neg] at h2
  exact abs_le.2 ⟨by linarith, h1⟩

/-! ## The formulas -/

/-- The temperature that `semi_infinite_slab_conduction` returns is that of the only solution: a half space at `To` whose
surface is held at `Ts`. -/
theorem C87_semi_infinite_conduction (ts t0 rho cp k : ℝ) (hr : 0 < rho) (hc : 0 < cp) (hk : 0 < k) :
    (∃ u, HalfSpaceHistory (k / (rho * cp)) ts t0 u) ∧
      ∀ u, HalfSpaceHistory (k / (rho * cp)) ts t0 u → ∀ z t, 0 ≤ z → 0 < t →
        semiInfiniteSlabConduction (tempSI ts) (tempSI t0) (lenSI z) (timeSI t) (densSI rho) (cpSI cp) (condSI k) =
          tempSI (u z t) := by
  have hκ : 0 < k / (rho * cp) := by positivity
  refine ⟨⟨_, halfField_history hκ ts t0⟩, fun u hu z t hz ht => ?_⟩
  rw [C46_conduction_value ts t0 z t rho cp k ht hr hc hk, halfSpace_unique hκ hu (halfField_history hκ ts t0) z hz t ht, halfField]

/-- Likewise `semi_infinite_slab_diffusion`. -/
theorem C87_semi_infinite_diffusion (cs c0 D : ℝ) (hD : 0 < D) :
    (∃ u, HalfSpaceHistory D cs c0 u) ∧
      ∀ u, HalfSpaceHistory D cs c0 u → ∀ z t, 0 ≤ z → 0 < t →
        semiInfiniteSlabDiffusion (concSI cs) (concSI c0) (lenSI z) (diffSI D) (timeSI t) = qMulti (u z t) c!"kg/m^3" := by
  refine ⟨⟨_, halfField_history hD cs c0⟩, fun u hu z t hz ht => ?_⟩
  rw [C46_diffusion_value cs c0 z D t hD ht, halfSpace_unique hD hu (halfField_history hD cs c0) z hz t ht, halfField]

/-- `finite_slab_conduction` approximates the only solution: a slab of thickness `2s` at `To` whose surfaces are held at
`Ts`.  After `N` iterations it is off by at most the stated bound. -/
theorem C87_finite_conduction (ts t0 s k rho cp : ℝ) (hs : 0 < s) (hr : 0 < rho) (hc : 0 < cp) (hk : 0 < k) :
    (∃ u, SlabHistory 0 (2 * s) (k / (rho * cp)) ts t0 u) ∧
      ∀ u, SlabHistory 0 (2 * s) (k / (rho * cp)) ts t0 u → ∀ x t (N : ℕ), 0 < x → x < 2 * s → 0 < t → ∃ T : ℝ,
        finiteSlabConduction (tempSI ts) (tempSI t0) (lenSI x) (lenSI s) (condSI k) (densSI rho) (cpSI cp) (timeSI t) N =
          tempSI T ∧
        |u x t - T| ≤ |ts - t0| * (8 / (Real.pi * (N + 1) * Real.sin (Real.pi / 2 * (x / s))) *
          Real.exp (-((2 * N + 3) * (Real.pi / 2)) ^ 2 * (k / (rho * cp) * t / s ^ 2))) := by
  have hκ : 0 < k / (rho * cp) := by positivity
  refine ⟨⟨_, slabExact_history hs hκ ts t0⟩, fun u hu x t N hx hx2 ht =>
    ⟨_, slabField_value ts t0 x s k rho cp t N hs.ne' hr.ne' hc.ne', ?_⟩⟩
  rw [slab_unique hκ hu (slabExact_history hs hκ ts t0) x ⟨hx.le, hx2.le⟩ t ht]
  exact slabExact_rest ts t0 hs hκ hx hx2 ht N

/-- The result of `finite_slab_conduction` leaves the interval between the two temperatures by no more than that bound. -/
theorem C87_finite_between (ts t0 s k rho cp x t : ℝ) (N : ℕ) (hs : 0 < s) (hr : 0 < rho) (hc : 0 < cp) (hk : 0 < k)
    (hx : 0 < x) (hx2 : x < 2 * s) (ht : 0 < t) :
    ∃ T e : ℝ,
      finiteSlabConduction (tempSI ts) (tempSI t0) (lenSI x) (lenSI s) (condSI k) (densSI rho) (cpSI cp) (timeSI t) N =
        tempSI T ∧
      e = |ts - t0| * (8 / (Real.pi * (N + 1) * Real.sin (Real.pi / 2 * (x / s))) *
        Real.exp (-((2 * N + 3) * (Real.pi / 2)) ^ 2 * (k / (rho * cp) * t / s ^ 2))) ∧
      min ts t0 - e ≤ T ∧ T ≤ max ts t0 + e := by
  have hκ : 0 < k / (rho * cp) := by positivity
  obtain ⟨⟨u, hu⟩, h⟩ := C87_finite_conduction ts t0 s k rho cp hs hr hc hk
  obtain ⟨T, h1, h2⟩ := h u hu x t N hx hx2 ht
  obtain ⟨h3, h4⟩ := slab_between hκ hu x ⟨hx.le, hx2.le⟩ t ht
  obtain ⟨h5, h6⟩ := abs_le.1 h2
  exact ⟨T, _, h1, rfl, by linarith, by linarith⟩

/-- When a finite slab may be treated as semi-infinite: the two formulas differ by at most
`|Ts - To| erfc((2s - x)/√(4 α t))` and the truncation error. -/
theorem C87_short_times (ts t0 s k rho cp x t : ℝ) (N : ℕ) (hs : 0 < s) (hr : 0 < rho) (hc : 0 < cp) (hk : 0 < k)
    (hx : 0 < x) (hx2 : x < 2 * s) (ht : 0 < t) :
    ∃ T T' : ℝ,
      finiteSlabConduction (tempSI ts) (tempSI t0) (lenSI x) (lenSI s) (condSI k) (densSI rho) (cpSI cp) (timeSI t) N =
        tempSI T ∧
      semiInfiniteSlabConduction (tempSI ts) (tempSI t0) (lenSI x) (timeSI t) (densSI rho) (cpSI cp) (condSI k) = tempSI T' ∧
      |T - T'| ≤ |ts - t0| * (1 - erf ((2 * s - x) / Real.sqrt (4 * (k / (rho * cp)) * t))) +
        |ts - t0| * (8 / (Real.pi * (N + 1) * Real.sin (Real.pi / 2 * (x / s))) *
          Real.exp (-((2 * N + 3) * (Real.pi / 2)) ^ 2 * (k / (rho * cp) * t / s ^ 2))) := by
  have hκ : 0 < k / (rho * cp) := by positivity
  obtain ⟨⟨u, hu⟩, h⟩ := C87_finite_conduction ts t0 s k rho cp hs hr hc hk
  obtain ⟨T, h1, h2⟩ := h u hu x t N hx hx2 ht
  refine ⟨T, _, h1, C46_conduction_value ts t0 x t rho cp k ht hr hc hk, ?_⟩
  have h3 := slab_near_halfSpace hs hκ hu x ⟨hx.le, hx2.le⟩ t ht
  have h4 := abs_sub_le T (u x t) (halfField (k / (rho * cp)) ts t0 x t)
  rw [abs_sub_comm T (u x t)] at h4
  refine h4.trans ?_
  rw [add_comm]
  exact add_le_add h3 h2

/-- `finite_slab_diffusion` approximates the only solution for a slab of thickness `2a` that is at its argument `Cs` in the
beginning and whose surfaces are held at its argument `Co`: the opposite of what is documented (C71). -/
theorem C87_finite_diffusion_partial (cs c0 a D : ℝ) (ha : 0 < a) (hD : 0 < D) :
    (∃ u, SlabHistory (-a) a D c0 cs u) ∧
      ∀ u, SlabHistory (-a) a D c0 cs u → ∀ z t (N : ℕ), |z| ≤ a → 0 < t → ∃ C : ℝ,
        finiteSlabDiffusion (concSI cs) (concSI c0) (lenSI a) (lenSI z) (diffSI D) (timeSI t) N = qMulti C c!"kg/m^3" ∧
        |u z t - C| ≤ |cs - c0| * ((1 - erf (((2 * N + 1) * a + z) / Real.sqrt (4 * D * t))) +
          (1 - erf (((2 * N + 1) * a - z) / Real.sqrt (4 * D * t)))) := by
  refine ⟨⟨_, imageField_history ha hD cs c0⟩, fun u hu z t N hz ht => ⟨_, C71_value cs c0 a z D t hD ht N, ?_⟩⟩
  rw [slab_unique hD hu (imageField_history ha hD cs c0) z (abs_le.1 hz) t ht, imageField,
    show ∀ p q : ℝ, cs - (cs - c0) * p - (cs - (cs - c0) * q) = -((cs - c0) * (p - q)) by intros; ring, abs_neg, abs_mul]
  exact mul_le_mul_of_nonneg_left (slabImage_rest ha hD z ht N) (abs_nonneg _)

/-- With the documented roles, surfaces at `Cs` and `Co` in the beginning, the results do not converge to the solution. -/
theorem C87_finite_diffusion_false : ¬ ∀ (cs c0 a D : ℝ) (u : ℝ → ℝ → ℝ), 0 < a → 0 < D → SlabHistory (-a) a D cs c0 u →
    ∀ z t (C : ℕ → ℝ), |z| ≤ a → 0 < t →
      (∀ N : ℕ, finiteSlabDiffusion (concSI cs) (concSI c0) (lenSI a) (lenSI z) (diffSI D) (timeSI t) N =
        qMulti (C N) c!"kg/m^3") → Tendsto C atTop (𝓝 (u z t)) := by
  intro h
  have hu := imageField_history one_pos one_pos 0 1
  have hlim := h 1 0 1 1 _ one_pos one_pos hu 1 1 _ (by simp) one_pos fun N => C71_value 1 0 1 1 1 1 one_pos one_pos N
  have hw := hu.surface 1 (by simp) 1 one_pos
  rw [hw] at hlim
  have h2 := ((slabImage_limit one_pos one_pos (1 : ℝ) one_pos).const_mul (1 - 0 : ℝ)).const_sub 1
  rw [slabImage_wall one_pos one_pos one_pos] at h2
  have := tendsto_nhds_unique hlim h2
  norm_num at this

/-- The two finite slab formulas agree with each other, although one sums sines and the other error functions: with the
same diffusivity, the roles of the arguments of the second exchanged, and depths measured from the surface and from the
middle. -/
theorem C87_two_series (us u0 s k rho cp x t : ℝ) (N M : ℕ) (hs : 0 < s) (hr : 0 < rho) (hc : 0 < cp) (hk : 0 < k)
    (hx : 0 < x) (hx2 : x < 2 * s) (ht : 0 < t) :
    ∃ T C : ℝ,
      finiteSlabConduction (tempSI us) (tempSI u0) (lenSI x) (lenSI s) (condSI k) (densSI rho) (cpSI cp) (timeSI t) N =
        tempSI T ∧
      finiteSlabDiffusion (concSI u0) (concSI us) (lenSI s) (lenSI (x - s)) (diffSI (k / (rho * cp))) (timeSI t) M =
        qMulti C c!"kg/m^3" ∧
      |T - C| ≤ |us - u0| * (8 / (Real.pi * (N + 1) * Real.sin (Real.pi / 2 * (x / s))) *
          Real.exp (-((2 * N + 3) * (Real.pi / 2)) ^ 2 * (k / (rho * cp) * t / s ^ 2))) +
        |us - u0| * ((1 - erf ((2 * M * s + x) / Real.sqrt (4 * (k / (rho * cp)) * t))) +
          (1 - erf ((2 * (M + 1) * s - x) / Real.sqrt (4 * (k / (rho * cp)) * t)))) := by
  have hκ : 0 < k / (rho * cp) := by positivity
  obtain ⟨⟨u, hu⟩, h⟩ := C87_finite_conduction us u0 s k rho cp hs hr hc hk
  obtain ⟨T, h1, h2⟩ := h u hu x t N hx hx2 ht
  have hv : SlabHistory (-s) s (k / (rho * cp)) us u0 fun z t => u (s + z) t := by
    have hmem : ∀ z, z ∈ Set.Icc (-s) s \ {-s, s} → s + z ∈ Set.Icc 0 (2 * s) \ {0, 2 * s} := by
      rintro z ⟨hz, hne⟩
      refine ⟨⟨by linarith [hz.1], by linarith [hz.2]⟩, ?_⟩
      rintro (h | h)
      · exact hne (.inl (by linarith))
      · exact hne (.inr (show z = s by have : s + z = 2 * s := h; linarith))
    refine ⟨?_, ?_, fun z hz t ht => ?_, fun z hz t ht => ?_, fun z hz => ?_⟩
    · obtain ⟨K, hK⟩ := hu.bounded
      exact ⟨K, fun z hz t ht => hK _ ⟨by linarith [hz.1], by linarith [hz.2]⟩ t ht⟩
    · refine hu.continuous.comp (f := fun p : ℝ × ℝ => (s + p.1, p.2)) (by fun_prop) fun p hp => ?_
      exact ⟨⟨by linarith [hp.1.1], by linarith [hp.1.2]⟩, hp.2⟩
    · obtain ⟨g, c, hg, hc, ht⟩ := hu.diffuses _ (hmem z hz) t ht
      refine ⟨fun y => g (s + y), c, ?_, hc.comp_const_add s z, ht⟩
      have : Tendsto (fun y => s + y) (𝓝 z) (𝓝 (s + z)) := (by fun_prop : Continuous fun y => s + y).tendsto z
      filter_upwards [this.eventually hg] with y hy using hy.comp_const_add s y
    · refine hu.surface _ ?_ t ht
      rcases hz with rfl | rfl
      · simp
      · right; show z + z = 2 * z; ring
    · have : Tendsto (fun y => s + y) (𝓝 z) (𝓝 (s + z)) := (by fun_prop : Continuous fun y => s + y).tendsto z
      exact (hu.start _ (hmem z hz)).comp (this.prodMap tendsto_id)
  obtain ⟨C, h3, h4⟩ := (C87_finite_diffusion_partial u0 us s _ hs hκ).2 _ hv (x - s) t M
    (abs_le.2 ⟨by linarith, by linarith⟩) ht
  refine ⟨T, C, h1, h3, ?_⟩
  rw [show s + (x - s) = x by ring, show (2 * (M : ℝ) + 1) * s + (x - s) = 2 * M * s + x by ring,
    show (2 * (M : ℝ) + 1) * s - (x - s) = 2 * (M + 1) * s - x by ring, abs_sub_comm u0 us] at h4
  have h5 := abs_sub_le T (u x t) C
  rw [abs_sub_comm T (u x t)] at h5
  exact h5.trans (add_le_add h2 h4)

/-! ## Total heat -/

theorem slabExact_content {s κ : ℝ} (hs : 0 < s) (hκ : 0 < κ) (ts t0 : ℝ) {t : ℝ} (ht : 0 < t) :
    ∫ x in (0 : ℝ)..s, (slabExact ts t0 s κ x t - t0) = s * (ts - t0) * (1 - 8 / Real.pi ^ 2 *
      ∑' n : ℕ, 1 / (2 * (n : ℝ) + 1) ^ 2 * Real.exp (-(((2 * (n : ℝ) + 1) * Real.pi / (2 * s)) ^ 2 * (κ * t)))) := by
  have hpi := Real.pi_pos
  have hint : ∀ n : ℕ, ∫ x in (0 : ℝ)..s, slabMode s κ n x t = 2 * s / Real.pi * (1 / (2 * (n : ℝ) + 1) ^ 2 *
      Real.exp (-(((2 * (n : ℝ) + 1) * Real.pi / (2 * s)) ^ 2 * (κ * t)))) := by
    intro n
    have hw : (2 * (n : ℝ) + 1) * Real.pi / (2 * s) ≠ 0 := by positivity
    have hcos : Real.cos ((2 * (n : ℝ) + 1) * Real.pi / (2 * s) * s) = 0 := by
      have : (2 * (n : ℝ) + 1) * Real.pi / (2 * s) * s = Real.pi / 2 + (n : ℝ) * Real.pi := by field_simp; ring
      rw [this, Real.cos_add_nat_mul_pi]
      simp
    unfold slabMode
    rw [intervalIntegral.integral_const_mul, intervalIntegral.integral_mul_const,
      intervalIntegral.integral_comp_mul_left _ hw, integral_sin, mul_zero, Real.cos_zero, hcos, smul_eq_mul]
    field_simp
    ring
  have hsum : HasSum (fun n => ∫ x in (0 : ℝ)..s, slabMode s κ n x t) (∫ x in (0 : ℝ)..s, ∑' n, slabMode s κ n x t) := by
    refine intervalIntegral.hasSum_integral_of_dominated_convergence
      (fun n _ => (2 * (n : ℝ) + 1) ^ 0 * Real.exp (-(((2 * (n : ℝ) + 1) * Real.pi / (2 * s)) ^ 2 * (κ * t))))
      (fun n => ?_) (fun n => .of_forall fun x _ => slabMode_le n x t) (.of_forall fun x _ => summable_modes hs hκ 0 ht)
      (intervalIntegrable_const) (.of_forall fun x _ => (slabMode_summable hs hκ x ht).hasSum)
    have : Continuous fun x => slabMode s κ n x t := by unfold slabMode; fun_prop
    exact this.aestronglyMeasurable
  have hcont : Continuous fun x => ∑' n, slabMode s κ n x t :=
    continuous_tsum (fun n => by unfold slabMode; fun_prop) (summable_modes hs hκ 0 ht) (fun n x => slabMode_le n x t)
  have e : ∀ x, slabExact ts t0 s κ x t - t0 = (ts - t0) - (ts - t0) * (4 / Real.pi) * ∑' n, slabMode s κ n x t := fun x => by
    unfold slabExact; ring
  simp only [e]
  have hi : IntervalIntegrable (fun x => (ts - t0) * (4 / Real.pi) * ∑' n, slabMode s κ n x t) MeasureTheory.volume 0 s :=
    (continuous_const.mul hcont).intervalIntegrable _ _
  rw [intervalIntegral.integral_sub intervalIntegrable_const hi,
    intervalIntegral.integral_const_mul, ← hsum.tsum_eq, intervalIntegral.integral_const, smul_eq_mul, sub_zero]
  simp only [hint]
  rw [tsum_mul_left]
  generalize ∑' n : ℕ, 1 / (2 * (n : ℝ) + 1) ^ 2 *
    Real.exp (-(((2 * (n : ℝ) + 1) * Real.pi / (2 * s)) ^ 2 * (κ * t))) = S
  field_simp
  ring

/-- `finite_slab_total_heat` is the heat taken up by the half of the slab up to the line without flow,
`rho cp area ∫ (T - To) dx`, in the only solution: after `N` terms up to `2/(π² N)` of the most it can take up. -/
theorem C87_total_heat (ts t0 s k rho cp a t : ℝ) (hs : 0 < s) (hr : 0 < rho) (hc : 0 < cp) (hk : 0 < k) (ht : 0 < t)
    (u : ℝ → ℝ → ℝ) (hu : SlabHistory 0 (2 * s) (k / (rho * cp)) ts t0 u) {N : ℕ} (hN : 0 < N) :
    ∃ Q : ℝ,
      finiteSlabTotalHeat (lenSI s) (densSI rho) (cpSI cp) (tempSI ts) (tempSI t0) (condSI k) (timeSI t) (areaSI a) N =
        qU .unit Q c!"J" ∧
      |rho * cp * a * (∫ x in (0 : ℝ)..s, (u x t - t0)) - Q| ≤ |s * rho * cp * (ts - t0) * a| * (2 / (Real.pi ^ 2 * N)) := by
  have hκ : 0 < k / (rho * cp) := by positivity
  have hpi := Real.pi_pos
  have hcongr : ∫ x in (0 : ℝ)..s, (u x t - t0) = ∫ x in (0 : ℝ)..s, (slabExact ts t0 s (k / (rho * cp)) x t - t0) := by
    refine intervalIntegral.integral_congr fun x hx => ?_
    rw [Set.uIcc_of_le hs.le] at hx
    rw [slab_unique hκ hu (slabExact_history hs hκ ts t0) x ⟨hx.1, by linarith [hx.2]⟩ t ht]
  rw [hcongr, slabExact_content hs hκ ts t0 ht]
  set e : ℕ → ℝ := fun n => Real.exp (-(((2 * (n : ℝ) + 1) * Real.pi / (2 * s)) ^ 2 * (k / (rho * cp) * t))) with he
  have hexp : ∀ n : ℕ, Real.exp (-((2 * (n : ℝ) + 1) * (Real.pi / 2)) ^ 2 * fourier s rho cp k t) = e n := fun n => by
    rw [he]
    unfold fourier
    congr 1
    field_simp
  have hsumE : Summable fun n : ℕ => 1 / (2 * (n : ℝ) + 1) ^ 2 * e n := by
    refine Summable.of_nonneg_of_le (fun n => by positivity) (fun n => ?_) hasSum_odd_squares.summable
    refine mul_le_of_le_one_right (by positivity) (Real.exp_le_one_iff.2 (neg_nonpos.2 (by positivity)))
  have hlim : Tendsto (fun M : ℕ => s * rho * cp * (ts - t0) * a * slabFraction (fourier s rho cp k t) M) atTop
      (𝓝 (rho * cp * a * (s * (ts - t0) * (1 - 8 / Real.pi ^ 2 * ∑' n : ℕ, 1 / (2 * (n : ℝ) + 1) ^ 2 * e n)))) := by
    have h1 := (((hasSum_odd_squares.sub hsumE.hasSum).tendsto_sum_nat).const_mul (8 / Real.pi ^ 2)).const_mul
      (s * rho * cp * (ts - t0) * a)
    have e1 : s * rho * cp * (ts - t0) * a * (8 / Real.pi ^ 2 * (Real.pi ^ 2 / 8 -
        ∑' n : ℕ, 1 / (2 * (n : ℝ) + 1) ^ 2 * e n)) =
        rho * cp * a * (s * (ts - t0) * (1 - 8 / Real.pi ^ 2 * ∑' n : ℕ, 1 / (2 * (n : ℝ) + 1) ^ 2 * e n)) := by
      generalize ∑' n : ℕ, 1 / (2 * (n : ℝ) + 1) ^ 2 * e n = S
      field_simp
    rw [e1] at h1
    refine h1.congr fun M => ?_
    unfold slabFraction
    congr 2
    refine Finset.sum_congr rfl fun n _ => ?_
    rw [hexp]; ring
  refine ⟨_, C47_value s rho cp ts t0 k t a N hs.ne' hr.ne' hc.ne', ?_⟩
  refine le_of_tendsto (hlim.sub_const _).abs ?_
  filter_upwards [eventually_ge_atTop N] with M hM
  obtain ⟨Q, Q', h1, h2, h3⟩ := C84_total_heat_terms s rho cp ts t0 k t a hN hM hs hr hc hk.le ht.le
  rw [C47_value s rho cp ts t0 k t a N hs.ne' hr.ne' hc.ne'] at h1
  rw [C47_value s rho cp ts t0 k t a M hs.ne' hr.ne' hc.ne'] at h2
  have inj : ∀ {p q : ℝ}, qU (K := ℝ) .unit p c!"J" = qU .unit q c!"J" → p = q := fun h => by
    units_eval [qU] at h
    simpa using h
  rw [← inj h1, ← inj h2] at h3
  exact h3

/-! ## Non-vacuity -/

/-- The slab of the example in the documentation of `finite_slab_conduction` has a temperature history. -/
example : ∃ u, SlabHistory 0 (2 * (1 / 25)) (9 / 5 / (1050 * 800)) (6063 / 20) (7263 / 20) u :=
  (C87_finite_conduction (6063 / 20) (7263 / 20) (1 / 25) (9 / 5) 1050 800 (by norm_num) (by norm_num) (by norm_num)
    (by norm_num)).1

/-- The solution is not constant: the temperature of the half space takes a value strictly between. -/
example : ∃ u, HalfSpaceHistory 1 1 0 u ∧ 0 < u 1 1 ∧ u 1 1 < 1 := by
  refine ⟨_, halfField_history one_pos 1 0, ?_, ?_⟩
  · have := erf_lt_one (1 / Real.sqrt (4 * 1 * 1))
    simp only [halfField]; linarith
  · have h0 : 0 < 1 / Real.sqrt (4 * 1 * 1) := by positivity
    have := erf_strictMono h0
    rw [erf_zero] at this
    simp only [halfField]; linarith

end Verif
