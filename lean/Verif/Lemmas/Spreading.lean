import Verif.Spec.Release
import Verif.Lemmas.MaxPrinciple

/-!
# The maximum principle in space, and uniqueness of a bounded field with given beginning
-/

namespace Verif

open Filter Topology

variable {d : ℕ} {κ : ℝ} {u v : Space d → ℝ → ℝ} {x : Space d} {t : ℝ}

theorem SpreadsAt.add (hu : SpreadsAt κ u x t) (hv : SpreadsAt κ v x t) :
    SpreadsAt κ (fun x t => u x t + v x t) x t := by
  obtain ⟨g, c, h1, h3⟩ := hu
  obtain ⟨g', c', h1', h3'⟩ := hv
  refine ⟨fun i r => g i r + g' i r, fun i => c i + c' i, fun i => ⟨?_, (h1 i).2.fun_add (h1' i).2⟩,
    (h3.fun_add h3').congr_deriv (by rw [Finset.sum_add_distrib]; ring)⟩
  filter_upwards [(h1 i).1, (h1' i).1] with r hr hr' using hr.fun_add hr'

theorem SpreadsAt.smul (hu : SpreadsAt κ u x t) (a : ℝ) : SpreadsAt κ (fun x t => a * u x t) x t := by
  obtain ⟨g, c, h1, h3⟩ := hu
  refine ⟨fun i r => a * g i r, fun i => a * c i, fun i => ⟨?_, (h1 i).2.const_mul a⟩,
    (h3.const_mul a).congr_deriv (by rw [← Finset.mul_sum]; ring)⟩
  filter_upwards [(h1 i).1] with r hr using hr.const_mul a

theorem norm_axis (i : Fin d) : ‖(axis i : Space d)‖ = 1 := by simp [axis]

theorem inner_axis (i : Fin d) (z : Space d) : inner ℝ z (axis i) = z i := by
  simp [axis, EuclideanSpace.inner_single_right]

theorem norm_sq_along (z : Space d) (i : Fin d) (r : ℝ) : ‖z + r • axis i‖ ^ 2 = ‖z‖ ^ 2 + 2 * r * z i + r ^ 2 := by
  rw [norm_add_sq_real, inner_smul_right, inner_axis, norm_smul, norm_axis, Real.norm_eq_abs, mul_one, sq_abs]
  ring

theorem hasDerivAt_norm_sq_along (z : Space d) (i : Fin d) (r : ℝ) :
    HasDerivAt (fun r : ℝ => ‖z + r • axis i‖ ^ 2) (2 * (z i + r)) r := by
  simp only [norm_sq_along]
  have h := (((hasDerivAt_id r).const_mul 2).mul_const (z i)).const_add (‖z‖ ^ 2) |>.add ((hasDerivAt_id r).pow 2)
  exact h.congr_deriv (by simp; ring)

/-- `|x|² + 2dκt` obeys the diffusion equation. -/
theorem spreads_bowl (κ t₀ : ℝ) (x : Space d) (t : ℝ) :
    SpreadsAt κ (fun x t => ‖x‖ ^ 2 + 2 * d * κ * (t - t₀)) x t := by
  refine ⟨fun i r => 2 * (x i + r), fun _ => 2, fun i => ⟨.of_forall fun r => ?_, ?_⟩, ?_⟩
  · exact (hasDerivAt_norm_sq_along x i r).add_const _
  · exact (((hasDerivAt_id (0 : ℝ)).const_add (x i)).const_mul 2).congr_deriv (by ring)
  · exact ((((hasDerivAt_id t).sub_const t₀).const_mul (2 * d * κ)).const_add (‖x‖ ^ 2)).congr_deriv (by simp; ring)

/-- The weak maximum principle in a ball. -/
theorem max_principle_ball (hκ : 0 ≤ κ) {f : Space d → ℝ → ℝ} {R t₀ t₁ : ℝ}
    (hc : ContinuousOn (fun p : Space d × ℝ => f p.1 p.2) (Metric.closedBall 0 R ×ˢ Set.Icc t₀ t₁))
    (hd : ∀ x ∈ Metric.ball (0 : Space d) R, ∀ t ∈ Set.Ioc t₀ t₁, SpreadsAt κ f x t)
    (h0 : ∀ x ∈ Metric.closedBall (0 : Space d) R, f x t₀ ≤ 0)
    (hb : ∀ x ∈ Metric.sphere (0 : Space d) R, ∀ t ∈ Set.Icc t₀ t₁, f x t ≤ 0) :
    ∀ x ∈ Metric.closedBall (0 : Space d) R, ∀ t ∈ Set.Icc t₀ t₁, f x t ≤ 0 := by
  intro x hx t ht
  by_contra hpos
  push Not at hpos
  have ht0 : t₀ < t := lt_of_le_of_ne ht.1 fun e => by
    have := h0 x hx
    rw [e] at this; linarith
  obtain ⟨ε, hε, hε'⟩ : ∃ ε, 0 < ε ∧ 0 < f x t - ε * (t - t₀) := by
    refine ⟨f x t / (2 * (t - t₀)), by have := sub_pos.2 ht0; positivity, ?_⟩
    have := sub_pos.2 ht0
    field_simp
    linarith
  have hcont : ContinuousOn (fun p : Space d × ℝ => f p.1 p.2 - ε * (p.2 - t₀)) (Metric.closedBall 0 R ×ˢ Set.Icc t₀ t₁) :=
    hc.sub (by fun_prop)
  obtain ⟨⟨y, r⟩, ⟨hy, hr⟩, hmax⟩ := ((isCompact_closedBall (0 : Space d) R).prod isCompact_Icc).exists_isMaxOn
    (s := Metric.closedBall 0 R ×ˢ Set.Icc t₀ t₁) ⟨(x, t), hx, ht⟩ hcont
  simp only at hy hr
  have hbig : 0 < f y r - ε * (r - t₀) :=
    hε'.trans_le (hmax (show (x, t) ∈ Metric.closedBall 0 R ×ˢ Set.Icc t₀ t₁ from ⟨hx, ht⟩))
  have hr0 : t₀ < r := lt_of_le_of_ne hr.1 fun e => by
    have := h0 y hy
    rw [e] at this
    rw [e] at hbig; linarith
  have hfpos : 0 < f y r := by have := mul_pos hε (sub_pos.2 hr0); linarith
  have hyb : y ∈ Metric.ball (0 : Space d) R := by
    rcases lt_or_eq_of_le (Metric.mem_closedBall.1 hy) with h | h
    · exact h
    · have := hb y h r hr; linarith
  obtain ⟨g, c, h1, h3⟩ := hd y hyb r ⟨hr0, hr.2⟩
  have hcurv : ∀ i, c i ≤ 0 := fun i => by
    refine curvature_at_max (h1 i).1 (h1 i).2 ?_
    have hline : Tendsto (fun r : ℝ => y + r • (axis i : Space d)) (𝓝 0) (𝓝 y) := by
      have : Continuous fun r : ℝ => y + r • (axis i : Space d) := by fun_prop
      simpa using this.tendsto 0
    filter_upwards [hline (Metric.isOpen_ball.mem_nhds hyb)] with z hz
    have := hmax (show (y + z • axis i, r) ∈ Metric.closedBall 0 R ×ˢ Set.Icc t₀ t₁ from
      ⟨Metric.ball_subset_closedBall hz, hr⟩)
    simp only [Set.mem_ofPred_eq] at this
    simp only [zero_smul, add_zero]
    linarith
  have hsum : ∑ i, c i ≤ 0 := Finset.sum_nonpos fun i _ => hcurv i
  have hrate : ε ≤ κ * ∑ i, c i := by
    have hs : Tendsto (slope (fun s => f y s) r) (𝓝[<] r) (𝓝 (κ * ∑ i, c i)) :=
      (hasDerivAt_iff_tendsto_slope.1 h3).mono_left (nhdsWithin_mono _ fun z hz => ne_of_lt hz)
    refine ge_of_tendsto hs ?_
    filter_upwards [Ioo_mem_nhdsLT hr0] with z hz
    have := hmax (show (y, z) ∈ Metric.closedBall 0 R ×ˢ Set.Icc t₀ t₁ from ⟨hy, hz.1.le, hz.2.le.trans hr.2⟩)
    simp only [Set.mem_ofPred_eq] at this
    rw [slope_def_field, le_div_iff_of_neg (sub_neg.2 hz.2)]
    linarith
  nlinarith

/-- A field in all of space that is bounded above and not positive in the beginning is never positive. -/
theorem whole_space_le (hκ : 0 ≤ κ) {w : Space d → ℝ → ℝ} {T M : ℝ}
    (hc : ContinuousOn (fun p : Space d × ℝ => w p.1 p.2) (Set.univ ×ˢ Set.Icc 0 T))
    (hd : ∀ x, ∀ t ∈ Set.Ioc 0 T, SpreadsAt κ w x t) (hM : ∀ x, ∀ t ∈ Set.Icc 0 T, w x t ≤ M)
    (h0 : ∀ x, w x 0 ≤ 0) : ∀ x, ∀ t ∈ Set.Icc 0 T, w x t ≤ 0 := by
  intro x t ht
  have key : ∀ ε, 0 < ε → w x t ≤ ε * (‖x‖ ^ 2 + 2 * d * κ * (t - 0)) := by
    intro ε hε
    set R : ℝ := ‖x‖ + |M| / ε + 1 with hR
    have hR1 : 1 ≤ R := by have := norm_nonneg x; have : 0 ≤ |M| / ε := by positivity
                           linarith
    have hMR : M ≤ ε * R ^ 2 := by
      have h1 : |M| ≤ ε * R := by
        have : ε * R = ε * ‖x‖ + |M| + ε := by rw [hR]; field_simp
        have := norm_nonneg x; have := mul_nonneg hε.le this; linarith
      have h2 : ε * R ≤ ε * R ^ 2 := by apply mul_le_mul_of_nonneg_left _ hε.le; nlinarith
      exact (le_abs_self M).trans (h1.trans h2)
    have := max_principle_ball (R := R) (t₀ := 0) (t₁ := T) hκ
      (f := fun x t => w x t + -ε * (‖x‖ ^ 2 + 2 * d * κ * (t - 0)))
      ((hc.mono (Set.prod_mono (Set.subset_univ _) subset_rfl)).add (by fun_prop))
      (fun y _ s hs => (hd y s hs).add ((spreads_bowl κ 0 y s).smul (-ε)))
      (fun y _ => by
        have := h0 y
        have : 0 ≤ ε * ‖y‖ ^ 2 := by positivity
        simp only [sub_self, mul_zero, add_zero]
        linarith [h0 y])
      (fun y hy s hs => by
        have h1 : ‖y‖ = R := by simpa using hy
        have h2 := hM y s hs
        have h3 : 0 ≤ ε * (2 * d * κ * s) := by have := hs.1; positivity
        rw [h1]
        simp only [sub_zero]
        linarith)
      x (by simp only [Metric.mem_closedBall, dist_zero_right]; have : 0 ≤ |M| / ε := by positivity
            linarith) t ht
    linarith
  by_contra hpos
  push Not at hpos
  set B : ℝ := ‖x‖ ^ 2 + 2 * d * κ * (t - 0) with hB
  have hB0 : 0 ≤ B := by have := ht.1; rw [hB, sub_zero]; positivity
  have := key (w x t / (2 * (B + 1))) (by positivity)
  have h2 : w x t / (2 * (B + 1)) * B ≤ w x t / 2 := by
    rw [div_mul_eq_mul_div, div_le_div_iff₀ (by positivity) two_pos]
    nlinarith
  linarith

/-- There is at most one bounded field with a given beginning. -/
theorem Spreading.unique (hκ : 0 ≤ κ) {f : Space d → ℝ} (hu : Spreading κ f u) (hv : Spreading κ f v) :
    ∀ x t, 0 ≤ t → u x t = v x t := by
  have key : ∀ {u v : Space d → ℝ → ℝ}, Spreading κ f u → Spreading κ f v → ∀ x t, 0 ≤ t → u x t ≤ v x t := by
    intro u v hu hv x t ht
    obtain ⟨M, hM⟩ := hu.bounded
    obtain ⟨N, hN⟩ := hv.bounded
    have hsub : (Set.univ : Set (Space d)) ×ˢ Set.Icc 0 t ⊆ Set.univ ×ˢ Set.Ici 0 :=
      Set.prod_mono subset_rfl fun _ h => h.1
    have := whole_space_le (T := t) (M := M + N) hκ (w := fun x t => u x t + -1 * v x t)
      ((hu.continuous.mono hsub).add ((hv.continuous.mono hsub).const_mul (-1)))
      (fun y s hs => (hu.spreads y s hs.1).add ((hv.spreads y s hs.1).smul (-1)))
      (fun y s hs => by
        have h1 := abs_le.1 (hM y s hs.1); have h2 := abs_le.1 (hN y s hs.1)
        linarith [h1.2, h2.1])
      (fun y => by rw [hu.start, hv.start]; linarith) x t ⟨ht, le_rfl⟩
    linarith
  exact fun x t ht => le_antisymm (key hu hv x t ht) (key hv hu x t ht)

end Verif
