import Verif.Lemmas.Fields
import Verif.Props.Transient
import Verif.Props.Diffusion
import Verif.Props.SlabDiffusion
import Verif.Props.Conduction
import Verif.Props.Formulas
import Verif.Props.Exchangers
import Verif.Props.Reactions
import Mathlib.MeasureTheory.Integral.Gamma
import Mathlib.Analysis.SpecialFunctions.Gaussian.GaussianIntegral

/-!
# C83: the formulas solve the differential equations they stand for

The transient formulas are compared with the diffusion equation, the steady ones with the law of Fourier or Fick
(`Verif/Spec/Fields.lean`), for all positions and times.
-/

namespace Verif

open Filter Topology MeasureTheory

/-! ## The semi-infinite slab -/

theorem semiInfinite_start {κ z : ℝ} (hκ : 0 < κ) (hz : 0 < z) :
    Tendsto (fun t => erf (z / Real.sqrt (4 * κ * t))) (𝓝[>] 0) (𝓝 1) := by
  refine erf_tendsto.comp ?_
  have h1 : Tendsto (fun t : ℝ => Real.sqrt (4 * κ * t)) (𝓝[>] 0) (𝓝[>] 0) := by
    refine tendsto_nhdsWithin_iff.2 ⟨?_, ?_⟩
    · have : Continuous fun t : ℝ => Real.sqrt (4 * κ * t) := by fun_prop
      have h := this.tendsto 0
      simp only [mul_zero, Real.sqrt_zero] at h
      exact h.mono_left nhdsWithin_le_nhds
    · filter_upwards [self_mem_nhdsWithin] with t ht
      exact Real.sqrt_pos.2 (by have : 0 < t := ht; positivity)
  have h2 := h1.inv_tendsto_nhdsGT_zero.const_mul_atTop hz
  exact h2.congr fun t => by simp [div_eq_mul_inv]

theorem semiInfinite_far {κ t : ℝ} (hκ : 0 < κ) (ht : 0 < t) :
    Tendsto (fun z => erf (z / Real.sqrt (4 * κ * t))) atTop (𝓝 1) :=
  erf_tendsto.comp (tendsto_id.atTop_div_const (Real.sqrt_pos.2 (by positivity)))

/-- What both semi-infinite formulas compute. -/
theorem semiInfinite_field {κ : ℝ} (hκ : 0 < κ) (s o : ℝ) :
    let u := fun z t => s - (s - o) * erf (z / Real.sqrt (4 * κ * t))
    Diffuses 1 κ u ∧ (∀ t, u 0 t = s) ∧ (∀ z, 0 < z → Tendsto (u z) (𝓝[>] 0) (𝓝 o)) ∧
      ∀ t, 0 < t → Tendsto (fun z => u z t) atTop (𝓝 o) := by
  have key : Tendsto (fun e => s - (s - o) * e) (𝓝 1) (𝓝 o) := by
    have : Continuous fun e : ℝ => s - (s - o) * e := by fun_prop
    have := this.tendsto 1
    simpa using this
  refine ⟨?_, fun t => by simp [erf_zero], fun z hz => key.comp (semiInfinite_start hκ hz),
    fun t ht => key.comp (semiInfinite_far hκ ht)⟩
  have h := (Diffuses.const κ s).add ((diffuses_erf hκ 0 1 (by norm_num)).smul (-(s - o)))
  refine cast (congrArg (Diffuses 1 κ) ?_) h
  funext z t
  rw [zero_add, one_mul]; ring

/-- `semi_infinite_slab_conduction` solves the heat equation with diffusivity `k/(rho cp)`: surface at `Ts`, initial
temperature `To` everywhere, `To` far inside at all times. -/
theorem C83_semi_infinite_conduction (ts t0 rho cp k : ℝ) (hr : 0 < rho) (hc : 0 < cp) (hk : 0 < k) :
    ∃ u : ℝ → ℝ → ℝ,
      (∀ z t, 0 < t → semiInfiniteSlabConduction (tempSI ts) (tempSI t0) (lenSI z) (timeSI t) (densSI rho) (cpSI cp)
        (condSI k) = tempSI (u z t)) ∧
      Diffuses 1 (k / (rho * cp)) u ∧ (∀ t, u 0 t = ts) ∧ (∀ z, 0 < z → Tendsto (u z) (𝓝[>] 0) (𝓝 t0)) ∧
      ∀ t, 0 < t → Tendsto (fun z => u z t) atTop (𝓝 t0) := by
  obtain ⟨h1, h2, h3, h4⟩ := semiInfinite_field (κ := k / (rho * cp)) (by positivity) ts t0
  exact ⟨_, fun z t ht => C46_conduction_value ts t0 z t rho cp k ht hr hc hk, h1, h2, h3, h4⟩

/-- `semi_infinite_slab_diffusion` likewise, with the diffusion coefficient. -/
theorem C83_semi_infinite_diffusion (cs c0 D : ℝ) (hD : 0 < D) :
    ∃ u : ℝ → ℝ → ℝ,
      (∀ z t, 0 < t → semiInfiniteSlabDiffusion (concSI cs) (concSI c0) (lenSI z) (diffSI D) (timeSI t) =
        qMulti (u z t) c!"kg/m^3") ∧
      Diffuses 1 D u ∧ (∀ t, u 0 t = cs) ∧ (∀ z, 0 < z → Tendsto (u z) (𝓝[>] 0) (𝓝 c0)) ∧
      ∀ t, 0 < t → Tendsto (fun z => u z t) atTop (𝓝 c0) := by
  obtain ⟨h1, h2, h3, h4⟩ := semiInfinite_field hD cs c0
  exact ⟨_, fun z t ht => C46_diffusion_value cs c0 z D t hD ht, h1, h2, h3, h4⟩

/-! ## Lumped capacity -/

/-- `lumped_parameter` solves the heat balance `rho cp V dT/dt = h A (Tf - T)` with `T(0) = To`, and tends to `Tf`. -/
theorem C83_lumped (tf t0 h a rho cp v : ℝ) (hh : 0 < h) (ha : 0 < a) (hr : 0 < rho) (hc : 0 < cp) (hv : 0 < v) :
    ∃ u : ℝ → ℝ,
      (∀ t, lumpedParameter (tempSI tf) (tempSI t0) (htcSI h) (areaSI a) (densSI rho) (cpSI cp) (volSI v) (timeSI t) =
        tempSI (u t)) ∧
      u 0 = t0 ∧ (∀ t, ∃ d, HasDerivAt u d t ∧ rho * cp * v * d = h * a * (tf - u t)) ∧ Tendsto u atTop (𝓝 tf) := by
  refine ⟨fun t => tf - (tf - t0) * Real.exp (-(h * a * t) / (rho * cp * v)),
    fun t => C45_value tf t0 h a rho cp v t hr.ne' hc.ne' hv.ne', by simp, fun t => ?_, ?_⟩
  · have h1 : HasDerivAt (fun t => -(h * a * t) / (rho * cp * v)) (-(h * a) / (rho * cp * v)) t := by
      have := ((hasDerivAt_id t).const_mul (h * a)).fun_neg.div_const (rho * cp * v)
      simpa using this
    refine ⟨_, (h1.exp.const_mul (tf - t0)).const_sub tf, ?_⟩
    field_simp
    ring
  · have h1 : Tendsto (fun t => -(h * a * t) / (rho * cp * v)) atTop atBot := by
      have hp : 0 < h * a / (rho * cp * v) := by positivity
      refine (tendsto_neg_atTop_atBot.comp (tendsto_id.const_mul_atTop hp)).congr fun t => ?_
      simp only [Function.comp, id]
      ring
    have h2 := ((Real.tendsto_exp_atBot.comp h1).const_mul (tf - t0)).const_sub tf
    simpa using h2

/-- Any temperature course that obeys the heat balance and starts at `To` is the one computed. -/
theorem C83_lumped_unique (tf t0 h a rho cp v : ℝ) (hr : 0 < rho) (hc : 0 < cp) (hv : 0 < v) (T : ℝ → ℝ) (h0 : T 0 = t0)
    (hT : ∀ t, ∃ d, HasDerivAt T d t ∧ rho * cp * v * d = h * a * (tf - T t)) (t : ℝ) :
    lumpedParameter (tempSI tf) (tempSI t0) (htcSI h) (areaSI a) (densSI rho) (cpSI cp) (volSI v) (timeSI t) =
      tempSI (T t) := by
  rw [C45_value tf t0 h a rho cp v t hr.ne' hc.ne' hv.ne']
  have hp : rho * cp * v ≠ 0 := by positivity
  have hd : ∀ t, HasDerivAt (fun t => (T t - tf) * Real.exp (h * a / (rho * cp * v) * t)) 0 t := fun t => by
    obtain ⟨d, h1, h2⟩ := hT t
    have he : HasDerivAt (fun t : ℝ => Real.exp (h * a / (rho * cp * v) * t))
        (Real.exp (h * a / (rho * cp * v) * t) * (h * a / (rho * cp * v))) t := by
      simpa using ((hasDerivAt_id t).const_mul (h * a / (rho * cp * v))).exp
    refine ((h1.sub_const tf).mul he).congr_deriv ?_
    have h3 : d = h * a / (rho * cp * v) * (tf - T t) := by field_simp; linear_combination h2
    rw [h3]; ring
  have hcst := is_const_of_deriv_eq_zero (fun t => (hd t).differentiableAt) (fun t => (hd t).deriv) t 0
  simp only [mul_zero, Real.exp_zero, mul_one, h0] at hcst
  congr 1
  have e : -(h * a * t) / (rho * cp * v) = -(h * a / (rho * cp * v) * t) := by ring
  rw [e, Real.exp_neg, ← div_eq_mul_inv]
  have := Real.exp_pos (h * a / (rho * cp * v) * t)
  generalize Real.exp (h * a / (rho * cp * v) * t) = E at this hcst ⊢
  field_simp
  linear_combination -hcst

/-! ## The finite slab: conduction -/

/-- The temperature in the finite slab, as computed with `N + 1` terms. -/
noncomputable def slabField (ts t0 s κ : ℝ) (N : ℕ) (x t : ℝ) : ℝ :=
  ts - (ts - t0) * (4 / Real.pi) * ∑ n ∈ Finset.range (N + 1), 1 / (2 * (n : ℝ) + 1) *
    (Real.sin ((2 * (n : ℝ) + 1) * Real.pi / (2 * s) * x) *
      Real.exp (-(((2 * (n : ℝ) + 1) * Real.pi / (2 * s)) ^ 2 * (κ * t))))

/-- The temperature gradient. -/
noncomputable def slabGradient (ts t0 s κ : ℝ) (N : ℕ) (x t : ℝ) : ℝ :=
  -(2 * (ts - t0) / s) * ∑ n ∈ Finset.range (N + 1), Real.cos ((2 * (n : ℝ) + 1) * Real.pi / (2 * s) * x) *
      Real.exp (-(((2 * (n : ℝ) + 1) * Real.pi / (2 * s)) ^ 2 * (κ * t)))

theorem slabField_value (ts t0 x s k rho cp t : ℝ) (N : ℕ) (hs : s ≠ 0) (hr : rho ≠ 0) (hc : cp ≠ 0) :
    finiteSlabConduction (tempSI ts) (tempSI t0) (lenSI x) (lenSI s) (condSI k) (densSI rho) (cpSI cp) (timeSI t) N =
      tempSI (slabField ts t0 s (k / (rho * cp)) N x t) := by
  rw [C48_value ts t0 x s k rho cp t N hs hr hc]
  congr 1
  unfold slabField
  congr 2
  have : ((N : ℤ) + 1).toNat = N + 1 := by omega
  rw [this]
  refine Finset.sum_congr rfl fun n _ => ?_
  rw [mul_assoc]
  congr 2
  · congr 1; field_simp
  · congr 1; unfold fourier; field_simp

theorem slabField_gradient (ts t0 s κ : ℝ) (hs : s ≠ 0) (N : ℕ) (x t : ℝ) :
    HasDerivAt (fun y => slabField ts t0 s κ N y t) (slabGradient ts t0 s κ N x t) x := by
  unfold slabField slabGradient
  have h : ∀ n ∈ Finset.range (N + 1), HasDerivAt (fun y => 1 / (2 * (n : ℝ) + 1) *
      (Real.sin ((2 * (n : ℝ) + 1) * Real.pi / (2 * s) * y) *
        Real.exp (-(((2 * (n : ℝ) + 1) * Real.pi / (2 * s)) ^ 2 * (κ * t)))))
      (Real.pi / (2 * s) * (Real.cos ((2 * (n : ℝ) + 1) * Real.pi / (2 * s) * x) *
        Real.exp (-(((2 * (n : ℝ) + 1) * Real.pi / (2 * s)) ^ 2 * (κ * t))))) x := by
    intro n _
    have hin : HasDerivAt (fun y : ℝ => (2 * (n : ℝ) + 1) * Real.pi / (2 * s) * y)
        ((2 * (n : ℝ) + 1) * Real.pi / (2 * s)) x := by
      simpa using (hasDerivAt_id x).const_mul ((2 * (n : ℝ) + 1) * Real.pi / (2 * s))
    have hm : (2 * (n : ℝ) + 1) ≠ 0 := by positivity
    refine ((hin.sin.mul_const _).const_mul _).congr_deriv ?_
    field_simp
  have hsum := HasDerivAt.fun_sum h
  refine ((hsum.const_mul ((ts - t0) * (4 / Real.pi))).const_sub ts).congr_deriv ?_
  rw [← Finset.mul_sum]
  generalize ∑ n ∈ Finset.range (N + 1), Real.cos ((2 * (n : ℝ) + 1) * Real.pi / (2 * s) * x) *
    Real.exp (-(((2 * (n : ℝ) + 1) * Real.pi / (2 * s)) ^ 2 * (κ * t))) = S
  have := Real.pi_ne_zero
  field_simp
  ring

/-- `finite_slab_conduction` with any number of terms solves the heat equation, keeps the surface (`x = 0`) at `Ts`, lets
no heat through the no flux line (`x = s`), and tends to `Ts`. -/
theorem C83_finite_conduction (ts t0 s k rho cp : ℝ) (N : ℕ) (hs : 0 < s) (hr : 0 < rho) (hc : 0 < cp) (hk : 0 < k) :
    ∃ u : ℝ → ℝ → ℝ,
      (∀ x t, finiteSlabConduction (tempSI ts) (tempSI t0) (lenSI x) (lenSI s) (condSI k) (densSI rho) (cpSI cp)
        (timeSI t) N = tempSI (u x t)) ∧
      Diffuses 1 (k / (rho * cp)) u ∧ (∀ t, u 0 t = ts) ∧ (∀ t, HasDerivAt (fun x => u x t) 0 s) ∧
      ∀ x, Tendsto (u x) atTop (𝓝 ts) := by
  refine ⟨slabField ts t0 s (k / (rho * cp)) N, fun x t => slabField_value ts t0 x s k rho cp t N hs.ne' hr.ne' hc.ne',
    ?_, fun t => by simp [slabField], fun t => ?_, fun x => ?_⟩
  · have h := (Diffuses.const (k / (rho * cp)) ts).add ((Diffuses.sum (fun n =>
      (diffuses_sin (k / (rho * cp)) ((2 * (n : ℝ) + 1) * Real.pi / (2 * s))).smul (1 / (2 * (n : ℝ) + 1)))
        (N + 1)).smul (-((ts - t0) * (4 / Real.pi))))
    refine cast (congrArg (Diffuses 1 (k / (rho * cp))) ?_) h
    funext x t
    unfold slabField
    ring
  · refine (slabField_gradient ts t0 s _ hs.ne' N s t).congr_deriv ?_
    unfold slabGradient
    rw [Finset.sum_eq_zero, mul_zero]
    intro n _
    have : (2 * (n : ℝ) + 1) * Real.pi / (2 * s) * s = Real.pi / 2 + (n : ℝ) * Real.pi := by field_simp; ring
    rw [this, Real.cos_add_nat_mul_pi]
    simp
  · unfold slabField
    have h0 : Tendsto (fun t : ℝ => ∑ n ∈ Finset.range (N + 1), 1 / (2 * (n : ℝ) + 1) *
        (Real.sin ((2 * (n : ℝ) + 1) * Real.pi / (2 * s) * x) *
          Real.exp (-(((2 * (n : ℝ) + 1) * Real.pi / (2 * s)) ^ 2 * (k / (rho * cp) * t))))) atTop
        (𝓝 (∑ n ∈ Finset.range (N + 1), 1 / (2 * (n : ℝ) + 1) *
          (Real.sin ((2 * (n : ℝ) + 1) * Real.pi / (2 * s) * x) * 0))) := by
      refine tendsto_finsetSum _ fun n _ => ((Tendsto.const_mul _ ?_).const_mul _)
      refine Real.tendsto_exp_neg_atTop_nhds_zero.comp ?_
      have hp : 0 < ((2 * (n : ℝ) + 1) * Real.pi / (2 * s)) ^ 2 * (k / (rho * cp)) := by
        have := Real.pi_pos; positivity
      refine (tendsto_id.const_mul_atTop hp).congr fun t => ?_
      simp only [id]; ring
    have h2 := (h0.const_mul ((ts - t0) * (4 / Real.pi))).const_sub ts
    simpa using h2

/-- The total heat is the heat that flowed in: `finite_slab_total_heat` (one term more) is the time integral of the heat
flow `- k area ∂T/∂x` through the surface, `T` being the temperature that `finite_slab_conduction` computes. -/
theorem C83_total_heat (ts t0 s k rho cp a t : ℝ) (N : ℕ) (hs : s ≠ 0) (hr : rho ≠ 0) (hc : cp ≠ 0) (hk : k ≠ 0) :
    ∃ u g : ℝ → ℝ → ℝ,
      (∀ x t, finiteSlabConduction (tempSI ts) (tempSI t0) (lenSI x) (lenSI s) (condSI k) (densSI rho) (cpSI cp)
        (timeSI t) N = tempSI (u x t)) ∧
      (∀ x t, HasDerivAt (fun x => u x t) (g x t) x) ∧
      finiteSlabTotalHeat (lenSI s) (densSI rho) (cpSI cp) (tempSI ts) (tempSI t0) (condSI k) (timeSI t) (areaSI a)
        (N + 1) = qU .unit (∫ τ in (0 : ℝ)..t, -k * a * g 0 τ) c!"J" := by
  refine ⟨slabField ts t0 s (k / (rho * cp)) N, slabGradient ts t0 s (k / (rho * cp)) N,
    fun x t => slabField_value ts t0 x s k rho cp t N hs hr hc,
    fun x t => slabField_gradient ts t0 s _ hs N x t, ?_⟩
  rw [C47_value s rho cp ts t0 k t a _ hs hr hc]
  congr 1
  have hN : ((N : ℤ) + 1).toNat = N + 1 := by omega
  rw [hN]
  have hd : ∀ τ, HasDerivAt (fun τ => s * rho * cp * (ts - t0) * a * slabFraction (fourier s rho cp k τ) (N + 1))
      (-k * a * slabGradient ts t0 s (k / (rho * cp)) N 0 τ) τ := by
    intro τ
    unfold slabFraction slabGradient
    have hsum : HasDerivAt (fun τ => ∑ n ∈ Finset.range (N + 1), 1 / (2 * (n : ℝ) + 1) ^ 2 *
        (1 - Real.exp (-((2 * (n : ℝ) + 1) * (Real.pi / 2)) ^ 2 * fourier s rho cp k τ)))
        (∑ n ∈ Finset.range (N + 1), Real.pi ^ 2 / 4 * (k / (rho * cp) / s ^ 2) *
          Real.exp (-(((2 * (n : ℝ) + 1) * Real.pi / (2 * s)) ^ 2 * (k / (rho * cp) * τ)))) τ := by
      refine HasDerivAt.fun_sum fun n _ => ?_
      have hm : (2 * (n : ℝ) + 1) ≠ 0 := by positivity
      have h1 : HasDerivAt (fun τ => -((2 * (n : ℝ) + 1) * (Real.pi / 2)) ^ 2 * fourier s rho cp k τ)
          (-((2 * (n : ℝ) + 1) * (Real.pi / 2)) ^ 2 * (k / (rho * cp) / s ^ 2)) τ := by
        refine HasDerivAt.const_mul _ ?_
        unfold fourier
        have := ((hasDerivAt_id τ).const_mul (k / (rho * cp))).div_const (s ^ 2)
        simpa using this
      refine ((h1.exp.const_sub 1).const_mul (1 / (2 * (n : ℝ) + 1) ^ 2)).congr_deriv ?_
      have e : -((2 * (n : ℝ) + 1) * (Real.pi / 2)) ^ 2 * fourier s rho cp k τ =
          -(((2 * (n : ℝ) + 1) * Real.pi / (2 * s)) ^ 2 * (k / (rho * cp) * τ)) := by
        unfold fourier; field_simp
      rw [e]
      field_simp
      norm_num
    refine ((hsum.const_mul (8 / Real.pi ^ 2)).const_mul (s * rho * cp * (ts - t0) * a)).congr_deriv ?_
    simp only [mul_zero, Real.cos_zero, one_mul]
    rw [← Finset.mul_sum]
    generalize ∑ n ∈ Finset.range (N + 1),
      Real.exp (-(((2 * (n : ℝ) + 1) * Real.pi / (2 * s)) ^ 2 * (k / (rho * cp) * τ))) = S
    have := Real.pi_ne_zero
    field_simp
    ring
  have hint := intervalIntegral.integral_eq_sub_of_hasDerivAt (a := 0) (b := t) (fun τ _ => hd τ) (by
    refine Continuous.intervalIntegrable ?_ _ _
    unfold slabGradient
    fun_prop)
  rw [hint]
  have h0 : slabFraction (fourier s rho cp k 0) (N + 1) = 0 := by
    have : fourier s rho cp k 0 = 0 := by simp [fourier]
    rw [this]
    simp [slabFraction]
  rw [h0]; ring

/-! ## The finite slab: diffusion -/

theorem slabSeries_wall {a D t : ℝ} (N : ℕ) :
    slabSeries a a D t N = 1 - (-1) ^ N * erfcR (2 * N * a / Real.sqrt (4 * D * t)) := by
  induction N with
  | zero => simp [slabSeries, erfcR, erf_zero]
  | succ N ih =>
    rw [slabSeries, Finset.sum_range_succ, ← slabSeries, ih]
    have h1 : (2 * (N : ℝ) + 1) * a + a = 2 * ((N + 1 : ℕ) : ℝ) * a := by push_cast; ring
    have h2 : (2 * (N : ℝ) + 1) * a - a = 2 * (N : ℝ) * a := by ring
    rw [h1, h2, pow_succ]
    ring

theorem slabSeries_diffuses {D : ℝ} (hD : 0 < D) (a : ℝ) (N : ℕ) : Diffuses 1 D fun z t => slabSeries a z D t N := by
  refine Diffuses.sum (fun n => ?_) N
  have h1 := (diffuses_erf hD ((2 * (n : ℝ) + 1) * a) 1 (by norm_num)).smul (-1)
  have h2 := (diffuses_erf hD ((2 * (n : ℝ) + 1) * a) (-1) (by norm_num)).smul (-1)
  have h := ((((Diffuses.const D 1).add h1).add ((Diffuses.const D 1).add h2)).smul ((-1) ^ n))
  refine cast (congrArg (Diffuses 1 D) ?_) h
  funext z t
  unfold erfcR
  rw [one_mul, neg_one_mul z, ← sub_eq_add_neg]
  ring

theorem slabSeries_noflux {D t : ℝ} (hD : 0 < D) (ht : 0 < t) (a : ℝ) (N : ℕ) :
    HasDerivAt (fun z => slabSeries a z D t N) 0 0 := by
  have h : HasDerivAt (fun z => slabSeries a z D t N) (∑ n ∈ Finset.range N, (0 : ℝ)) 0 := by
    refine HasDerivAt.fun_sum fun n _ => ?_
    have h1 := (erf_field hD ((2 * (n : ℝ) + 1) * a) 1 0 t ht).1.const_sub 1
    have h2 := (erf_field hD ((2 * (n : ℝ) + 1) * a) (-1) 0 t ht).1.const_sub 1
    have h := (h1.fun_add h2).const_mul ((-1) ^ n)
    simp only [one_mul, neg_one_mul, ← sub_eq_add_neg] at h
    refine h.congr_deriv ?_
    ring_nf
  simpa using h

/-- `finite_slab_diffusion`, with any number of terms, solves the diffusion equation without flow through the middle; inside
the slab it starts from its argument `Cs`, and the wall (`z = a`) is held at `Co` up to `|Cs - Co| erfc(2Na/√(4Dt))`.
The two arguments have exchanged roles (`C71_initial_false`). -/
theorem C83_finite_diffusion (cs c0 a D : ℝ) (N : ℕ) (hD : 0 < D) :
    ∃ u : ℝ → ℝ → ℝ,
      (∀ z t, 0 < t → finiteSlabDiffusion (concSI cs) (concSI c0) (lenSI a) (lenSI z) (diffSI D) (timeSI t) N =
        qMulti (u z t) c!"kg/m^3") ∧
      Diffuses 1 D u ∧ (∀ t, 0 < t → HasDerivAt (fun z => u z t) 0 0) ∧
      (∀ z, |z| < a → Tendsto (u z) (𝓝[>] 0) (𝓝 cs)) ∧
      ∀ t, |u a t - c0| = |cs - c0| * |1 - erf (2 * N * a / Real.sqrt (4 * D * t))| := by
  refine ⟨fun z t => cs - (cs - c0) * slabSeries a z D t N, fun z t ht => C71_value cs c0 a z D t hD ht N, ?_,
    fun t ht => ?_, fun z hz => ?_, fun t => ?_⟩
  · have h := (Diffuses.const D cs).add ((slabSeries_diffuses hD a N).smul (-(cs - c0)))
    refine cast (congrArg (Diffuses 1 D) ?_) h
    funext z t
    ring
  · simpa using ((slabSeries_noflux hD ht a N).const_mul (cs - c0)).const_sub cs
  · simpa using ((slabSeries_tendsto hD hz N).const_mul (cs - c0)).const_sub cs
  · beta_reduce
    rw [slabSeries_wall, ← abs_mul, erfcR]
    rcases neg_one_pow_eq_or ℝ N with h | h <;> rw [h]
    · congr 1; ring
    · rw [← abs_neg]; congr 1; ring

/-! ## Pulses -/

theorem pulse_diffuses (n m : ℝ) {D : ℝ} (hD : 0 < D) : Diffuses n D fun d t => pulse n m d D t := by
  intro x t ht hx
  have hp : 0 < 4 * Real.pi * D * t := by have := Real.pi_pos; positivity
  have hpp : (0 : ℝ) < (4 * Real.pi * D * t) ^ (n / 2) := Real.rpow_pos_of_pos hp _
  have hE : ∀ y, HasDerivAt (fun y => Real.exp (-y ^ 2 / (4 * D * t)))
      (Real.exp (-y ^ 2 / (4 * D * t)) * (-(2 * y) / (4 * D * t))) y := fun y => by
    have h := ((hasDerivAt_pow 2 y).fun_neg.div_const (4 * D * t)).exp
    simpa using h
  have hu : ∀ y, HasDerivAt (fun y => pulse n m y D t) (-(y / (2 * D * t)) * pulse n m y D t) y := fun y => by
    refine (((hE y).const_mul m).div_const _).congr_deriv ?_
    unfold pulse
    field_simp
    ring
  refine ⟨fun y => -(y / (2 * D * t)) * pulse n m y D t,
    (-(1 / (2 * D * t)) + (x / (2 * D * t)) ^ 2) * pulse n m x D t, hu, ?_, ?_⟩
  · have h1 : HasDerivAt (fun y : ℝ => -(y / (2 * D * t))) (-(1 / (2 * D * t))) x :=
      ((hasDerivAt_id x).div_const _).fun_neg
    refine (h1.mul (hu x)).congr_deriv ?_
    ring
  · have hlap : -(1 / (2 * D * t)) + (x / (2 * D * t)) ^ 2 + (n - 1) / x * -(x / (2 * D * t)) =
        -(n / (2 * D * t)) + (x / (2 * D * t)) ^ 2 := by
      rcases hx with rfl | hx
      · ring
      · field_simp; ring
    have h1 : HasDerivAt (fun s => Real.exp (-x ^ 2 / (4 * D * s)))
        (Real.exp (-x ^ 2 / (4 * D * t)) * (x ^ 2 / (4 * D * t ^ 2))) t := by
      have hi : HasDerivAt (fun s => -x ^ 2 / (4 * D * s)) (x ^ 2 / (4 * D * t ^ 2)) t := by
        have h := ((hasDerivAt_inv ht.ne').const_mul (-x ^ 2 / (4 * D)))
        refine (h.congr_of_eventuallyEq (Eventually.of_forall fun s => ?_)).congr_deriv ?_
        · simp only [div_eq_mul_inv, mul_inv]; ring
        · field_simp
      exact hi.exp
    have h2 : HasDerivAt (fun s : ℝ => (4 * Real.pi * D * s) ^ (n / 2))
        (n / (2 * t) * (4 * Real.pi * D * t) ^ (n / 2)) t := by
      have hl : HasDerivAt (fun s => 4 * Real.pi * D * s) (4 * Real.pi * D) t := by
        simpa using (hasDerivAt_id t).const_mul (4 * Real.pi * D)
      refine (hl.rpow_const (p := n / 2) (Or.inl hp.ne')).congr_deriv ?_
      rw [Real.rpow_sub_one hp.ne']
      have := Real.pi_ne_zero
      field_simp
    refine ((h1.const_mul m).div h2 hpp.ne').congr_deriv ?_
    have e : D * ((-(1 / (2 * D * t)) + (x / (2 * D * t)) ^ 2) * pulse n m x D t +
        (n - 1) / x * (-(x / (2 * D * t)) * pulse n m x D t)) =
        D * (-(1 / (2 * D * t)) + (x / (2 * D * t)) ^ 2 + (n - 1) / x * -(x / (2 * D * t))) * pulse n m x D t := by ring
    rw [e, hlap]
    unfold pulse
    field_simp
    ring

/-- `one_d_pulse_decay` solves the diffusion equation on the line, and at every time the whole mass is somewhere. -/
theorem C83_one_d_pulse (m a D : ℝ) (ha : a ≠ 0) (hD : 0 < D) :
    ∃ u : ℝ → ℝ → ℝ,
      (∀ x t, 0 < t → oneDPulse (massSI m) (areaSI a) (lenSI x) (diffSI D) (timeSI t) = qMulti (u x t) c!"kg/m^3") ∧
      Diffuses 1 D u ∧ ∀ t, 0 < t → a * ∫ x, u x t = m := by
  refine ⟨fun x t => pulse 1 (m / a) x D t, fun x t ht => C54_one_d m a x D t ha hD ht, pulse_diffuses 1 _ hD,
    fun t ht => ?_⟩
  have hp : 0 < 4 * Real.pi * D * t := by have := Real.pi_pos; positivity
  have h : ∀ x, pulse 1 (m / a) x D t =
      m / a / (4 * Real.pi * D * t) ^ ((1 : ℝ) / 2) * Real.exp (-(1 / (4 * D * t)) * x ^ 2) := fun x => by
    rw [pulse, show -x ^ 2 / (4 * D * t) = -(1 / (4 * D * t)) * x ^ 2 by ring]; ring
  simp only [h]
  rw [integral_const_mul, integral_gaussian, ← Real.sqrt_eq_rpow,
    show Real.pi / (1 / (4 * D * t)) = 4 * Real.pi * D * t by field_simp]
  have := (Real.sqrt_pos.2 hp).ne'
  field_simp

/-- The moments of a Gaussian over the distances. -/
theorem gauss_moment {b : ℝ} (hb : 0 < b) (q : ℕ) :
    ∫ r in Set.Ioi (0 : ℝ), r ^ q * Real.exp (-b * r ^ 2) =
      b ^ (-((q : ℝ) + 1) / 2) * (1 / 2) * Real.Gamma (((q : ℝ) + 1) / 2) := by
  rw [← integral_rpow_mul_exp_neg_mul_rpow (p := 2) (q := q) two_pos (by have : (0:ℝ) ≤ q := by positivity
                                                                         linarith) hb]
  refine setIntegral_congr_fun measurableSet_Ioi fun r _ => ?_
  simp only [Real.rpow_natCast, Real.rpow_two]

/-- `two_d_pulse_decay`: the diffusion equation around a line; the mass on the length `L` is the mass released there. -/
theorem C83_two_d_pulse (m l D : ℝ) (hl : l ≠ 0) (hD : 0 < D) :
    ∃ u : ℝ → ℝ → ℝ,
      (∀ r t, 0 < t → twoDPulse (massSI m) (lenSI l) (lenSI r) (diffSI D) (timeSI t) = qMulti (u r t) c!"kg/m^3") ∧
      Diffuses 2 D u ∧ ∀ t, 0 < t → l * ∫ r in Set.Ioi (0 : ℝ), 2 * Real.pi * r * u r t = m := by
  refine ⟨fun x t => pulse 2 (m / l) x D t, fun x t ht => C54_two_d m l x D t hl hD ht, pulse_diffuses 2 _ hD,
    fun t ht => ?_⟩
  have hpi := Real.pi_pos
  have h : ∀ r, 2 * Real.pi * r * pulse 2 (m / l) r D t =
      2 * Real.pi * (m / l) / (4 * Real.pi * D * t) * (r ^ 1 * Real.exp (-(1 / (4 * D * t)) * r ^ 2)) := fun x => by
    rw [pulse, show -x ^ 2 / (4 * D * t) = -(1 / (4 * D * t)) * x ^ 2 by ring, div_self two_ne_zero, Real.rpow_one]; ring
  simp only [h]
  rw [integral_const_mul, gauss_moment (by positivity) 1]
  norm_num
  rw [Real.rpow_neg_one]
  field_simp

theorem three_d_mass {D t : ℝ} (hD : 0 < D) (ht : 0 < t) (c m : ℝ) :
    ∫ r in Set.Ioi (0 : ℝ), c * r ^ 2 * pulse 3 m r D t = c * m / (4 * Real.pi) := by
  have hpi := Real.pi_pos
  have hp : 0 < 4 * D * t := by positivity
  have h : ∀ r, c * r ^ 2 * pulse 3 m r D t =
      c * m / (4 * Real.pi * D * t) ^ ((3 : ℝ) / 2) * (r ^ 2 * Real.exp (-(1 / (4 * D * t)) * r ^ 2)) := fun x => by
    rw [pulse, show -x ^ 2 / (4 * D * t) = -(1 / (4 * D * t)) * x ^ 2 by ring]; ring
  simp only [h]
  rw [integral_const_mul, gauss_moment (by positivity) 2]
  have e1 : (4 * Real.pi * D * t) ^ ((3 : ℝ) / 2) = Real.pi * Real.sqrt Real.pi * (4 * D * t) ^ ((3 : ℝ) / 2) := by
    rw [show 4 * Real.pi * D * t = Real.pi * (4 * D * t) by ring, Real.mul_rpow hpi.le hp.le,
      show (3 : ℝ) / 2 = 1 + 1 / 2 by norm_num, Real.rpow_add hpi, Real.rpow_one, ← Real.sqrt_eq_rpow]
  have e2 : (1 / (4 * D * t)) ^ (-(((2 : ℕ) : ℝ) + 1) / 2) = (4 * D * t) ^ ((3 : ℝ) / 2) := by
    rw [one_div, Real.inv_rpow hp.le, ← Real.rpow_neg hp.le]; norm_num
  have e3 : Real.Gamma ((((2 : ℕ) : ℝ) + 1) / 2) = Real.sqrt Real.pi / 2 := by
    rw [show (((2 : ℕ) : ℝ) + 1) / 2 = 1 / 2 + 1 by norm_num, Real.Gamma_add_one (by norm_num), Real.Gamma_one_half_eq]
    ring
  rw [e1, e2, e3]
  have h1 : (0 : ℝ) < (4 * D * t) ^ ((3 : ℝ) / 2) := Real.rpow_pos_of_pos hp _
  have h2 := Real.sqrt_pos.2 hpi
  field_simp
  norm_num

/-- `three_d_pulse_decay`: the diffusion equation around a point; the mass in the half space ("hemisphere") or in the
octant ("cube") is the mass released, at all times.  For any other shape the mass fills the whole space. -/
theorem C83_three_d_pulse (m D : ℝ) (shape : Sym) (hD : 0 < D) :
    ∃ u : ℝ → ℝ → ℝ,
      (∀ r t, 0 < t → threeDPulse (massSI m) (lenSI r) (diffSI D) (timeSI t) shape = qMulti (u r t) c!"kg/m^3") ∧
      Diffuses 3 D u ∧
      (shape = c!"hemisphere" → ∀ t, 0 < t → ∫ r in Set.Ioi (0 : ℝ), 4 * Real.pi / 2 * r ^ 2 * u r t = m) ∧
      (shape = c!"cube" → ∀ t, 0 < t → ∫ r in Set.Ioi (0 : ℝ), 4 * Real.pi / 8 * r ^ 2 * u r t = m) ∧
      (shape ≠ c!"hemisphere" → shape ≠ c!"cube" →
        ∀ t, 0 < t → ∫ r in Set.Ioi (0 : ℝ), 4 * Real.pi * r ^ 2 * u r t = m) := by
  have hpi := Real.pi_pos
  refine ⟨fun x t => pulse 3 (shapeFactor shape * m) x D t, fun x t ht => C54_three_d m x D t shape hD ht,
    pulse_diffuses 3 _ hD, ?_, ?_, ?_⟩
  · rintro rfl t ht
    rw [three_d_mass hD ht, shapeFactor, if_pos rfl]; field_simp
  · rintro rfl t ht
    rw [three_d_mass hD ht, shapeFactor, if_neg (by decide), if_pos rfl]; field_simp
  · intro h1 h2 t ht
    rw [three_d_mass hD ht, shapeFactor, if_neg h1, if_neg h2]; field_simp

/-! ## Steady flow -/

/-- Whatever temperature profile conducts the heat flow `q` through a plane wall, `planar_heat` returns `q` from its end
temperatures. -/
theorem C83_planar_heat (k a x q : ℝ) (T : ℝ → ℝ) (hk : k ≠ 0) (ha : a ≠ 0) (hx : 0 < x)
    (h : Carries k (fun _ => a) T q 0 x) :
    pcall (planarHeat · []) [condSI k, tempSI (T 0), tempSI (T x), areaSI a, lenSI x] = qMulti q c!"W" := by
  rw [C33_heat_flow k _ _ a x hx.ne', h.drop (G := fun r => r / a) hk hx.le (fun _ _ => ha)
    (fun r _ => (hasDerivAt_id r).div_const a)]
  congr 1
  field_simp
  ring

/-- Likewise per area. -/
theorem C83_planar_flux (k x q : ℝ) (T : ℝ → ℝ) (hk : k ≠ 0) (hx : 0 < x) (h : Carries k (fun _ => 1) T q 0 x) :
    pcall (planarFlux · []) [condSI k, tempSI (T 0), tempSI (T x), lenSI x] = qMulti q c!"W/m^2" := by
  rw [C34_flux k _ _ x hx.ne', h.drop (G := fun r => r / 1) hk hx.le (fun _ _ => one_ne_zero)
    (fun r _ => (hasDerivAt_id r).div_const 1)]
  congr 1
  field_simp
  ring

theorem cylinder_drop {k l r1 r2 q : ℝ} {T : ℝ → ℝ} (hk : k ≠ 0) (hl : l ≠ 0) (h1 : 0 < r1) (h2 : r1 < r2)
    (h : Carries k (fun r => 2 * Real.pi * r * l) T q r1 r2) :
    -2 * Real.pi * l * k * (T r2 - T r1) / Real.log (r2 / r1) = q := by
  have hpi := Real.pi_pos
  have hr : ∀ r ∈ Set.Icc r1 r2, r ≠ 0 := fun r hr => (h1.trans_le hr.1).ne'
  have hlog : 0 < Real.log (r2 / r1) := Real.log_pos ((one_lt_div h1).2 h2)
  rw [h.drop (G := fun r => Real.log r / (2 * Real.pi * l)) hk h2.le
    (fun r hr' => by have := hr r hr'; positivity)
    (fun r hr' => ((Real.hasDerivAt_log (hr r hr')).div_const _).congr_deriv (by have := hr r hr'; field_simp))]
  rw [Real.log_div (h1.trans h2).ne' h1.ne'] at hlog ⊢
  have := hlog.ne'
  field_simp

theorem sphere_drop {k r1 r2 q : ℝ} {T : ℝ → ℝ} (hk : k ≠ 0) (h1 : 0 < r1) (h2 : r1 < r2)
    (h : Carries k (fun r => 4 * Real.pi * r ^ 2) T q r1 r2) :
    -4 * Real.pi * r1 * r2 * k * (T r2 - T r1) / (r2 - r1) = q := by
  have hpi := Real.pi_pos
  have hr : ∀ r ∈ Set.Icc r1 r2, r ≠ 0 := fun r hr => (h1.trans_le hr.1).ne'
  rw [h.drop (G := fun r => -(r⁻¹ / (4 * Real.pi))) hk h2.le
    (fun r hr' => by have := hr r hr'; positivity)
    (fun r hr' => (((hasDerivAt_inv (hr r hr')).div_const _).fun_neg).congr_deriv (by have := hr r hr'; field_simp))]
  have h3 : r2 - r1 ≠ 0 := sub_ne_zero.2 h2.ne'
  have := h1.ne'
  have := (h1.trans h2).ne'
  field_simp
  ring

/-- A pipe wall: the cross section grows with the radius. -/
theorem C83_pipe_heat (k l r1 r2 q : ℝ) (T : ℝ → ℝ) (hk : k ≠ 0) (hl : l ≠ 0) (h1 : 0 < r1) (h2 : r1 < r2)
    (h : Carries k (fun r => 2 * Real.pi * r * l) T q r1 r2) :
    pipeHeat (condSI k) (tempSI (T r1)) (tempSI (T r2)) (lenSI l) (lenSI r2) (lenSI r1) = qU .unit q c!"W" := by
  rw [C35_pipe k _ _ l r2 r1 h1 (h1.trans h2) h2.ne, ← cylinder_drop hk hl h1 h2 h]

/-- A spherical shell. `sphere_heat` returns the flow divided by the conductivity, in K*m.  Missing: the factor `k`
(`C83_sphere_heat_false`). -/
theorem C83_sphere_heat_partial (k r1 r2 q : ℝ) (T : ℝ → ℝ) (hk : k ≠ 0) (h1 : 0 < r1) (h2 : r1 < r2)
    (h : Carries k (fun r => 4 * Real.pi * r ^ 2) T q r1 r2) :
    sphereHeat (condSI k) (tempSI (T r1)) (tempSI (T r2)) (lenSI r2) (lenSI r1) = qMulti (q / k) c!"K*m" := by
  rw [C35_sphere_partial k _ _ r2 r1 (sub_ne_zero.2 h2.ne'), ← sphere_drop hk h1 h2 h]
  congr 1
  field_simp

/-- Fick's law in the three geometries. -/
theorem C83_planar_mass (D a x q : ℝ) (C : ℝ → ℝ) (hD : D ≠ 0) (ha : a ≠ 0) (hx : 0 < x)
    (h : Carries D (fun _ => a) C q 0 x) :
    planarMassTransfer (diffSI D) (areaSI a) (concSI (C x)) (concSI (C 0)) (lenSI x) = qMulti q c!"kg/s" := by
  rw [C55_planar D a _ _ x hx.ne', h.drop (G := fun r => r / a) hD hx.le (fun _ _ => ha)
    (fun r _ => (hasDerivAt_id r).div_const a)]
  congr 1
  field_simp
  ring

theorem C83_pipe_mass (D l r1 r2 q : ℝ) (C : ℝ → ℝ) (hD : D ≠ 0) (hl : l ≠ 0) (h1 : 0 < r1) (h2 : r1 < r2)
    (h : Carries D (fun r => 2 * Real.pi * r * l) C q r1 r2) :
    pipeMassTransfer (diffSI D) (lenSI r2) (lenSI r1) (concSI (C r2)) (concSI (C r1)) (lenSI l) = qMulti q c!"kg/s" := by
  rw [C55_pipe D r2 r1 _ _ l h1 (h1.trans h2) h2.ne, cylinder_drop hD hl h1 h2 h]

theorem C83_sphere_mass (D r1 r2 q : ℝ) (C : ℝ → ℝ) (hD : D ≠ 0) (h1 : 0 < r1) (h2 : r1 < r2)
    (h : Carries D (fun r => 4 * Real.pi * r ^ 2) C q r1 r2) :
    sphereMassTransfer (diffSI D) (lenSI r2) (lenSI r1) (concSI (C r2)) (concSI (C r1)) = qMulti q c!"kg/s" := by
  rw [C55_sphere D r2 r1 _ _ (sub_ne_zero.2 h2.ne'), sphere_drop hD h1 h2 h]

/-- A profile in a spherical shell. -/
theorem shell_carries (k : ℝ) (q : ℝ) (hk : k ≠ 0) {r1 r2 : ℝ} (h1 : 0 < r1) :
    Carries k (fun r => 4 * Real.pi * r ^ 2) (fun r => q / (4 * Real.pi * k) * r⁻¹) q r1 r2 := by
  intro r hr
  have hr0 : r ≠ 0 := (h1.trans_le hr.1).ne'
  refine ⟨_, (hasDerivAt_inv hr0).const_mul _, ?_⟩
  have := Real.pi_ne_zero
  field_simp

/-- Fourier's law for a sphere is not what `sphere_heat` computes. -/
theorem C83_sphere_heat_false : ¬ ∀ (k r1 r2 q : ℝ) (T : ℝ → ℝ), 0 < k → 0 < r1 → r1 < r2 →
    Carries k (fun r => 4 * Real.pi * r ^ 2) T q r1 r2 →
    ∃ m, sphereHeat (condSI k) (tempSI (T r1)) (tempSI (T r2)) (lenSI r2) (lenSI r1) = .ok (.multi m) ∧ m.value = q := by
  intro h
  obtain ⟨m, hm, hq⟩ := h 2 1 2 1 _ two_pos one_pos (by norm_num) (shell_carries 2 1 two_ne_zero one_pos)
  rw [C83_sphere_heat_partial 2 1 2 1 _ two_ne_zero one_pos (by norm_num) (shell_carries 2 1 two_ne_zero one_pos)] at hm
  units_eval [Except.ok.injEq, Val.multi.injEq] at hm
  subst hm
  norm_num at hq

/-! ## Melting, heat exchangers, reaction rates -/

/-- `pseudo_steady_time` obeys the Stefan condition: the heat conducted through the layer of thickness `L` melts the
material, `k (Ts - Tm)/L = rho Hf dL/dt`. -/
theorem C83_melting (rho hf k ts tm li : ℝ) (hk : 0 < k) (ht : tm < ts) (hr : 0 < rho) (hh : 0 < hf) :
    ∃ τ : ℝ → ℝ,
      (∀ L, pseudoSteadyTime (densSI rho) (qMulti hf c!"J/kg") (condSI k) (tempSI ts) (tempSI tm) (lenSI li) (lenSI L) =
        qU .unit (τ L) c!"s") ∧
      τ li = 0 ∧ ∀ L, 0 < L → ∃ d, HasDerivAt τ d L ∧ 0 < d ∧ k * (ts - tm) / L = rho * hf * (1 / d) := by
  have hd : 0 < ts - tm := sub_pos.2 ht
  refine ⟨fun L => rho * hf * (L ^ 2 - li ^ 2) / (2 * k * (ts - tm)),
    fun L => C65_melting_SI_partial rho hf k ts tm li L hk.ne' ht.ne', by simp, fun L hL => ?_⟩
  have h := (((hasDerivAt_pow 2 L).sub_const (li ^ 2)).const_mul (rho * hf)).div_const (2 * k * (ts - tm))
  refine ⟨_, h, by simp; positivity, ?_⟩
  simp
  field_simp

/-- `deltat_logmean`, counter-current: when two streams exchange heat with the coefficient `U` over the area `S`, each
obeying its heat balance, the heat exchanged is `U S` times the returned temperature difference. -/
theorem C83_logmean (s : Sym) (U S wa wb : ℝ) (A B : ℝ → ℝ) (hS : 0 < S) (ha : wa ≠ 0) (hb : wb ≠ 0)
    (hA : ∀ y ∈ Set.Icc 0 S, HasDerivAt A (-(U * (A y - B y)) / wa) y)
    (hB : ∀ y ∈ Set.Icc 0 S, HasDerivAt B (-(U * (A y - B y)) / wb) y)
    (h0 : 0 < A 0 - B 0) (h1 : 0 < A S - B S) (hne : A 0 - B 0 ≠ A S - B S) :
    ∃ T, deltatLogmean (qU .temperature (A 0) s) (qU .temperature (A S) s) (qU .temperature (B S) s)
        (qU .temperature (B 0) s) = qU .temperature T s ∧
      wa * (A 0 - A S) = U * S * T ∧ wb * (B 0 - B S) = U * S * T := by
  refine ⟨_, C44_counter_value s _ _ _ _ h0 h1 hne, ?_⟩
  obtain ⟨c, hc⟩ : ∃ c, c = U / wa - U / wb := ⟨_, rfl⟩
  have hconst : ∀ f : ℝ → ℝ, (∀ y ∈ Set.Icc 0 S, HasDerivAt f 0 y) → f S = f 0 := fun f hf =>
    constant_of_has_deriv_right_zero (fun y hy => (hf y hy).continuousAt.continuousWithinAt)
      (fun y hy => (hf y (Set.Ico_subset_Icc_self hy)).hasDerivWithinAt) S (Set.right_mem_Icc.2 hS.le)
  have hθ : ∀ y ∈ Set.Icc 0 S, HasDerivAt (fun y => A y - B y) (-c * (A y - B y)) y := fun y hy =>
    ((hA y hy).fun_sub (hB y hy)).congr_deriv (by rw [hc]; ring)
  have e1 := hconst (fun y => (A y - B y) * Real.exp (c * y)) fun y hy => by
    have he : HasDerivAt (fun y : ℝ => Real.exp (c * y)) (Real.exp (c * y) * c) y := by
      simpa using ((hasDerivAt_id y).const_mul c).exp
    exact ((hθ y hy).mul he).congr_deriv (by ring)
  have e2 := hconst (fun y => wa * c * A y - U * (A y - B y)) fun y hy =>
    (((hA y hy).const_mul (wa * c)).sub ((hθ y hy).const_mul U)).congr_deriv (by field_simp; ring)
  have e3 := hconst (fun y => wb * c * B y - U * (A y - B y)) fun y hy =>
    (((hB y hy).const_mul (wb * c)).sub ((hθ y hy).const_mul U)).congr_deriv (by field_simp; ring)
  simp only [mul_zero, Real.exp_zero, mul_one] at e1
  have hl : Real.log ((A 0 - B 0) / (A S - B S)) = c * S := by
    rw [← e1, mul_div_cancel_left₀ _ h1.ne', Real.log_exp]
  have hc0 : c ≠ 0 := by
    rintro rfl
    simp at e1
    exact hne e1.symm
  rw [logMean, hl]
  have hS' := hS.ne'
  have e2' : wa * c * A S - U * (A S - B S) = wa * c * A 0 - U * (A 0 - B 0) := e2
  have e3' : wb * c * B S - U * (A S - B S) = wb * c * B 0 - U * (A 0 - B 0) := e3
  constructor
  · field_simp
    linear_combination -e2'
  · field_simp
    linear_combination -e3'

/-- `arrhenius`: the rate constant follows van 't Hoff's law `d ln k / dT = Ea/(R T²)`. -/
theorem C83_arrhenius (fmt : ℚ → Sym) (order : ℚ) (A ea r : ℝ) (hA : 0 < A) (hr : r ≠ 0) :
    ∃ κ : ℝ → ℝ,
      (∀ t, t ≠ 0 → pcall (arrhenius fmt order · []) [pnum A, eaSI ea, gasJ r, tempSI t] =
        arrheniusA fmt order (pnum (κ t))) ∧
      ∀ t, t ≠ 0 → 0 < κ t ∧ HasDerivAt (fun t => Real.log (κ t)) (ea / (r * t ^ 2)) t := by
  refine ⟨fun t => A * Real.exp (-ea / (r * t)), fun t ht => C36_rate_constant fmt order A ea r t hr ht,
    fun t ht => ⟨by positivity, ?_⟩⟩
  have h : HasDerivAt (fun t => Real.log A + -ea / r * t⁻¹) (ea / (r * t ^ 2)) t := by
    refine (((hasDerivAt_inv ht).const_mul (-ea / r)).const_add _).congr_deriv ?_
    field_simp
  refine h.congr_of_eventuallyEq (Eventually.of_forall fun t => ?_)
  simp only [Real.log_mul hA.ne' (Real.exp_ne_zero _), Real.log_exp, div_eq_mul_inv, mul_inv]
  ring

/-! ## Non-vacuity -/

/-- A linear profile conducts a constant flow through a wall of 2 m² and 1/2 m; 40 W between 20 K and 10 K at 1 W/(m K). -/
example : Carries 1 (fun _ => 2) (fun r => 20 - 20 * r) 40 0 (1 / 2) ∧
    pcall (planarHeat · []) [condSI 1, tempSI 20, tempSI 10, areaSI 2, lenSI (1 / 2)] = qMulti 40 c!"W" := by
  have h : Carries 1 (fun _ => 2) (fun r => 20 - 20 * r) 40 0 (1 / 2) := fun r _ =>
    ⟨-20, by simpa using ((hasDerivAt_id r).const_mul 20).const_sub 20, by norm_num⟩
  refine ⟨h, ?_⟩
  have := C83_planar_heat 1 2 (1 / 2) 40 _ one_ne_zero two_ne_zero (by norm_num) h
  norm_num at this ⊢
  exact this

/-- A spherical shell of liquid: 1 kg/s through the radii from 1 m to 2 m. -/
example : ∃ C : ℝ → ℝ, sphereMassTransfer (diffSI 3) (lenSI 2) (lenSI 1) (concSI (C 2)) (concSI (C 1)) =
    qMulti 1 c!"kg/s" :=
  ⟨_, C83_sphere_mass 3 1 2 1 _ (by norm_num) one_pos (by norm_num) (shell_carries 3 1 (by norm_num) one_pos)⟩

/-- An exchanger of 1 m² and 1 W/(m² K) with heat capacity flows 1 and 2 W/K: the difference decays like `exp(-y/2)`. -/
example : ∃ A B : ℝ → ℝ, (∀ y, HasDerivAt A (-(1 * (A y - B y)) / 1) y) ∧ (∀ y, HasDerivAt B (-(1 * (A y - B y)) / 2) y) ∧
    0 < A 0 - B 0 ∧ 0 < A 1 - B 1 ∧ A 0 - B 0 ≠ A 1 - B 1 := by
  have he : ∀ y : ℝ, HasDerivAt (fun y : ℝ => Real.exp (-(y / 2))) (Real.exp (-(y / 2)) * -(1 / 2)) y := fun y =>
    (((hasDerivAt_id y).div_const 2).fun_neg).exp
  refine ⟨fun y => 2 * Real.exp (-(y / 2)), fun y => Real.exp (-(y / 2)),
    fun y => ((he y).const_mul 2).congr_deriv (by ring), fun y => (he y).congr_deriv (by ring), ?_, ?_, ?_⟩
  · norm_num
  · have := Real.exp_pos (-(1 / 2))
    linarith
  · have h : Real.exp (-((1 : ℝ) / 2)) < 1 := by rw [Real.exp_lt_one_iff]; norm_num
    intro h'
    simp only [zero_div, neg_zero, Real.exp_zero] at h'
    linarith

end Verif
