import Verif.MassTransfer.Transient
import Verif.Tactic.UnitsEval
import Verif.Lemmas.Construct
import Verif.Lemmas.Erf
import Verif.Spec.SI

/-!
# C71: diffusion into a finite slab
-/

namespace Verif

open Filter Topology MeasureTheory

theorem erf_tendsto : Tendsto erf atTop (𝓝 1) := by
  have h := intervalIntegral_tendsto_integral_Ioi (f := fun t : ℝ => Real.exp (-t ^ 2)) 0 gauss_integrable.integrableOn tendsto_id
  have h2 : ∫ t in Set.Ioi (0 : ℝ), Real.exp (-t ^ 2) = Real.sqrt Real.pi / 2 := by
    have := integral_gaussian_Ioi 1
    simpa using this
  rw [h2] at h
  have h3 := h.const_mul (2 / Real.sqrt Real.pi)
  have : 2 / Real.sqrt Real.pi * (Real.sqrt Real.pi / 2) = 1 := by
    have : Real.sqrt Real.pi ≠ 0 := (Real.sqrt_pos.2 Real.pi_pos).ne'
    field_simp
  rw [this] at h3
  exact h3

/-- The complementary error function. -/
noncomputable def erfcR (x : ℝ) : ℝ := 1 - erf x

/-- The series of the two-sided slab of half thickness `a`, cut after `N` terms. -/
noncomputable def slabSeries (a z D t : ℝ) (N : ℕ) : ℝ :=
  ∑ n ∈ Finset.range N, (-1) ^ n * (erfcR (((2 * n + 1) * a + z) / Real.sqrt (4 * D * t)) +
    erfcR (((2 * n + 1) * a - z) / Real.sqrt (4 * D * t)))

theorem slabDiffusionTerm_num (a z D t : ℝ) (hD : 0 < D) (ht : 0 < t) (n : ℕ) :
    slabDiffusionTerm (lenSI a) (lenSI z) (diffSI D) (timeSI t) n =
      .ok (.num ((-1) ^ n * (erfcR (((2 * n + 1) * a + z) / Real.sqrt (4 * D * t)) +
        erfcR (((2 * n + 1) * a - z) / Real.sqrt (4 * D * t))))) := by
  have hp : 0 < t * (4 * D) := by positivity
  have hs : Real.sqrt (t * (4 * D)) ≠ 0 := (Real.sqrt_pos.2 hp).ne'
  units_eval [slabDiffusionTerm, lenSI, diffSI, timeSI, pow_real_half hp.le, pyDiv_ne hs, hs]
  rw [mul_comm t, mul_comm a]
  rfl

/-- `finite_slab_diffusion` evaluates its series, in kg/m³. -/
theorem C71_value (cs c0 a z D t : ℝ) (hD : 0 < D) (ht : 0 < t) (N : ℕ) :
    finiteSlabDiffusion (concSI cs) (concSI c0) (lenSI a) (lenSI z) (diffSI D) (timeSI t) N =
      qMulti (cs - (cs - c0) * slabSeries a z D t N) c!"kg/m^3" := by
  simp only [finiteSlabDiffusion]
  rw [pySum_num _ _ _ (slabDiffusionTerm_num a z D t hD ht)]
  units_eval [concSI]
  exact okMulti_congr (by simp [slabSeries])

/-- Both sides of the no flux line are alike. -/
theorem C71_symmetric (cs c0 a z D t : ℝ) (hD : 0 < D) (ht : 0 < t) (N : ℕ) :
    finiteSlabDiffusion (concSI cs) (concSI c0) (lenSI a) (lenSI (-z)) (diffSI D) (timeSI t) N =
      finiteSlabDiffusion (concSI cs) (concSI c0) (lenSI a) (lenSI z) (diffSI D) (timeSI t) N := by
  rw [C71_value cs c0 a (-z) D t hD ht, C71_value cs c0 a z D t hD ht]
  have : slabSeries a (-z) D t N = slabSeries a z D t N := by
    unfold slabSeries
    refine Finset.sum_congr rfl fun n _ => ?_
    rw [sub_neg_eq_add, add_comm (erfcR _), ← sub_eq_add_neg]
  rw [this]

/-- A slab already at the surface concentration stays there. -/
theorem C71_equilibrium (c a z D t : ℝ) (hD : 0 < D) (ht : 0 < t) (N : ℕ) :
    finiteSlabDiffusion (concSI c) (concSI c) (lenSI a) (lenSI z) (diffSI D) (timeSI t) N = qMulti c c!"kg/m^3" := by
  rw [C71_value c c a z D t hD ht]; simp

theorem erfcR_tendsto {D c : ℝ} (hD : 0 < D) (hc : 0 < c) :
    Tendsto (fun t => erfcR (c / Real.sqrt (4 * D * t))) (𝓝[>] 0) (𝓝 0) := by
  have h1 : Tendsto (fun t : ℝ => Real.sqrt (4 * D * t)) (𝓝[>] 0) (𝓝[>] 0) := by
    refine tendsto_nhdsWithin_iff.2 ⟨?_, ?_⟩
    · have : Continuous fun t : ℝ => Real.sqrt (4 * D * t) := by fun_prop
      have := (this.tendsto 0).mono_left (nhdsWithin_le_nhds (s := Set.Ioi 0))
      simpa using this
    · filter_upwards [self_mem_nhdsWithin] with t ht
      exact Real.sqrt_pos.2 (mul_pos (by positivity) ht)
  have h2 : Tendsto (fun t : ℝ => c / Real.sqrt (4 * D * t)) (𝓝[>] 0) atTop := by
    simp only [div_eq_mul_inv]
    exact (tendsto_inv_nhdsGT_zero.comp h1).const_mul_atTop hc
  have h3 := (erf_tendsto.comp h2).const_sub 1
  simpa [erfcR] using h3

theorem slabSeries_tendsto {a z D : ℝ} (hD : 0 < D) (hz : |z| < a) (N : ℕ) :
    Tendsto (fun t => slabSeries a z D t N) (𝓝[>] 0) (𝓝 0) := by
  unfold slabSeries
  obtain ⟨hz1, hz2⟩ := abs_lt.1 hz
  have ha : 0 < a := (abs_nonneg z).trans_lt hz
  have : Tendsto (fun t => ∑ n ∈ Finset.range N, (-1 : ℝ) ^ n * (erfcR (((2 * n + 1) * a + z) / Real.sqrt (4 * D * t)) +
      erfcR (((2 * n + 1) * a - z) / Real.sqrt (4 * D * t)))) (𝓝[>] 0)
      (𝓝 (∑ n ∈ Finset.range N, (-1 : ℝ) ^ n * (0 + 0))) := by
    refine tendsto_finsetSum _ fun n _ => ?_
    refine Tendsto.const_mul _ ((erfcR_tendsto hD ?_).add (erfcR_tendsto hD ?_))
    · nlinarith [mul_nonneg (Nat.cast_nonneg (α := ℝ) n) ha.le]
    · nlinarith [mul_nonneg (Nat.cast_nonneg (α := ℝ) n) ha.le]
  simpa using this

/-- Inside the slab, the concentration tends to the surface concentration as the time tends to zero. -/
theorem C71_start (cs c0 a z D : ℝ) (hD : 0 < D) (hz : |z| < a) (N : ℕ) :
    ∃ C : ℝ → ℝ, (∀ t, 0 < t →
      finiteSlabDiffusion (concSI cs) (concSI c0) (lenSI a) (lenSI z) (diffSI D) (timeSI t) N = qMulti (C t) c!"kg/m^3") ∧
      Tendsto C (𝓝[>] 0) (𝓝 cs) := by
  refine ⟨fun t => cs - (cs - c0) * slabSeries a z D t N, fun t ht => C71_value cs c0 a z D t hD ht N, ?_⟩
  have := ((slabSeries_tendsto hD hz N).const_mul (cs - c0)).const_sub cs
  simpa using this

/-- The claim of the documentation, that `Co` is the initial concentration, is false. -/
theorem C71_initial_false : ¬ ∀ cs c0 a z D : ℝ, 0 < D → |z| < a → ∀ N : ℕ, ∀ C : ℝ → ℝ, (∀ t, 0 < t →
      finiteSlabDiffusion (concSI cs) (concSI c0) (lenSI a) (lenSI z) (diffSI D) (timeSI t) N = qMulti (C t) c!"kg/m^3") →
      Tendsto C (𝓝[>] 0) (𝓝 c0) := by
  intro h
  obtain ⟨C, hC, hlim⟩ := C71_start 1 0 1 0 1 one_pos (by simp) 10
  exact one_ne_zero (tendsto_nhds_unique hlim (h 1 0 1 0 1 one_pos (by simp) 10 C hC))

/-- With the two concentrations exchanged in the call the initial condition holds: the documented formula has them the
wrong way round. -/
theorem C71_exchanged_partial (cs c0 a z D : ℝ) (hD : 0 < D) (hz : |z| < a) (N : ℕ) :
    ∃ C : ℝ → ℝ, (∀ t, 0 < t →
      finiteSlabDiffusion (concSI c0) (concSI cs) (lenSI a) (lenSI z) (diffSI D) (timeSI t) N = qMulti (C t) c!"kg/m^3") ∧
      Tendsto C (𝓝[>] 0) (𝓝 c0) := C71_start c0 cs a z D hD hz N

end Verif
