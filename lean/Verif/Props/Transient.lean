import Verif.Tactic.UnitsEval
import Verif.HeatTransfer.Transient
import Verif.Spec.SI
import Verif.Lemmas.Erf
import Mathlib.NumberTheory.ZetaValues

/-!
# C45, C46, C47, C48: non steady state conduction
-/

namespace Verif

/-! ## C45 -/

/-- lumped_parameter computes the exponential relaxation, in K. -/
theorem C45_value (tf t0 h a rho cp v t : ℝ) (hr : rho ≠ 0) (hc : cp ≠ 0) (hv : v ≠ 0) :
    lumpedParameter (tempSI tf) (tempSI t0) (htcSI h) (areaSI a) (densSI rho) (cpSI cp) (volSI v) (timeSI t)
      = tempSI (tf - (tf - t0) * Real.exp (-(h * a * t) / (rho * cp * v))) := by
  units_eval [tempSI, areaSI, timeSI, volSI, densSI, cpSI, htcSI, lumpedParameter, hr, hc, hv, pyExp_num]
  exact okUnit_congr (by congr 3; field_simp)

/-- At time 0 the body is at its initial temperature. -/
theorem C45_start (tf t0 h a rho cp v : ℝ) (hr : rho ≠ 0) (hc : cp ≠ 0) (hv : v ≠ 0) :
    lumpedParameter (tempSI tf) (tempSI t0) (htcSI h) (areaSI a) (densSI rho) (cpSI cp) (volSI v) (timeSI 0)
      = tempSI t0 := by
  rw [C45_value tf t0 h a rho cp v 0 hr hc hv]; simp

/-- The temperature always lies between the initial and the fluid temperature. -/
theorem C45_between (tf t0 h a rho cp v t : ℝ) (hh : 0 < h) (ha : 0 < a) (hr : 0 < rho) (hc : 0 < cp) (hv : 0 < v)
    (ht : 0 ≤ t) :
    ∃ T, lumpedParameter (tempSI tf) (tempSI t0) (htcSI h) (areaSI a) (densSI rho) (cpSI cp) (volSI v) (timeSI t)
      = tempSI T ∧ min t0 tf ≤ T ∧ T ≤ max t0 tf := by
  refine ⟨_, C45_value tf t0 h a rho cp v t hr.ne' hc.ne' hv.ne', ?_⟩
  have h1 := Real.exp_pos (-(h * a * t) / (rho * cp * v))
  have h2 : Real.exp (-(h * a * t) / (rho * cp * v)) ≤ 1 := by
    rw [Real.exp_le_one_iff]; apply div_nonpos_of_nonpos_of_nonneg <;> [skip; positivity]
    have : 0 ≤ h * a * t := by positivity
    linarith
  set E := Real.exp (-(h * a * t) / (rho * cp * v))
  rcases le_total t0 tf with h3 | h3
  · rw [min_eq_left h3, max_eq_right h3]; constructor <;> nlinarith
  · rw [min_eq_right h3, max_eq_left h3]; constructor <;> nlinarith

/-- Later temperatures are strictly closer to the fluid temperature. -/
theorem C45_approach (tf t0 h a rho cp v t t' : ℝ) (hh : 0 < h) (ha : 0 < a) (hr : 0 < rho) (hc : 0 < cp) (hv : 0 < v)
    (htt : t < t') (hne : tf ≠ t0) :
    ∃ T T', lumpedParameter (tempSI tf) (tempSI t0) (htcSI h) (areaSI a) (densSI rho) (cpSI cp) (volSI v) (timeSI t)
        = tempSI T ∧
      lumpedParameter (tempSI tf) (tempSI t0) (htcSI h) (areaSI a) (densSI rho) (cpSI cp) (volSI v) (timeSI t')
        = tempSI T' ∧ |T' - tf| < |T - tf| := by
  refine ⟨_, _, C45_value tf t0 h a rho cp v t hr.ne' hc.ne' hv.ne', C45_value tf t0 h a rho cp v t' hr.ne' hc.ne' hv.ne',
    ?_⟩
  have h0 : 0 < |tf - t0| := abs_pos.2 (sub_ne_zero.2 hne)
  have key : ∀ E : ℝ, 0 < E → |tf - (tf - t0) * E - tf| = |tf - t0| * E := by
    intro E hE
    rw [show tf - (tf - t0) * E - tf = -((tf - t0) * E) by ring, abs_neg, abs_mul, abs_of_pos hE]
  rw [key _ (Real.exp_pos _), key _ (Real.exp_pos _)]
  apply mul_lt_mul_of_pos_left _ h0
  rw [Real.exp_lt_exp]
  apply div_lt_div_of_pos_right _ (by positivity)
  have := mul_lt_mul_of_pos_left htt (mul_pos hh ha)
  linarith

/-- Non-vacuity: all parameters 1, fluid 400 K, start 300 K. -/
example : ∃ T, lumpedParameter (tempSI 400) (tempSI 300) (htcSI 1) (areaSI 1) (densSI 1) (cpSI 1) (volSI 1) (timeSI 1)
    = tempSI T ∧ min 300 400 ≤ T ∧ T ≤ max 300 400 :=
  C45_between 400 300 1 1 1 1 1 1 one_pos one_pos one_pos one_pos one_pos zero_le_one

/-! ## C46 (conduction) -/

/-- semi_infinite_slab_conduction computes the error function profile, in K. -/
theorem C46_conduction_value (ts t0 z t rho cp k : ℝ) (ht : 0 < t) (hr : 0 < rho) (hc : 0 < cp) (hk : 0 < k) :
    semiInfiniteSlabConduction (tempSI ts) (tempSI t0) (lenSI z) (timeSI t) (densSI rho) (cpSI cp) (condSI k)
      = tempSI (ts - (ts - t0) * erf (z / Real.sqrt (4 * (k / (rho * cp)) * t))) := by
  have hp : 0 < t * (4 * (k / (rho * cp))) := by positivity
  have hs := (Real.sqrt_pos.2 hp).ne'
  units_eval [tempSI, lenSI, timeSI, densSI, cpSI, condSI, semiInfiniteSlabConduction, hr.ne', hc.ne', hk.ne',
    pow_real_half hp.le, pyErf_num, hs]
  exact okUnit_congr (by rw [mul_comm t])

/-- At depth 0 the slab is at the surface temperature. -/
theorem C46_conduction_surface (ts t0 t rho cp k : ℝ) (ht : 0 < t) (hr : 0 < rho) (hc : 0 < cp) (hk : 0 < k) :
    semiInfiniteSlabConduction (tempSI ts) (tempSI t0) (lenSI 0) (timeSI t) (densSI rho) (cpSI cp) (condSI k)
      = tempSI ts := by
  rw [C46_conduction_value ts t0 0 t rho cp k ht hr hc hk]; simp [erf_zero]

/-- The temperature lies between surface and initial temperature. -/
theorem C46_conduction_between (ts t0 z t rho cp k : ℝ) (hz : 0 ≤ z) (ht : 0 < t) (hr : 0 < rho) (hc : 0 < cp)
    (hk : 0 < k) :
    ∃ T, semiInfiniteSlabConduction (tempSI ts) (tempSI t0) (lenSI z) (timeSI t) (densSI rho) (cpSI cp) (condSI k)
      = tempSI T ∧ min t0 ts ≤ T ∧ T ≤ max t0 ts := by
  refine ⟨_, C46_conduction_value ts t0 z t rho cp k ht hr hc hk, ?_⟩
  have h1 : 0 ≤ erf (z / Real.sqrt (4 * (k / (rho * cp)) * t)) := erf_nonneg (div_nonneg hz (Real.sqrt_nonneg _))
  have h2 := erf_le_one (z / Real.sqrt (4 * (k / (rho * cp)) * t))
  set E := erf (z / Real.sqrt (4 * (k / (rho * cp)) * t))
  rcases le_total t0 ts with h3 | h3
  · rw [min_eq_left h3, max_eq_right h3]; constructor <;> nlinarith
  · rw [min_eq_right h3, max_eq_left h3]; constructor <;> nlinarith

/-- Deeper points are strictly closer to the initial temperature. -/
theorem C46_conduction_depth (ts t0 z z' t rho cp k : ℝ) (hzz : z < z') (ht : 0 < t) (hr : 0 < rho) (hc : 0 < cp)
    (hk : 0 < k) (hne : ts ≠ t0) :
    ∃ T T', semiInfiniteSlabConduction (tempSI ts) (tempSI t0) (lenSI z) (timeSI t) (densSI rho) (cpSI cp) (condSI k)
        = tempSI T ∧
      semiInfiniteSlabConduction (tempSI ts) (tempSI t0) (lenSI z') (timeSI t) (densSI rho) (cpSI cp) (condSI k)
        = tempSI T' ∧ |T' - t0| < |T - t0| := by
  refine ⟨_, _, C46_conduction_value ts t0 z t rho cp k ht hr hc hk, C46_conduction_value ts t0 z' t rho cp k ht hr hc hk,
    ?_⟩
  have hs : 0 < Real.sqrt (4 * (k / (rho * cp)) * t) := Real.sqrt_pos.2 (by positivity)
  have hlt : erf (z / Real.sqrt (4 * (k / (rho * cp)) * t)) < erf (z' / Real.sqrt (4 * (k / (rho * cp)) * t)) :=
    erf_strictMono (div_lt_div_of_pos_right hzz hs)
  have h0 : 0 < |ts - t0| := abs_pos.2 (sub_ne_zero.2 hne)
  have key : ∀ x : ℝ, |ts - (ts - t0) * erf x - t0| = |ts - t0| * (1 - erf x) := by
    intro x
    rw [show ts - (ts - t0) * erf x - t0 = (ts - t0) * (1 - erf x) by ring, abs_mul,
      abs_of_pos (sub_pos.2 (erf_lt_one x))]
  rw [key, key]
  exact mul_lt_mul_of_pos_left (by linarith) h0

/-- Non-vacuity: all parameters 1, surface 400 K, initially 300 K. -/
example : ∃ T, semiInfiniteSlabConduction (tempSI 400) (tempSI 300) (lenSI 1) (timeSI 1) (densSI 1) (cpSI 1) (condSI 1)
    = tempSI T ∧ min 300 400 ≤ T ∧ T ≤ max 300 400 :=
  C46_conduction_between 400 300 1 1 1 1 1 zero_le_one one_pos one_pos one_pos one_pos

/-! ## C47 -/

/-- The Fourier number of the slab. -/
noncomputable def fourier (s rho cp k t : ℝ) : ℝ := k / (rho * cp) * t / s ^ 2

theorem slabHeatTerm_num (s rho cp k t : ℝ) (hs : s ≠ 0) (hr : rho ≠ 0) (hc : cp ≠ 0) (n : ℕ) :
    slabHeatTerm (lenSI s) (condSI k / (densSI rho * cpSI cp)) (timeSI t) n = .ok (.num
      (1 / (2 * (n : ℝ) + 1) ^ 2 *
        (1 - Real.exp (-((2 * (n : ℝ) + 1) * (Real.pi / 2)) ^ 2 * fourier s rho cp k t)))) := by
  have hm : (2 * (n : ℝ) + 1) ≠ 0 := by positivity
  units_eval [slabHeatTerm, lenSI, condSI, densSI, cpSI, timeSI, hs, hr, hc, hm]
  exact okNum_congr (by rw [fourier]; congr 4; ring)

/-- Fraction of the maximal heat after `count` terms of the series. -/
noncomputable def slabFraction (F : ℝ) (count : ℕ) : ℝ :=
  8 / Real.pi ^ 2 * ∑ n ∈ Finset.range count,
    1 / (2 * (n : ℝ) + 1) ^ 2 * (1 - Real.exp (-((2 * (n : ℝ) + 1) * (Real.pi / 2)) ^ 2 * F))

/-- finite_slab_total_heat is the maximal heat times a partial sum of the Fourier series, in J. -/
theorem C47_value (s rho cp ts t0 k t a : ℝ) (n : ℤ) (hs : s ≠ 0) (hr : rho ≠ 0) (hc : cp ≠ 0) :
    finiteSlabTotalHeat (lenSI s) (densSI rho) (cpSI cp) (tempSI ts) (tempSI t0) (condSI k) (timeSI t) (areaSI a) n
      = qU .unit (s * rho * cp * (ts - t0) * a * slabFraction (fourier s rho cp k t) n.toNat) c!"J" := by
  simp only [finiteSlabTotalHeat]
  rw [pySum_num _ _ _ (slabHeatTerm_num s rho cp k t hs hr hc)]
  units_eval [lenSI, densSI, cpSI, areaSI, tempSI]
  exact okUnit_congr (by rw [slabFraction]; ring)

theorem hasSum_odd_squares : HasSum (fun n : ℕ => 1 / (2 * (n : ℝ) + 1) ^ 2) (Real.pi ^ 2 / 8) := by
  have h := hasSum_zeta_two
  have he : HasSum (fun n : ℕ => 1 / ((2 * n : ℕ) : ℝ) ^ 2) (Real.pi ^ 2 / 24) := by
    have h4 := h.mul_left (1 / 4)
    have e1 : (fun n : ℕ => 1 / ((2 * n : ℕ) : ℝ) ^ 2) = fun n : ℕ => 1 / 4 * (1 / (n : ℝ) ^ 2) := by
      funext n; push_cast; ring
    rw [e1, show Real.pi ^ 2 / 24 = 1 / 4 * (Real.pi ^ 2 / 6) by ring]
    exact h4
  have hs : Summable fun n : ℕ => 1 / ((2 * n + 1 : ℕ) : ℝ) ^ 2 :=
    h.summable.comp_injective (i := fun n : ℕ => 2 * n + 1) (fun a b hab => by simpa using hab)
  have h2 := (he.even_add_odd (f := fun n : ℕ => 1 / (n : ℝ) ^ 2) hs.hasSum).unique h
  have h3 := hs.hasSum
  rw [show (∑' n : ℕ, 1 / ((2 * n + 1 : ℕ) : ℝ) ^ 2) = Real.pi ^ 2 / 8 by linarith] at h3
  simpa using h3

theorem slabTerm_nonneg (F : ℝ) (hF : 0 ≤ F) (n : ℕ) :
    0 ≤ 1 / (2 * (n : ℝ) + 1) ^ 2 * (1 - Real.exp (-((2 * (n : ℝ) + 1) * (Real.pi / 2)) ^ 2 * F)) := by
  apply mul_nonneg (by positivity)
  rw [sub_nonneg, Real.exp_le_one_iff, neg_mul, neg_nonpos]
  positivity

theorem slabFraction_nonneg {F : ℝ} (hF : 0 ≤ F) (N : ℕ) : 0 ≤ slabFraction F N :=
  mul_nonneg (by positivity) (Finset.sum_nonneg fun n _ => slabTerm_nonneg F hF n)

theorem slabFraction_le_one (F : ℝ) (N : ℕ) : slabFraction F N ≤ 1 := by
  have h1 : ∑ n ∈ Finset.range N,
      1 / (2 * (n : ℝ) + 1) ^ 2 * (1 - Real.exp (-((2 * (n : ℝ) + 1) * (Real.pi / 2)) ^ 2 * F))
      ≤ ∑ n ∈ Finset.range N, 1 / (2 * (n : ℝ) + 1) ^ 2 := by
    apply Finset.sum_le_sum
    intro n _
    have h := Real.exp_pos (-((2 * (n : ℝ) + 1) * (Real.pi / 2)) ^ 2 * F)
    apply mul_le_of_le_one_right (by positivity)
    linarith
  have h2 : ∑ n ∈ Finset.range N, 1 / (2 * (n : ℝ) + 1) ^ 2 ≤ Real.pi ^ 2 / 8 :=
    sum_le_hasSum _ (fun n _ => by positivity) hasSum_odd_squares
  have hp : 0 < Real.pi ^ 2 := by positivity
  rw [slabFraction, div_mul_eq_mul_div, div_le_one hp]
  linarith

theorem slabFraction_mono_time {F F' : ℝ} (h : F ≤ F') (N : ℕ) : slabFraction F N ≤ slabFraction F' N := by
  apply mul_le_mul_of_nonneg_left _ (by positivity)
  apply Finset.sum_le_sum
  intro n _
  apply mul_le_mul_of_nonneg_left _ (by positivity)
  apply sub_le_sub_left
  rw [Real.exp_le_exp, neg_mul, neg_mul, neg_le_neg_iff]
  exact mul_le_mul_of_nonneg_left h (by positivity)

theorem slabFraction_mono_count {F : ℝ} (hF : 0 ≤ F) {N M : ℕ} (h : N ≤ M) : slabFraction F N ≤ slabFraction F M := by
  apply mul_le_mul_of_nonneg_left _ (by positivity)
  exact Finset.sum_le_sum_of_subset_of_nonneg (Finset.range_mono h) fun n _ _ => slabTerm_nonneg F hF n

theorem fourier_nonneg {s rho cp k t : ℝ} (hs : 0 < s) (hr : 0 < rho) (hc : 0 < cp) (hk : 0 < k) (ht : 0 ≤ t) :
    0 ≤ fourier s rho cp k t := by rw [fourier]; positivity

/-- The heat never exceeds `s*rho*cp*(Ts-To)*area`, the heat needed to bring the slab to the surface temperature; it is
never negative either. -/
theorem C47_bounded (s rho cp ts t0 k t a : ℝ) (n : ℤ) (hs : 0 < s) (hr : 0 < rho) (hc : 0 < cp) (hk : 0 < k)
    (ha : 0 ≤ a) (ht : 0 ≤ t) (hT : t0 ≤ ts) :
    ∃ q, finiteSlabTotalHeat (lenSI s) (densSI rho) (cpSI cp) (tempSI ts) (tempSI t0) (condSI k) (timeSI t) (areaSI a) n
      = qU .unit q c!"J" ∧ 0 ≤ q ∧ q ≤ s * rho * cp * (ts - t0) * a := by
  have hm : 0 ≤ s * rho * cp * (ts - t0) * a := by
    have := sub_nonneg.2 hT
    positivity
  exact ⟨_, C47_value s rho cp ts t0 k t a n hs.ne' hr.ne' hc.ne',
    mul_nonneg hm (slabFraction_nonneg (fourier_nonneg hs hr hc hk ht) _),
    mul_le_of_le_one_right hm (slabFraction_le_one _ _)⟩

/-- The heat is nondecreasing in time and in the number of iterations. -/
theorem C47_monotone (s rho cp ts t0 k t t' a : ℝ) (n n' : ℤ) (hs : 0 < s) (hr : 0 < rho) (hc : 0 < cp) (hk : 0 < k)
    (ha : 0 ≤ a) (ht : 0 ≤ t) (htt : t ≤ t') (hn : n ≤ n') (hT : t0 ≤ ts) :
    ∃ q q', finiteSlabTotalHeat (lenSI s) (densSI rho) (cpSI cp) (tempSI ts) (tempSI t0) (condSI k) (timeSI t)
        (areaSI a) n = qU .unit q c!"J" ∧
      finiteSlabTotalHeat (lenSI s) (densSI rho) (cpSI cp) (tempSI ts) (tempSI t0) (condSI k) (timeSI t')
        (areaSI a) n' = qU .unit q' c!"J" ∧ q ≤ q' := by
  have hm : 0 ≤ s * rho * cp * (ts - t0) * a := by
    have := sub_nonneg.2 hT
    positivity
  refine ⟨_, _, C47_value s rho cp ts t0 k t a n hs.ne' hr.ne' hc.ne',
    C47_value s rho cp ts t0 k t' a n' hs.ne' hr.ne' hc.ne', mul_le_mul_of_nonneg_left ?_ hm⟩
  refine (slabFraction_mono_count (fourier_nonneg hs hr hc hk ht) (Int.toNat_le_toNat hn)).trans
    (slabFraction_mono_time ?_ _)
  simp only [fourier]
  gcongr

/-- The bound is sharp: with iterations and time growing the fraction tends to 1 (here: for every `ε` some time and count
come within `ε`). -/
theorem C47_sharp (ε : ℝ) (hε : 0 < ε) : ∃ F N, 1 - ε < slabFraction F N := by
  have hp : 0 < Real.pi ^ 2 := by positivity
  have h1 := hasSum_odd_squares.tendsto_sum_nat
  obtain ⟨N, hN⟩ := ((tendsto_order.1 h1).1 (Real.pi ^ 2 / 8 * (1 - ε / 2))
    (by have : 0 < Real.pi ^ 2 * ε := mul_pos hp hε
        nlinarith)).exists
  have h2 : Filter.Tendsto (fun F => slabFraction F N) Filter.atTop
      (nhds (8 / Real.pi ^ 2 * ∑ n ∈ Finset.range N, 1 / (2 * (n : ℝ) + 1) ^ 2 * (1 - 0))) := by
    apply Filter.Tendsto.const_mul
    apply tendsto_finsetSum
    intro n _
    apply Filter.Tendsto.const_mul
    apply Filter.Tendsto.const_sub
    apply Real.tendsto_exp_atBot.comp
    apply Filter.Tendsto.const_mul_atTop_of_neg _ Filter.tendsto_id
    have : 0 < ((2 * (n : ℝ) + 1) * (Real.pi / 2)) ^ 2 := by have := Real.pi_pos; positivity
    linarith
  have h3 : 1 - ε < 8 / Real.pi ^ 2 * ∑ n ∈ Finset.range N, 1 / (2 * (n : ℝ) + 1) ^ 2 * (1 - 0) := by
    simp only [sub_zero, mul_one]
    rw [div_mul_eq_mul_div, lt_div_iff₀ hp]
    nlinarith
  obtain ⟨F, hF⟩ := ((tendsto_order.1 h2).1 _ h3).exists
  exact ⟨F, N, hF⟩

/-- Non-vacuity: a slab with all parameters 1 heated by 100 K. -/
example : ∃ q, finiteSlabTotalHeat (lenSI 1) (densSI 1) (cpSI 1) (tempSI 400) (tempSI 300) (condSI 1) (timeSI 1)
    (areaSI 1) 5 = qU .unit q c!"J" ∧ 0 ≤ q ∧ q ≤ 1 * 1 * 1 * (400 - 300) * 1 :=
  C47_bounded 1 1 1 400 300 1 1 1 5 one_pos one_pos one_pos one_pos zero_le_one zero_le_one (by norm_num)

/-! ## C48 -/

theorem slabTerm_num (x s rho cp k t : ℝ) (hs : s ≠ 0) (hr : rho ≠ 0) (hc : cp ≠ 0) (n : ℕ) :
    slabTerm (lenSI x) (lenSI s) (condSI k / (densSI rho * cpSI cp)) (timeSI t) n = .ok (.num
      (1 / (2 * (n : ℝ) + 1) * Real.sin ((2 * (n : ℝ) + 1) * Real.pi * x / (2 * s)) *
        Real.exp (-((2 * (n : ℝ) + 1) * (Real.pi / 2)) ^ 2 * fourier s rho cp k t))) := by
  have hm : (2 * (n : ℝ) + 1) ≠ 0 := by positivity
  units_eval [slabTerm, lenSI, condSI, densSI, cpSI, timeSI, hs, hr, hc, hm]
  exact okNum_congr (by rw [fourier]; congr 4 <;> ring)

/-- What finite_slab_conduction computes: a partial sum of the sine series, in K. -/
theorem C48_value (ts t0 x s k rho cp t : ℝ) (n : ℤ) (hs : s ≠ 0) (hr : rho ≠ 0) (hc : cp ≠ 0) :
    finiteSlabConduction (tempSI ts) (tempSI t0) (lenSI x) (lenSI s) (condSI k) (densSI rho) (cpSI cp) (timeSI t) n
      = tempSI (ts - (ts - t0) * (4 / Real.pi) * ∑ n ∈ Finset.range (n + 1).toNat,
        1 / (2 * (n : ℝ) + 1) * Real.sin ((2 * (n : ℝ) + 1) * Real.pi * x / (2 * s)) *
          Real.exp (-((2 * (n : ℝ) + 1) * (Real.pi / 2)) ^ 2 * fourier s rho cp k t)) := by
  simp only [finiteSlabConduction]
  rw [pySum_num _ _ _ (slabTerm_num x s rho cp k t hs hr hc)]
  units_eval [tempSI]

/-- C48 with the opposite convention: `x` is measured from the surface. At `x = 0` the code returns the surface
temperature, for all parameters and iteration counts, and the profile is symmetric about `x = s`, the no-flux line.
Missing: the documented convention, which the code does not follow (`C48_no_flux_line_false`). -/
theorem C48_from_surface_partial (ts t0 d s k rho cp t : ℝ) (n : ℤ) (hs : s ≠ 0) (hr : rho ≠ 0) (hc : cp ≠ 0) :
    finiteSlabConduction (tempSI ts) (tempSI t0) (lenSI 0) (lenSI s) (condSI k) (densSI rho) (cpSI cp) (timeSI t) n
      = tempSI ts ∧
    finiteSlabConduction (tempSI ts) (tempSI t0) (lenSI (s - d)) (lenSI s) (condSI k) (densSI rho) (cpSI cp)
        (timeSI t) n =
      finiteSlabConduction (tempSI ts) (tempSI t0) (lenSI (s + d)) (lenSI s) (condSI k) (densSI rho) (cpSI cp)
        (timeSI t) n := by
  constructor
  · rw [C48_value ts t0 0 s k rho cp t n hs hr hc]; simp
  · rw [C48_value ts t0 _ s k rho cp t n hs hr hc, C48_value ts t0 _ s k rho cp t n hs hr hc]
    congr 3
    apply Finset.sum_congr rfl
    intro m _
    congr 2
    have : (2 * (m : ℝ) + 1) * Real.pi * (s - d) / (2 * s)
        = Real.pi - (2 * (m : ℝ) + 1) * Real.pi * (s + d) / (2 * s) + (m : ℝ) * (2 * Real.pi) := by
      field_simp; ring
    rw [this, Real.sin_add_nat_mul_two_pi, Real.sin_pi_sub]

/-- With `x` measured from the no-flux line, as documented, the temperature at the surface `x = s` is not the surface
temperature. -/
theorem C48_no_flux_line_false :
    ¬ ∀ (ts t0 s k rho cp t : ℝ) (n : ℤ), 0 < s → 0 < k → 0 < rho → 0 < cp → 0 < t →
      finiteSlabConduction (tempSI ts) (tempSI t0) (lenSI s) (lenSI s) (condSI k) (densSI rho) (cpSI cp) (timeSI t) n
        = tempSI ts := by
  intro h
  have h1 := h 1 0 1 1 1 1 1 0 one_pos one_pos one_pos one_pos one_pos
  rw [C48_value 1 0 1 1 1 1 1 1 0 one_ne_zero one_ne_zero one_ne_zero] at h1
  simp only [tempSI, qU, mkUnit_temperature, Except.ok.injEq, Val.unit.injEq, UnitV.mk.injEq, true_and, and_true] at h1
  simp at h1

/-- Non-vacuity. -/
example : finiteSlabConduction (tempSI 400) (tempSI 300) (lenSI 0) (lenSI 2) (condSI 1) (densSI 1) (cpSI 1) (timeSI 1) 10
    = tempSI 400 := (C48_from_surface_partial 400 300 1 2 1 1 1 1 10 two_ne_zero one_ne_zero one_ne_zero).1

end Verif
