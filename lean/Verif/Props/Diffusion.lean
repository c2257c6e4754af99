import Verif.Tactic.UnitsEval
import Verif.MassTransfer.Steady
import Verif.MassTransfer.Transient
import Verif.MassTransfer.Pulses
import Verif.Spec.SI
import Verif.Lemmas.Erf

/-!
# C46 (diffusion), C54, C55: diffusion
-/

namespace Verif

/-! ## C46 (diffusion) -/

/-- semi_infinite_slab_diffusion computes the error function profile, a MultiUnit in kg/m^3. -/
theorem C46_diffusion_value (cs c0 z D t : ℝ) (hD : 0 < D) (ht : 0 < t) :
    semiInfiniteSlabDiffusion (concSI cs) (concSI c0) (lenSI z) (diffSI D) (timeSI t)
      = qMulti (cs - (cs - c0) * erf (z / Real.sqrt (4 * D * t))) c!"kg/m^3" := by
  have hp : 0 < t * (4 * D) := by positivity
  have hs := (Real.sqrt_pos.2 hp).ne'
  units_eval [semiInfiniteSlabDiffusion, concSI, lenSI, diffSI, timeSI, pow_real_half hp.le, hs]
  exact okMulti_congr (by rw [mul_comm t])

/-- At depth 0 the concentration is the surface concentration. -/
theorem C46_diffusion_surface (cs c0 D t : ℝ) (hD : 0 < D) (ht : 0 < t) :
    semiInfiniteSlabDiffusion (concSI cs) (concSI c0) (lenSI 0) (diffSI D) (timeSI t) = qMulti cs c!"kg/m^3" := by
  rw [C46_diffusion_value cs c0 0 D t hD ht]; simp [erf_zero]

/-- The concentration lies between surface and initial concentration. -/
theorem C46_diffusion_between (cs c0 z D t : ℝ) (hz : 0 ≤ z) (hD : 0 < D) (ht : 0 < t) :
    ∃ C, semiInfiniteSlabDiffusion (concSI cs) (concSI c0) (lenSI z) (diffSI D) (timeSI t) = qMulti C c!"kg/m^3" ∧
      min c0 cs ≤ C ∧ C ≤ max c0 cs := by
  refine ⟨_, C46_diffusion_value cs c0 z D t hD ht, ?_⟩
  have h1 : 0 ≤ erf (z / Real.sqrt (4 * D * t)) := erf_nonneg (div_nonneg hz (Real.sqrt_nonneg _))
  have h2 := erf_le_one (z / Real.sqrt (4 * D * t))
  set E := erf (z / Real.sqrt (4 * D * t))
  rcases le_total c0 cs with h3 | h3
  · rw [min_eq_left h3, max_eq_right h3]; constructor <;> nlinarith
  · rw [min_eq_right h3, max_eq_left h3]; constructor <;> nlinarith

/-- Deeper points are strictly closer to the initial concentration. -/
theorem C46_diffusion_depth (cs c0 z z' D t : ℝ) (hzz : z < z') (hD : 0 < D) (ht : 0 < t) (hne : cs ≠ c0) :
    ∃ C C', semiInfiniteSlabDiffusion (concSI cs) (concSI c0) (lenSI z) (diffSI D) (timeSI t) = qMulti C c!"kg/m^3" ∧
      semiInfiniteSlabDiffusion (concSI cs) (concSI c0) (lenSI z') (diffSI D) (timeSI t) = qMulti C' c!"kg/m^3" ∧
      |C' - c0| < |C - c0| := by
  refine ⟨_, _, C46_diffusion_value cs c0 z D t hD ht, C46_diffusion_value cs c0 z' D t hD ht, ?_⟩
  have hs : 0 < Real.sqrt (4 * D * t) := Real.sqrt_pos.2 (by positivity)
  have hlt : erf (z / Real.sqrt (4 * D * t)) < erf (z' / Real.sqrt (4 * D * t)) :=
    erf_strictMono (div_lt_div_of_pos_right hzz hs)
  have h0 : 0 < |cs - c0| := abs_pos.2 (sub_ne_zero.2 hne)
  have key : ∀ x : ℝ, |cs - (cs - c0) * erf x - c0| = |cs - c0| * (1 - erf x) := by
    intro x
    rw [show cs - (cs - c0) * erf x - c0 = (cs - c0) * (1 - erf x) by ring, abs_mul,
      abs_of_pos (sub_pos.2 (erf_lt_one x))]
  rw [key, key]
  exact mul_lt_mul_of_pos_left (by linarith) h0

/-- Non-vacuity: surface 2, initially 1. -/
example : ∃ C, semiInfiniteSlabDiffusion (concSI 2) (concSI 1) (lenSI 1) (diffSI 1) (timeSI 1) = qMulti C c!"kg/m^3" ∧
    min 1 2 ≤ C ∧ C ≤ max 1 2 := C46_diffusion_between 2 1 1 1 1 zero_le_one one_pos one_pos

/-! ## C55 -/

theorem C55_planar (D a c2 c1 x : ℝ) (hx : x ≠ 0) :
    planarMassTransfer (diffSI D) (areaSI a) (concSI c2) (concSI c1) (lenSI x)
      = qMulti (-D * a * (c2 - c1) / x) c!"kg/s" := by
  units_eval [planarMassTransfer, diffSI, areaSI, concSI, lenSI, hx]
  exact okMulti_congr (by field_simp)

theorem C55_planar_flux (D c2 c1 x : ℝ) (hx : x ≠ 0) :
    planarMassFlux (diffSI D) (concSI c2) (concSI c1) (lenSI x)
      = qMulti (-D * (c2 - c1) / x) c!"kg/m^2*s" := by
  units_eval [planarMassFlux, diffSI, areaSI, concSI, lenSI, hx]
  exact okMulti_congr (by field_simp)

theorem C55_pipe (D r2 r1 c2 c1 l : ℝ) (h1 : 0 < r1) (h2 : 0 < r2) (hr : r1 ≠ r2) :
    pipeMassTransfer (diffSI D) (lenSI r2) (lenSI r1) (concSI c2) (concSI c1) (lenSI l)
      = qMulti (-2 * Real.pi * l * D * (c2 - c1) / Real.log (r2 / r1)) c!"kg/s" := by
  have hq : 0 < r2 / r1 := div_pos h2 h1
  have hlog : Real.log (r2 / r1) ≠ 0 := by
    apply Real.log_ne_zero_of_pos_of_ne_one hq
    intro h; rw [div_eq_one_iff_eq h1.ne'] at h; exact hr h.symm
  units_eval [pipeMassTransfer, diffSI, concSI, lenSI, pyLog_num hq, hlog, h1.ne']
  exact okMulti_congr (by field_simp)

theorem C55_sphere (D r2 r1 c2 c1 : ℝ) (hr : r2 - r1 ≠ 0) :
    sphereMassTransfer (diffSI D) (lenSI r2) (lenSI r1) (concSI c2) (concSI c1)
      = qMulti (-4 * Real.pi * r1 * r2 * D * (c2 - c1) / (r2 - r1)) c!"kg/s" := by
  units_eval [sphereMassTransfer, diffSI, concSI, lenSI, hr]
  exact okMulti_congr (by field_simp)

/-- No driving force, no flow. -/
theorem C55_no_difference (D a c x r2 r1 l : ℝ) (hx : x ≠ 0) (h1 : 0 < r1) (h2 : 0 < r2) (hr : r1 ≠ r2) :
    planarMassTransfer (diffSI D) (areaSI a) (concSI c) (concSI c) (lenSI x) = qMulti 0 c!"kg/s" ∧
    pipeMassTransfer (diffSI D) (lenSI r2) (lenSI r1) (concSI c) (concSI c) (lenSI l) = qMulti 0 c!"kg/s" ∧
    sphereMassTransfer (diffSI D) (lenSI r2) (lenSI r1) (concSI c) (concSI c) = qMulti 0 c!"kg/s" := by
  refine ⟨?_, ?_, ?_⟩
  · rw [C55_planar D a c c x hx]; simp
  · rw [C55_pipe D r2 r1 c c l h1 h2 hr]; simp
  · rw [C55_sphere D r2 r1 c c (sub_ne_zero.2 (Ne.symm hr))]; simp

/-- Non-vacuity: unit wall with concentrations 1 and 3. -/
example : planarMassTransfer (diffSI 1) (areaSI 2) (concSI 1) (concSI 3) (lenSI 4) = qMulti 1 c!"kg/s" := by
  rw [C55_planar 1 2 1 3 4 (by norm_num)]; norm_num

/-! ## C54 -/

/-- Concentration of a spreading pulse in `n` dimensions. -/
noncomputable def pulse (n : ℝ) (m d D t : ℝ) : ℝ :=
  m * Real.exp (-d ^ 2 / (4 * D * t)) / (4 * Real.pi * D * t) ^ (n / 2)

theorem C54_one_d (m a d D t : ℝ) (ha : a ≠ 0) (hD : 0 < D) (ht : 0 < t) :
    oneDPulse (massSI m) (areaSI a) (lenSI d) (diffSI D) (timeSI t) = qMulti (pulse 1 (m / a) d D t) c!"kg/m^3" := by
  have hp : 0 < t * (4 * Real.pi * D) := by have := Real.pi_pos; positivity
  have hpn : (t * (4 * Real.pi * D)) ^ ((1 / 2 : ℚ) : ℝ) ≠ 0 := (Real.rpow_pos_of_pos hp _).ne'
  units_eval [oneDPulse, massSI, lenSI, diffSI, areaSI, timeSI, hD.ne', ht.ne', ha, pow_real_pos hp, hpn]
  exact okMulti_congr (by rw [pulse]; push_cast; congr 2 <;> ring_nf)

theorem C54_two_d (m l d D t : ℝ) (hl : l ≠ 0) (hD : 0 < D) (ht : 0 < t) :
    twoDPulse (massSI m) (lenSI l) (lenSI d) (diffSI D) (timeSI t) = qMulti (pulse 2 (m / l) d D t) c!"kg/m^3" := by
  units_eval [twoDPulse, massSI, lenSI, diffSI, timeSI, hD.ne', ht.ne', hl]
  exact okMulti_congr (by rw [pulse, div_self two_ne_zero, Real.rpow_one]; ring_nf)

/-- The factor by which three_d_pulse_decay multiplies the mass; unknown shapes are accepted silently. -/
def shapeFactor (shape : Sym) : ℝ := if shape = c!"hemisphere" then 2 else if shape = c!"cube" then 8 else 1

theorem C54_three_d (m d D t : ℝ) (shape : Sym) (hD : 0 < D) (ht : 0 < t) :
    threeDPulse (massSI m) (lenSI d) (diffSI D) (timeSI t) shape
      = qMulti (pulse 3 (shapeFactor shape * m) d D t) c!"kg/m^3" := by
  have hp : 0 < t * (4 * Real.pi * D) := by have := Real.pi_pos; positivity
  have hpn : (t * (4 * Real.pi * D)) ^ ((3 / 2 : ℚ) : ℝ) ≠ 0 := (Real.rpow_pos_of_pos hp _).ne'
  by_cases h1 : shape = c!"hemisphere"
  · subst h1
    units_eval [threeDPulse, massSI, lenSI, diffSI, timeSI, hD.ne', ht.ne', pow_real_pos hp, hpn]
    exact okMulti_congr (by rw [pulse, shapeFactor, if_pos rfl]; push_cast; congr 2 <;> ring_nf)
  · by_cases h2 : shape = c!"cube"
    · subst h2
      units_eval [threeDPulse, massSI, lenSI, diffSI, timeSI, hD.ne', ht.ne', pow_real_pos hp, hpn]
      exact okMulti_congr (by rw [pulse, shapeFactor, if_neg h1, if_pos rfl]; push_cast; congr 2 <;> ring_nf)
    · units_eval [threeDPulse, massSI, lenSI, diffSI, timeSI, hD.ne', ht.ne', pow_real_pos hp, hpn, h1, h2]
      exact okMulti_congr (by rw [pulse, shapeFactor, if_neg h1, if_neg h2]; push_cast; congr 2 <;> ring_nf)

/-- C54, for SI inputs. Missing: diffusion coefficients in cm^2/s (`C54_cm_false`). -/
theorem C54_SI_partial (m a l d D t : ℝ) (ha : a ≠ 0) (hl : l ≠ 0) (hD : 0 < D) (ht : 0 < t) :
    oneDPulse (massSI m) (areaSI a) (lenSI d) (diffSI D) (timeSI t) = qMulti (pulse 1 (m / a) d D t) c!"kg/m^3" ∧
    twoDPulse (massSI m) (lenSI l) (lenSI d) (diffSI D) (timeSI t) = qMulti (pulse 2 (m / l) d D t) c!"kg/m^3" ∧
    threeDPulse (massSI m) (lenSI d) (diffSI D) (timeSI t) c!"hemisphere" = qMulti (pulse 3 (2 * m) d D t) c!"kg/m^3" ∧
    threeDPulse (massSI m) (lenSI d) (diffSI D) (timeSI t) c!"cube" = qMulti (pulse 3 (8 * m) d D t) c!"kg/m^3" :=
  ⟨C54_one_d m a d D t ha hD ht, C54_two_d m l d D t hl hD ht,
    by rw [C54_three_d m d D t _ hD ht, shapeFactor, if_pos rfl],
    by rw [C54_three_d m d D t _ hD ht, shapeFactor, if_neg (by decide), if_pos rfl]⟩

/-- `DiffusionCoefficient(D, "cm^2/s")`. -/
def diffCm (D : ℝ) : PyM (Val ℝ) := qM c!"DiffusionCoefficient" D c!"cm^2/s"

/-- A diffusion coefficient in cm^2/s is treated as if it were in m^2/s: the conversion factor is lost when it is
multiplied by the time. -/
theorem C54_cm_ignored (m a d D t : ℝ) (ha : a ≠ 0) (hD : 0 < D) (ht : 0 < t) :
    oneDPulse (massSI m) (areaSI a) (lenSI d) (diffCm D) (timeSI t) = qMulti (pulse 1 (m / a) d D t) c!"kg/m^3" := by
  have hp : 0 < t * (4 * Real.pi * D) := by have := Real.pi_pos; positivity
  have hpn : (t * (4 * Real.pi * D)) ^ ((1 / 2 : ℚ) : ℝ) ≠ 0 := (Real.rpow_pos_of_pos hp _).ne'
  units_eval [oneDPulse, massSI, lenSI, diffCm, areaSI, timeSI, hD.ne', ht.ne', ha, pow_real_pos hp, hpn]
  exact okMulti_congr (by rw [pulse]; push_cast; congr 2 <;> ring_nf)

/-- The same in two dimensions. -/
theorem C54_cm_ignored_two_d (m l d D t : ℝ) (hl : l ≠ 0) (hD : 0 < D) (ht : 0 < t) :
    twoDPulse (massSI m) (lenSI l) (lenSI d) (diffCm D) (timeSI t) = qMulti (pulse 2 (m / l) d D t) c!"kg/m^3" := by
  units_eval [twoDPulse, massSI, lenSI, diffCm, timeSI, hD.ne', ht.ne', hl]
  exact okMulti_congr (by rw [pulse, div_self two_ne_zero, Real.rpow_one]; ring_nf)

/-- And in three. -/
theorem C54_cm_ignored_three_d (m d D t : ℝ) (shape : Sym) (hD : 0 < D) (ht : 0 < t) :
    threeDPulse (massSI m) (lenSI d) (diffCm D) (timeSI t) shape
      = qMulti (pulse 3 (shapeFactor shape * m) d D t) c!"kg/m^3" := by
  have hp : 0 < t * (4 * Real.pi * D) := by have := Real.pi_pos; positivity
  have hpn : (t * (4 * Real.pi * D)) ^ ((3 / 2 : ℚ) : ℝ) ≠ 0 := (Real.rpow_pos_of_pos hp _).ne'
  by_cases h1 : shape = c!"hemisphere"
  · subst h1
    units_eval [threeDPulse, massSI, lenSI, diffCm, timeSI, hD.ne', ht.ne', pow_real_pos hp, hpn]
    exact okMulti_congr (by rw [pulse, shapeFactor, if_pos rfl]; push_cast; congr 2 <;> ring_nf)
  · by_cases h2 : shape = c!"cube"
    · subst h2
      units_eval [threeDPulse, massSI, lenSI, diffCm, timeSI, hD.ne', ht.ne', pow_real_pos hp, hpn]
      exact okMulti_congr (by rw [pulse, shapeFactor, if_neg h1, if_pos rfl]; push_cast; congr 2 <;> ring_nf)
    · units_eval [threeDPulse, massSI, lenSI, diffCm, timeSI, hD.ne', ht.ne', pow_real_pos hp, hpn, h1, h2]
      exact okMulti_congr (by rw [pulse, shapeFactor, if_neg h1, if_neg h2]; push_cast; congr 2 <;> ring_nf)

/-- So in cm^2/s the result is that of the same number in m^2/s, a coefficient 10000 times as large, in all three. -/
theorem C54_cm_as_metres (m a l d D t : ℝ) (shape : Sym) (ha : a ≠ 0) (hl : l ≠ 0) (hD : 0 < D) (ht : 0 < t) :
    oneDPulse (massSI m) (areaSI a) (lenSI d) (diffCm D) (timeSI t) =
      oneDPulse (massSI m) (areaSI a) (lenSI d) (diffSI D) (timeSI t) ∧
    twoDPulse (massSI m) (lenSI l) (lenSI d) (diffCm D) (timeSI t) =
      twoDPulse (massSI m) (lenSI l) (lenSI d) (diffSI D) (timeSI t) ∧
    threeDPulse (massSI m) (lenSI d) (diffCm D) (timeSI t) shape =
      threeDPulse (massSI m) (lenSI d) (diffSI D) (timeSI t) shape := by
  rw [C54_cm_ignored m a d D t ha hD ht, C54_one_d m a d D t ha hD ht, C54_cm_ignored_two_d m l d D t hl hD ht,
    C54_two_d m l d D t hl hD ht, C54_cm_ignored_three_d m d D t shape hD ht, C54_three_d m d D t shape hD ht]
  exact ⟨rfl, rfl, rfl⟩

/-- At the source the two spellings of one coefficient give concentrations 100, 10000 and 1000000 times apart. -/
theorem C54_cm_ratio (n m D t : ℝ) (hD : 0 < D) (ht : 0 < t) :
    pulse n m 0 D t = 10000 ^ (n / 2) * pulse n m 0 (10000 * D) t := by
  have hx : 0 < 4 * Real.pi * D * t := by have := Real.pi_pos; positivity
  have h1 : (10000 : ℝ) ^ (n / 2) ≠ 0 := (Real.rpow_pos_of_pos (by norm_num) _).ne'
  have h2 : (4 * Real.pi * D * t) ^ (n / 2) ≠ 0 := (Real.rpow_pos_of_pos hx _).ne'
  simp only [pulse, ne_eq, OfNat.ofNat_ne_zero, not_false_eq_true, zero_pow, neg_zero, zero_div, Real.exp_zero,
    mul_one, show 4 * Real.pi * (10000 * D) * t = 10000 * (4 * Real.pi * D * t) by ring]
  rw [Real.mul_rpow (by norm_num) hx.le]
  generalize (4 * Real.pi * D * t) ^ (n / 2) = y at *
  field_simp

/-- 1 m^2/s is 10000 cm^2/s, but the two give different concentrations. -/
theorem C54_cm_false :
    ¬ ∀ m a d D t : ℝ, 0 < m → 0 < a → 0 ≤ d → 0 < D → 0 < t →
      oneDPulse (massSI m) (areaSI a) (lenSI d) (diffCm (10000 * D)) (timeSI t)
        = oneDPulse (massSI m) (areaSI a) (lenSI d) (diffSI D) (timeSI t) := by
  intro h
  have h1 := h 1 1 0 1 1 one_pos one_pos le_rfl one_pos one_pos
  rw [C54_cm_ignored 1 1 0 _ 1 one_ne_zero (by norm_num) one_pos, C54_one_d 1 1 0 1 1 one_ne_zero one_pos one_pos] at h1
  units_eval [Except.ok.injEq, Val.multi.injEq, MultiV.mk.injEq, pulse] at h1
  have hpi := Real.pi_pos
  have h2 : (4 * Real.pi * 1) ^ ((1 : ℝ) / 2) < (4 * Real.pi * (10000 * 1)) ^ ((1 : ℝ) / 2) := by
    apply Real.rpow_lt_rpow (by positivity) (by nlinarith) (by norm_num)
  have h3 : 0 < (4 * Real.pi * 1) ^ ((1 : ℝ) / 2) := by positivity
  simp only [ne_eq, OfNat.ofNat_ne_zero, not_false_eq_true, zero_pow, neg_zero, zero_div, Real.exp_zero, mul_one,
    div_one, one_div] at h1 h2 h3
  rw [inv_inj] at h1
  rw [h1] at h2
  exact lt_irrefl _ h2

/-- Non-vacuity: 1 kg on 1 m^2 with D·t = 1/(4π) m² gives 1 kg/m³ at the origin. -/
example : oneDPulse (massSI 1) (areaSI 1) (lenSI 0) (diffSI (1 / (4 * Real.pi))) (timeSI 1) = qMulti 1 c!"kg/m^3" := by
  have := Real.pi_pos
  rw [C54_one_d 1 1 0 _ 1 one_ne_zero (by positivity) one_pos]
  congr 1
  have h : 4 * Real.pi * (1 / (4 * Real.pi)) * 1 = 1 := by field_simp
  rw [pulse, h]; simp

end Verif
