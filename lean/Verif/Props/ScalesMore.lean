import Verif.Props.Scales
import Verif.Props.Reactions
import Verif.MassTransfer.Coefficients

/-!
# C93: more functions on the four scales
-/

namespace Verif

/-! ## Flux, pipes and cooling with all degrees of one scale -/

/-- planar_flux, all four unknowns. -/
theorem C93_flux (s : Scale) (k t1 t2 x : ℝ) (hx : x ≠ 0) :
    pcall (planarFlux · []) [condOn s k, tempOn s t1, tempOn s t2, lenSI x]
      = qMulti (-k * (t2 - t1) / x) c!"W/m^2" := by
  cases s <;>
  · units_eval [condOn, Scale.sym, List.cons_append, List.nil_append, tempOn, lenSI, planarFlux_qA, hx]
    exact okMulti_congr (by field_simp)

theorem C93_flux_thickness (s : Scale) (k t1 t2 q : ℝ) (hq : q ≠ 0) :
    pcall (planarFlux · []) [condOn s k, tempOn s t1, tempOn s t2, pNone, qMulti q c!"W/m^2"]
      = qU .unit (-k * (t2 - t1) / q) c!"m" := by
  cases s <;>
  · units_eval [condOn, Scale.sym, List.cons_append, List.nil_append, tempOn, lenSI, planarFlux_thickness, hq]
    exact okUnit_congr (by field_simp)

theorem C93_flux_T2 (s : Scale) (k t1 x q : ℝ) (hk : k ≠ 0) :
    pcall (planarFlux · []) [condOn s k, tempOn s t1, pNone, lenSI x, qMulti q c!"W/m^2"]
      = qU .unit (t1 - q * x / k) s.sym := by
  cases s <;>
  · units_eval [condOn, Scale.sym, List.cons_append, List.nil_append, tempOn, lenSI, planarFlux_T2, hk]
    exact okUnit_congr (by field_simp; ring)

theorem C93_flux_T1 (s : Scale) (k t2 x q : ℝ) (hk : k ≠ 0) :
    pcall (planarFlux · []) [condOn s k, pNone, tempOn s t2, lenSI x, qMulti q c!"W/m^2"]
      = qU .unit (t2 + q * x / k) s.sym := by
  cases s <;>
  · units_eval [condOn, Scale.sym, List.cons_append, List.nil_append, tempOn, lenSI, planarFlux_T1, hk]
    exact okUnit_congr (by field_simp; ring)

/-- pipe_heat. -/
theorem C93_pipe (s : Scale) (k t1 t2 l r2 r1 : ℝ) (h1 : 0 < r1) (h2 : 0 < r2) (hr : r1 ≠ r2) :
    pipeHeat (condOn s k) (tempOn s t1) (tempOn s t2) (lenSI l) (lenSI r2) (lenSI r1)
      = qU .unit (-2 * Real.pi * l * k * (t2 - t1) / Real.log (r2 / r1)) c!"W" := by
  have hq : 0 < r2 / r1 := div_pos h2 h1
  have hlog : Real.log (r2 / r1) ≠ 0 := by
    apply Real.log_ne_zero_of_pos_of_ne_one hq
    intro h; rw [div_eq_one_iff_eq h1.ne'] at h; exact hr h.symm
  cases s <;>
  · units_eval [condOn, Scale.sym, List.cons_append, List.nil_append, tempOn, lenSI, pipeHeat, pyPi, pyLog_num hq, h1.ne',
      hlog]
    exact okUnit_congr (by field_simp)

/-- A wall of 100 °C and 0 °C, conductivity in W/m*C. -/
example : pcall (planarFlux · []) [condOn .C 2, tempOn .C 100, tempOn .C 0, lenSI 4] = qMulti 50 c!"W/m^2" := by
  rw [C93_flux _ _ _ _ _ (by norm_num)]
  norm_num

/-- lumped_parameter with coefficient and heat capacity per degree of one scale and temperatures on another. -/
theorem C93_lumped_value (s u : Scale) (tf t0 h a rho cp v t : ℝ) (hr : rho ≠ 0) (hc : cp ≠ 0) (hv : v ≠ 0) :
    lumpedParameter (tempOn s tf) (tempOn s t0) (qM c!"HeatTransferCoefficient" h (c!"W/m^2*" ++ u.sym)) (areaSI a)
        (densSI rho) (qM c!"Cp" cp (c!"J/kg*" ++ u.sym)) (volSI v) (timeSI t)
      = tempOn s (tf - (tf - t0) * Real.exp (-(h * a * t) / (rho * cp * v))) := by
  have e : (-(qM c!"HeatTransferCoefficient" h (c!"W/m^2*" ++ u.sym) * areaSI a * timeSI t) : PyM (Val ℝ)) /
      (densSI rho * qM c!"Cp" cp (c!"J/kg*" ++ u.sym) * volSI v) = .ok (.num (-(h * a * t) / (rho * cp * v))) := by
    cases u <;>
    · units_eval [Scale.sym, List.cons_append, List.nil_append, areaSI, timeSI, volSI, densSI, hr, hc, hv]
      exact okNum_congr (by field_simp)
  rw [lumpedParameter, e, pyExp_num, sub_tempOn, mul_tempOn, sub_tempOn]

/-! ## Absolute temperatures -/

/-- stokes_einstein with a temperature in kelvin or Rankine. -/
theorem C93_stokes_absolute_partial (s : Scale) (h : s = .K ∨ s = .R) (T mu r : ℝ) (h1 : mu ≠ 0) (h2 : r ≠ 0) :
    inUnit c!"m^2/s" (stokesEinstein (tempOn s (s.reading T)) (viscSI mu) (lenSI r)) =
      qMulti (1380649 / 10 ^ 29 * T / (6 * Real.pi * mu * r)) c!"m^2/s" := by
  have h3 : r * (6 * Real.pi * mu) ≠ 0 := mul_ne_zero h2 (mul_ne_zero (mul_ne_zero (by norm_num) Real.pi_ne_zero) h1)
  rcases h with rfl | rfl <;>
  · units_eval [stokesEinstein, boltzmann, tempOn, Scale.sym, lenSI, viscSI, pyDiv_ne h3]
    first
      | rw [inUnit_multi (q := 1) (t := [⟨c!"m", 2⟩]) (b := [⟨c!"s", 1⟩]) (by decide +kernel)]
      | rw [inUnit_multi (q := 5 / 9) (t := [⟨c!"m", 2⟩]) (b := [⟨c!"s", 1⟩]) (by decide +kernel)]
    exact okMulti_congr (by simp only [Scale.reading]; push_cast; have := Real.pi_ne_zero; field_simp)

example : (Scale.R : Scale) = .K ∨ (Scale.R : Scale) = .R := .inr rfl

/-- With a Fahrenheit temperature the offset of the scale is lost without a sign: the result, converted to m²/s, is that
of a body 255.37 K colder. -/
theorem C93_stokes_fahrenheit (T mu r : ℝ) (h1 : mu ≠ 0) (h2 : r ≠ 0) :
    inUnit c!"m^2/s" (stokesEinstein (tempOn .F (Scale.reading .F T)) (viscSI mu) (lenSI r)) =
      qMulti (1380649 / 10 ^ 29 * (T - 45967 / 180) / (6 * Real.pi * mu * r)) c!"m^2/s" := by
  have h3 : r * (6 * Real.pi * mu) ≠ 0 := mul_ne_zero h2 (mul_ne_zero (mul_ne_zero (by norm_num) Real.pi_ne_zero) h1)
  units_eval [stokesEinstein, boltzmann, tempOn, Scale.sym, lenSI, viscSI, pyDiv_ne h3]
  rw [inUnit_multi (q := 5 / 9) (t := [⟨c!"m", 2⟩]) (b := [⟨c!"s", 1⟩]) (by decide +kernel)]
  exact okMulti_congr (by simp only [Scale.reading]; push_cast; have := Real.pi_ne_zero; field_simp; ring)

/-- With a Celsius temperature the result is no diffusion coefficient. -/
theorem C93_stokes_celsius_false (T mu r : ℝ) (h1 : mu ≠ 0) (h2 : r ≠ 0) :
    ∃ e, inUnit c!"m^2/s" (stokesEinstein (tempOn .C T) (viscSI mu) (lenSI r)) = .error e := by
  have h3 : r * (6 * Real.pi * mu) ≠ 0 := mul_ne_zero h2 (mul_ne_zero (mul_ne_zero (by norm_num) Real.pi_ne_zero) h1)
  units_eval [stokesEinstein, boltzmann, tempOn, Scale.sym, lenSI, viscSI, pyDiv_ne h3]
  exact inUnit_fails (t := [⟨c!"m", 2⟩]) (b := [⟨c!"s", 1⟩]) (by decide +kernel) (by decide +kernel) (by decide +kernel)
      (by decide +kernel) _

/-- Which scales stokes_einstein accepts. -/
theorem C93_stokes_exact (s : Scale) (T mu r : ℝ) (h1 : mu ≠ 0) (h2 : r ≠ 0) :
    inUnit c!"m^2/s" (stokesEinstein (tempOn s (s.reading T)) (viscSI mu) (lenSI r)) =
      qMulti (1380649 / 10 ^ 29 * T / (6 * Real.pi * mu * r)) c!"m^2/s" ↔ s = .K ∨ s = .R := by
  refine ⟨fun h => ?_, fun h => C93_stokes_absolute_partial s h T mu r h1 h2⟩
  cases s
  · exact .inl rfl
  · obtain ⟨e, he⟩ := C93_stokes_celsius_false (Scale.reading .C T) mu r h1 h2
    rw [he] at h
    cases h
  · exact .inr rfl
  · rw [C93_stokes_fahrenheit T mu r h1 h2] at h
    units_eval [Except.ok.injEq, Val.multi.injEq, MultiV.mk.injEq] at h
    have := Real.pi_ne_zero
    field_simp at h
    linarith

/-- arrhenius refuses every temperature that is not in kelvin: the quotient passed to `exp` keeps units. -/
theorem C93_arrhenius_false (s : Scale) (hs : s ≠ .K) (fmt : ℚ → Sym) (order : ℚ) (A ea r t : ℝ) (hr : r ≠ 0)
    (ht : t ≠ 0) (a : Val ℝ) (ha : arrheniusA fmt order (pnum A) = .ok a) :
    pcall (arrhenius fmt order · []) [pnum A, eaSI ea, gasJ r, tempOn s t] = .error .typeError := by
  have hrt : t * r ≠ 0 := mul_ne_zero ht hr
  rcases arrheniusA_shape fmt order with ⟨e, he⟩ | ⟨tt, bb, h, -⟩
  · rw [(he A).1] at ha; cases ha
  · simp only [pnum] at h
    cases s <;> simp only [ne_eq, not_true_eq_false, reduceCtorEq, not_false_eq_true] at hs <;>
    · units_eval [eaSI, gasJ, tempOn, Scale.sym, arrhenius_k, h, pyDiv_ne hrt, pyExp_multi]

/-- The hypothesis holds for first order reactions. -/
example (A : ℝ) : ∃ a, arrheniusA (fun q => q.num.natAbs.repr.toList) 1 (pnum A) = .ok a :=
  ⟨_, rfl⟩

end Verif
