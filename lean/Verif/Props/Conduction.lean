import Verif.Tactic.UnitsEval
import Verif.HeatTransfer.Conduction
import Verif.Spec.SI

/-!
# C33, C34, C35: steady state conduction

Quantities are built by the library's own constructors from unit strings (`qM`, `qU`, `qMulti`); `pcall` evaluates
arguments and calls.
-/

namespace Verif

/-! ## Calls with one parameter missing run the corresponding formula -/

section
variable (k q : MultiV ℝ) (t1 t2 a x : UnitV ℝ)

theorem planarHeat_q : planarHeat [.multi k, .unit t1, .unit t2, .unit a, .unit x] [] =
    (-.ok (.multi k)) * .ok (.unit a) * ((.ok (.unit t2) - .ok (.unit t1)) / .ok (.unit x)) := rfl
theorem planarHeat_thickness : planarHeat [.multi k, .unit t1, .unit t2, .unit a, .none, .multi q] [] =
    ((-.ok (.multi k)) * .ok (.unit a) * (.ok (.unit t2) - .ok (.unit t1))) / .ok (.multi q) := rfl
theorem planarHeat_T2 : planarHeat [.multi k, .unit t1, .none, .unit a, .unit x, .multi q] [] =
    ((.ok (.unit x) * .ok (.multi q)) / ((-.ok (.multi k)) * .ok (.unit a))) + .ok (.unit t1) := rfl
theorem planarHeat_T1 : planarHeat [.multi k, .none, .unit t2, .unit a, .unit x, .multi q] [] =
    (-((.ok (.unit x) * .ok (.multi q)) / ((-.ok (.multi k)) * .ok (.unit a)))) + .ok (.unit t2) := rfl
theorem planarFlux_qA : planarFlux [.multi k, .unit t1, .unit t2, .unit x] [] =
    (-.ok (.multi k)) * ((.ok (.unit t2) - .ok (.unit t1)) / .ok (.unit x)) := rfl
theorem planarFlux_thickness : planarFlux [.multi k, .unit t1, .unit t2, .none, .multi q] [] =
    ((-.ok (.multi k)) * (.ok (.unit t2) - .ok (.unit t1))) / .ok (.multi q) := rfl
theorem planarFlux_T2 : planarFlux [.multi k, .unit t1, .none, .unit x, .multi q] [] =
    ((.ok (.unit x) * .ok (.multi q)) / (-.ok (.multi k))) + .ok (.unit t1) := rfl
theorem planarFlux_T1 : planarFlux [.multi k, .none, .unit t2, .unit x, .multi q] [] =
    (-((.ok (.unit x) * .ok (.multi q)) / (-.ok (.multi k)))) + .ok (.unit t2) := rfl

end

/-! ## C33 -/

/-- The heat flow is Fourier's law, a MultiUnit in W. -/
theorem C33_heat_flow (k t1 t2 a x : ℝ) (hx : x ≠ 0) :
    pcall (planarHeat · []) [condSI k, tempSI t1, tempSI t2, areaSI a, lenSI x]
      = qMulti (-k * a * (t2 - t1) / x) c!"W" := by
  units_eval [condSI, tempSI, areaSI, lenSI, planarHeat_q, hx]
  exact okMulti_congr (by field_simp)

/-- The thickness is recovered from the returned heat flow. -/
theorem C33_thickness (k t1 t2 a x : ℝ) (hk : k ≠ 0) (ha : a ≠ 0) (hx : x ≠ 0) (ht : t2 - t1 ≠ 0) :
    pcall (planarHeat · []) [condSI k, tempSI t1, tempSI t2, areaSI a, pNone,
        pcall (planarHeat · []) [condSI k, tempSI t1, tempSI t2, areaSI a, lenSI x]]
      = qU .unit x c!"m" := by
  rw [C33_heat_flow k t1 t2 a x hx]
  units_eval [condSI, tempSI, areaSI, lenSI, planarHeat_thickness, hx, hk, ha, ht]
  exact okUnit_congr (by field_simp)

/-- The cold side temperature is recovered from the returned heat flow. -/
theorem C33_T2 (k t1 t2 a x : ℝ) (hk : k ≠ 0) (ha : a ≠ 0) (hx : x ≠ 0) :
    pcall (planarHeat · []) [condSI k, tempSI t1, pNone, areaSI a, lenSI x,
        pcall (planarHeat · []) [condSI k, tempSI t1, tempSI t2, areaSI a, lenSI x]]
      = qU .unit t2 c!"K" := by
  rw [C33_heat_flow k t1 t2 a x hx]
  units_eval [condSI, tempSI, areaSI, lenSI, planarHeat_T2, hx, hk, ha]
  exact okUnit_congr (by field_simp; ring)

/-- The hot side temperature is recovered from the returned heat flow. -/
theorem C33_T1 (k t1 t2 a x : ℝ) (hk : k ≠ 0) (ha : a ≠ 0) (hx : x ≠ 0) :
    pcall (planarHeat · []) [condSI k, pNone, tempSI t2, areaSI a, lenSI x,
        pcall (planarHeat · []) [condSI k, tempSI t1, tempSI t2, areaSI a, lenSI x]]
      = qU .unit t1 c!"K" := by
  rw [C33_heat_flow k t1 t2 a x hx]
  units_eval [condSI, tempSI, areaSI, lenSI, planarHeat_T1, hx, hk, ha]
  exact okUnit_congr (by field_simp; ring)

/-- The recovered values are plain `Unit`s; Python's `==` identifies them with the original quantities. -/
theorem C33_equal_to_original (t : ℝ) (u : UnitV ℝ) (c : UCls) :
    Val.eq (.unit ⟨.unit, t, u.unit, u.exp⟩) (.unit ⟨c, t, u.unit, u.exp⟩) = true := by
  by_cases hc : c = .unit <;> simp [Val.eq, unitEq, unitEqMethod, hc]

/-- Non-vacuity: the docstring example, 1800 W. -/
example : pcall (planarHeat · []) [condSI (6 / 10), tempSI 500, tempSI 300, areaSI 15, lenSI 1] = qMulti 1800 c!"W" := by
  rw [C33_heat_flow _ _ _ _ _ one_ne_zero]; norm_num

/-! ## C34 -/

theorem C34_flux (k t1 t2 x : ℝ) (hx : x ≠ 0) :
    pcall (planarFlux · []) [condSI k, tempSI t1, tempSI t2, lenSI x]
      = qMulti (-k * (t2 - t1) / x) c!"W/m^2" := by
  units_eval [condSI, tempSI, lenSI, planarFlux_qA, hx]
  exact okMulti_congr (by field_simp)

theorem C34_thickness (k t1 t2 x : ℝ) (hk : k ≠ 0) (hx : x ≠ 0) (ht : t2 - t1 ≠ 0) :
    pcall (planarFlux · []) [condSI k, tempSI t1, tempSI t2, pNone,
        pcall (planarFlux · []) [condSI k, tempSI t1, tempSI t2, lenSI x]]
      = qU .unit x c!"m" := by
  rw [C34_flux k t1 t2 x hx]
  units_eval [condSI, tempSI, lenSI, planarFlux_thickness, hx, hk, ht]
  exact okUnit_congr (by field_simp)

theorem C34_T2 (k t1 t2 x : ℝ) (hk : k ≠ 0) (hx : x ≠ 0) :
    pcall (planarFlux · []) [condSI k, tempSI t1, pNone, lenSI x,
        pcall (planarFlux · []) [condSI k, tempSI t1, tempSI t2, lenSI x]]
      = qU .unit t2 c!"K" := by
  rw [C34_flux k t1 t2 x hx]
  units_eval [condSI, tempSI, lenSI, planarFlux_T2, hx, hk]
  exact okUnit_congr (by field_simp; ring)

theorem C34_T1 (k t1 t2 x : ℝ) (hk : k ≠ 0) (hx : x ≠ 0) :
    pcall (planarFlux · []) [condSI k, pNone, tempSI t2, lenSI x,
        pcall (planarFlux · []) [condSI k, tempSI t1, tempSI t2, lenSI x]]
      = qU .unit t1 c!"K" := by
  rw [C34_flux k t1 t2 x hx]
  units_eval [condSI, tempSI, lenSI, planarFlux_T1, hx, hk]
  exact okUnit_congr (by field_simp; ring)

/-- Non-vacuity: the docstring example, 120 W/m². -/
example : pcall (planarFlux · []) [condSI (6 / 10), tempSI 500, tempSI 300, lenSI 1] = qMulti 120 c!"W/m^2" := by
  rw [C34_flux _ _ _ _ one_ne_zero]; norm_num

/-! ## C35 -/

/-- pipe_heat is Fourier's law for a hollow cylinder, in W. -/
theorem C35_pipe (k t1 t2 l r2 r1 : ℝ) (h1 : 0 < r1) (h2 : 0 < r2) (hr : r1 ≠ r2) :
    pipeHeat (condSI k) (tempSI t1) (tempSI t2) (lenSI l) (lenSI r2) (lenSI r1)
      = qU .unit (-2 * Real.pi * l * k * (t2 - t1) / Real.log (r2 / r1)) c!"W" := by
  have hq : 0 < r2 / r1 := div_pos h2 h1
  have hlog : Real.log (r2 / r1) ≠ 0 := by
    apply Real.log_ne_zero_of_pos_of_ne_one hq
    intro h; rw [div_eq_one_iff_eq h1.ne'] at h; exact hr h.symm
  units_eval [condSI, tempSI, lenSI, pipeHeat, pyPi, pyLog_num hq, h1.ne', hlog]
  exact okUnit_congr (by field_simp)

/-- Heat flows from the hot side 1 to the cold side 2 when the returned value is positive. -/
theorem C35_pipe_direction (k t1 t2 l r2 r1 : ℝ) (hk : 0 < k) (hl : 0 < l) (h1 : 0 < r1) (hr : r1 < r2) (ht : t2 < t1) :
    0 < -2 * Real.pi * l * k * (t2 - t1) / Real.log (r2 / r1) := by
  have hlog : 0 < Real.log (r2 / r1) := Real.log_pos ((one_lt_div h1).2 hr)
  apply div_pos _ hlog
  have := mul_pos (mul_pos (mul_pos (mul_pos two_pos Real.pi_pos) hl) hk) (sub_pos.2 ht)
  nlinarith

/-- C35 for spheres, as far as it holds: the code returns Fourier's law divided by the conductivity, in m*K instead of W.
Missing: the factor k (`C35_sphere_false`). -/
theorem C35_sphere_partial (k t1 t2 r2 r1 : ℝ) (hr : r2 - r1 ≠ 0) :
    sphereHeat (condSI k) (tempSI t1) (tempSI t2) (lenSI r2) (lenSI r1)
      = qMulti (-4 * Real.pi * r1 * r2 * (t2 - t1) / (r2 - r1)) c!"K*m" := by
  units_eval [tempSI, lenSI, sphereHeat, pyPi, hr]
  exact okMulti_congr (by field_simp)

/-- sphere_heat does not return a power, whatever the arguments: the conductivity is ignored. -/
theorem C35_sphere_false :
    ¬ ∀ k t1 t2 r2 r1 : ℝ, 0 < k → 0 < r1 → r1 < r2 →
      sphereHeat (condSI k) (tempSI t1) (tempSI t2) (lenSI r2) (lenSI r1)
        = qMulti (-4 * Real.pi * k * r1 * r2 * (t2 - t1) / (r2 - r1)) c!"W" := by
  intro h
  have h1 := h 1 2 1 2 1 one_pos one_pos (by norm_num)
  rw [C35_sphere_partial 1 2 1 2 1 (by norm_num)] at h1
  units_eval [] at h1
  simp at h1

/-- The result does not depend on the conductivity. -/
theorem C35_sphere_ignores_conductivity (k k' T1 T2 r2 r1 : PyM (Val ℝ)) :
    sphereHeat k T1 T2 r2 r1 = sphereHeat k' T1 T2 r2 r1 := rfl

/-- Non-vacuity: a pipe with radii 1 m and e m. -/
example : pipeHeat (condSI 1) (tempSI 2) (tempSI 1) (lenSI 1) (lenSI (Real.exp 1)) (lenSI 1)
    = qU .unit (2 * Real.pi) c!"W" := by
  rw [C35_pipe 1 2 1 1 _ 1 one_pos (Real.exp_pos 1) (by
    have := Real.add_one_lt_exp one_ne_zero (x := 1)
    linarith)]
  congr 1; simp; ring

end Verif
