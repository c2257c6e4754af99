import Verif.Props.AnyUnitsSolve
import Verif.Props.Coefficients
import Verif.Props.AnyUnitsSeries
import Verif.Props.Dimensionless
import Verif.Props.Safety

/-!
# C114: whole calculations

Results of some functions of the library are the arguments of others.  The intermediate results need not be plain numbers: a
Reynolds number computed from pounds and kilograms keeps the unit `lb/kg`.  The theorems say that the last result has
the magnitude of the composed formula all the same, for original arguments in any known units without prefix.
-/

namespace Verif

open Kind

/-! ## Convection: Reynolds and Prandtl number, correlation, corrections -/

section
variable {rho v D L mu muw cp k psi : Val ℝ} (hrho : density.Has rho) (hv : velocity.Has v) (hD : length.Has D)
  (hL : length.Has L) (hmu : viscosity.Has mu) (hmuw : viscosity.Has muw) (hcp : heatCapacity.Has cp) (hk : conductivity.Has k)

/-- The Reynolds number of the magnitudes. -/
noncomputable def ReOf (μ : Val ℝ → ℝ) (rho v D mu : Val ℝ) : ℝ := (μ rho * μ v * μ D) / μ mu
/-- The Prandtl number of the magnitudes. -/
noncomputable def PrOf (μ : Val ℝ → ℝ) (mu cp k : Val ℝ) : ℝ := (μ mu * μ cp) / μ k

include hrho hv hD hL hmu hmuw hcp hk in
/-- Turbulent flow in a short pipe, corrected for the viscosity at the wall and for the length. -/
theorem C114_pipe_turbulent :
    Computes (htcShortPipe (htcPipeTurbulent (reynolds (.ok rho) (.ok v) (.ok D) (.ok mu)) (prandtl (.ok mu) (.ok cp) (.ok k))
      (.ok D) (.ok k) (wallViscosity (.ok mu) (.ok muw))) (.ok D) (.ok L)) htc.dim fun μ =>
      ((23 / 1000 * ReOf μ rho v D mu ^ ((8 / 10 : ℚ) : ℝ) * PrOf μ mu cp k ^ ((1 / 3 : ℚ) : ℝ) *
        (μ mu / μ muw) ^ ((14 / 100 : ℚ) : ℝ)) * μ k) / μ D * (1 + (μ D / μ L) ^ ((7 / 10 : ℚ) : ℝ)) := by
  checked (((.lit (23 / 1000) * .pow ((.var 0 * .var 1 * .var 2) / .var 3) (8 / 10) * .pow ((.var 3 * .var 4) / .var 5) (1 / 3) *
      .pow (.var 3 / .var 6) (14 / 100)) * .var 5) / .var 2) * (.lit 1 + .pow (.var 2 / .var 7) (7 / 10)), htc.dim,
    [density, velocity, length, viscosity, heatCapacity, conductivity, viscosity, length],
    [rho, v, D, mu, cp, k, muw, L], ⟨hrho, hv, hD, hmu, hcp, hk, hmuw, hL, trivial⟩

include hrho hv hD hL hmu hmuw hcp hk in
/-- Laminar flow in a pipe. -/
theorem C114_pipe_laminar :
    Computes (htcPipeLaminar (reynolds (.ok rho) (.ok v) (.ok D) (.ok mu)) (prandtl (.ok mu) (.ok cp) (.ok k)) (.ok D) (.ok L)
      (.ok k) (wallViscosity (.ok mu) (.ok muw))) htc.dim fun μ =>
      ((185 / 100 * (ReOf μ rho v D mu * PrOf μ mu cp k * (μ D / μ L)) ^ ((1 / 3 : ℚ) : ℝ) *
        (μ mu / μ muw) ^ ((14 / 100 : ℚ) : ℝ)) * μ k) / μ D := by
  checked ((.lit (185 / 100) * .pow (((.var 0 * .var 1 * .var 2) / .var 3) * ((.var 3 * .var 4) / .var 5) * (.var 2 / .var 7)) (1 / 3) *
      .pow (.var 3 / .var 6) (14 / 100)) * .var 5) / .var 2, htc.dim,
    [density, velocity, length, viscosity, heatCapacity, conductivity, viscosity, length],
    [rho, v, D, mu, cp, k, muw, L], ⟨hrho, hv, hD, hmu, hcp, hk, hmuw, hL, trivial⟩

include hrho hv hD hmu hcp hk in
/-- A cylinder across a stream. -/
theorem C114_cross_cylinder :
    Computes (htcCrossCylinder (reynolds (.ok rho) (.ok v) (.ok D) (.ok mu)) (prandtl (.ok mu) (.ok cp) (.ok k)) (.ok D) (.ok k))
      htc.dim fun μ => ((35 / 100 * PrOf μ mu cp k ^ ((3 / 10 : ℚ) : ℝ) +
        56 / 100 * ReOf μ rho v D mu ^ ((52 / 100 : ℚ) : ℝ) * PrOf μ mu cp k ^ ((3 / 10 : ℚ) : ℝ)) * μ k) / μ D := by
  checked ((.lit (35 / 100) * .pow ((.var 3 * .var 4) / .var 5) (3 / 10) + .lit (56 / 100) *
      .pow ((.var 0 * .var 1 * .var 2) / .var 3) (52 / 100) * .pow ((.var 3 * .var 4) / .var 5) (3 / 10)) * .var 5) / .var 2, htc.dim,
    [density, velocity, length, viscosity, heatCapacity, conductivity],
    [rho, v, D, mu, cp, k], ⟨hrho, hv, hD, hmu, hcp, hk, trivial⟩

include hrho hv hD hmu hcp hk in
/-- A sphere in a stream. -/
theorem C114_cross_sphere :
    Computes (htcCrossSphere (reynolds (.ok rho) (.ok v) (.ok D) (.ok mu)) (prandtl (.ok mu) (.ok cp) (.ok k)) (.ok D) (.ok k))
      htc.dim fun μ => ((2 + 60 / 100 * Real.sqrt (ReOf μ rho v D mu) * PrOf μ mu cp k ^ ((1 / 3 : ℚ) : ℝ)) * μ k) / μ D := by
  checked ((.lit 2 + .lit (60 / 100) * .pow ((.var 0 * .var 1 * .var 2) / .var 3) (1 / 2) *
      .pow ((.var 3 * .var 4) / .var 5) (1 / 3)) * .var 5) / .var 2, htc.dim,
    [density, velocity, length, viscosity, heatCapacity, conductivity],
    [rho, v, D, mu, cp, k], ⟨hrho, hv, hD, hmu, hcp, hk, trivial⟩

include hrho hv hL hmu hmuw hcp hk in
/-- A plate in turbulent flow, at one place. -/
theorem C114_plate_turbulent :
    Computes (htcTurbulentLocal (reynolds (.ok rho) (.ok v) (.ok L) (.ok mu)) (prandtl (.ok mu) (.ok cp) (.ok k)) (.ok L) (.ok k)
      (wallViscosity (.ok mu) (.ok muw))) htc.dim fun μ =>
      ((296 / 10000 * ReOf μ rho v L mu ^ ((8 / 10 : ℚ) : ℝ) * PrOf μ mu cp k ^ ((1 / 3 : ℚ) : ℝ) *
        (μ mu / μ muw) ^ ((14 / 100 : ℚ) : ℝ)) * μ k) / μ L := by
  checked ((.lit (296 / 10000) * .pow ((.var 0 * .var 1 * .var 2) / .var 3) (8 / 10) * .pow ((.var 3 * .var 4) / .var 5) (1 / 3) *
      .pow (.var 3 / .var 6) (14 / 100)) * .var 5) / .var 2, htc.dim,
    [density, velocity, length, viscosity, heatCapacity, conductivity, viscosity],
    [rho, v, L, mu, cp, k, muw], ⟨hrho, hv, hL, hmu, hcp, hk, hmuw, trivial⟩

/-- A sphere that cools in a stream: the coefficient of `htc_cross_sphere` in `lumped_parameter`. -/
theorem C114_sphere_cools {Tf To A rs cs V t : Val ℝ} (hrho : density.Has rho) (hv : velocity.Has v) (hD : length.Has D)
    (hmu : viscosity.Has mu) (hcp : heatCapacity.Has cp) (hk : conductivity.Has k) (hTf : temperature.Has Tf)
    (hTo : temperature.Has To) (hA : area.Has A) (hrs : density.Has rs) (hcs : heatCapacity.Has cs) (hV : volume.Has V)
    (ht : time.Has t) :
    Computes (lumpedParameter (.ok Tf) (.ok To) (htcCrossSphere (reynolds (.ok rho) (.ok v) (.ok D) (.ok mu))
      (prandtl (.ok mu) (.ok cp) (.ok k)) (.ok D) (.ok k)) (.ok A) (.ok rs) (.ok cs) (.ok V) (.ok t)) temperature.dim fun μ =>
      μ Tf - (μ Tf - μ To) * Real.exp (-(((2 + 60 / 100 * Real.sqrt (ReOf μ rho v D mu) * PrOf μ mu cp k ^ ((1 / 3 : ℚ) : ℝ)) * μ k) /
        μ D * μ A * μ t) / (μ rs * μ cs * μ V)) := by
  checked .var 6 - (.var 6 - .var 7) * .fn .exp ((-((((.lit 2 + .lit (60 / 100) * .pow ((.var 0 * .var 1 * .var 2) / .var 3) (1 / 2) *
      .pow ((.var 3 * .var 4) / .var 5) (1 / 3)) * .var 5) / .var 2) * .var 8 * .var 12)) / (.var 9 * .var 10 * .var 11)),
    temperature.dim,
    [density, velocity, length, viscosity, heatCapacity, conductivity, temperature, temperature, area, density, heatCapacity, volume,
      time],
    [rho, v, D, mu, cp, k, Tf, To, A, rs, cs, V, t],
    ⟨hrho, hv, hD, hmu, hcp, hk, hTf, hTo, hA, hrs, hcs, hV, ht, trivial⟩

end

/-! ## Free convection -/

/-- The Grashof number with the expansivity estimated from two densities. -/
theorem C114_grashof {g ra rb Ta Tb T2 T1 L rho mu : Val ℝ} (hg : acceleration.Has g) (hra : density.Has ra) (hrb : density.Has rb)
    (hTa : temperature.Has Ta) (hTb : temperature.Has Tb) (hT2 : temperature.Has T2) (hT1 : temperature.Has T1)
    (hL : length.Has L) (hrho : density.Has rho) (hmu : viscosity.Has mu) :
    Computes (grashof (.ok g) (thermalBeta (.ok ra) (.ok rb) (.ok Tb) (.ok Ta)) (.ok T2) (.ok T1) (.ok L) (.ok rho) (.ok mu)) num.dim
      fun μ => (μ L ^ 3 * μ rho ^ 2 * ((μ ra - μ rb) / (((μ ra + μ rb) / 2) * (μ Tb - μ Ta))) * (μ T2 - μ T1) * μ g) / μ mu ^ 2 := by
  checked (.pow (.var 7) 3 * .pow (.var 8) 2 * ((.var 1 - .var 2) / (((.var 1 + .var 2) / .lit 2) * (.var 4 - .var 3))) *
      (.var 5 - .var 6) * .var 0) / .pow (.var 9) 2, num.dim,
    [acceleration, density, density, temperature, temperature, temperature, temperature, length, density, viscosity],
    [g, ra, rb, Ta, Tb, T2, T1, L, rho, mu], ⟨hg, hra, hrb, hTa, hTb, hT2, hT1, hL, hrho, hmu, trivial⟩

/-! ## Heat exchangers -/

/-- The area of a countercurrent exchanger that heats a stream: `m cp (T1 - T0) / (U ΔT)`, with `deltat_logmean`. -/
theorem C114_exchanger_area {m cp U a b c e : Val ℝ} (hm : massRate.Has m) (hcp : heatCapacity.Has cp) (hU : htc.Has U)
    (ha : temperature.Has a) (hb : temperature.Has b) (hc : temperature.Has c) (he : temperature.Has e) :
    Computes (.ok m * .ok cp * (.ok b - .ok a) / (.ok U * deltatLogmean (.ok a) (.ok b) (.ok c) (.ok e))) area.dim fun μ =>
      μ m * μ cp * (μ b - μ a) / (μ U * (((μ a - μ e) - (μ b - μ c)) / Real.log ((μ a - μ e) / (μ b - μ c)))) := by
  checked .var 0 * .var 1 * (.var 4 - .var 3) / (.var 2 * (((.var 3 - .var 6) - (.var 4 - .var 5)) /
      .fn .log ((.var 3 - .var 6) / (.var 4 - .var 5)))), area.dim,
    [massRate, heatCapacity, htc, temperature, temperature, temperature, temperature],
    [m, cp, U, a, b, c, e], ⟨hm, hcp, hU, ha, hb, hc, he, trivial⟩

/-! ## Evaporation into a ventilated room -/

section
variable {M K A Ps R T k V P : Val ℝ} (hM : molarMass.Has M) (hK : velocity.Has K) (hA : area.Has A) (hPs : pressure.Has Ps)
  (hR : gasConstant.Has R) (hT : temperature.Has T) (hk : num.Has k) (hV : volumeRate.Has V) (hP : pressure.Has P)
include hM hK hA hPs hR hT hk hV hP

/-- The concentration in parts per million: `Qm_evaporation` into `enclosure_concentration`. -/
theorem C114_ventilation :
    Computes (enclosureConcentration (qmEvaporation (.ok M) (.ok K) (.ok A) (.ok Ps) (.ok R) (.ok T)) (.ok R) (.ok T) (.ok k) (.ok V)
      (.ok P) (.ok M)) num.dim fun μ =>
      ((10 * 10 ^ 6) * ((μ M * μ K * μ A * μ Ps) / (μ R * μ T) * μ R * μ T)) / (μ k * μ V * μ P * μ M) := by
  checked (.lit (10 * 10 ^ 6) * (((.var 0 * .var 1 * .var 2 * .var 3) / (.var 4 * .var 5)) * .var 4 * .var 5)) /
      (.var 6 * .var 7 * .var 8 * .var 0), num.dim,
    [molarMass, velocity, area, pressure, gasConstant, temperature, num, volumeRate, pressure],
    [M, K, A, Ps, R, T, k, V, P], ⟨hM, hK, hA, hPs, hR, hT, hk, hV, hP, trivial⟩

/-- Molar mass, temperature and gas constant drop out of the whole calculation. -/
theorem C114_ventilation_simple {r : Val ℝ} {ρ : Sym → ℝ} (hρ : Coherent ρ)
    (hres : enclosureConcentration (qmEvaporation (.ok M) (.ok K) (.ok A) (.ok Ps) (.ok R) (.ok T)) (.ok R) (.ok T) (.ok k) (.ok V)
      (.ok P) (.ok M) = .ok r) (nM : M.magn ρ ≠ 0) (nR : R.magn ρ ≠ 0) (nT : T.magn ρ ≠ 0) :
    HasMag ρ r (10 ^ 7 * (K.magn ρ * A.magn ρ / (k.magn ρ * V.magn ρ)) * (Ps.magn ρ / P.magn ρ)) := by
  refine ((C114_ventilation hM hK hA hPs hR hT hk hV hP r hres).2 ρ hρ).of_eq ?_
  beta_reduce
  by_cases h : k.magn ρ * V.magn ρ * P.magn ρ = 0
  · rcases mul_eq_zero.1 h with h | h
    · rcases mul_eq_zero.1 h with h | h <;> simp [h]
    · simp [h]
  · simp only [mul_eq_zero, not_or] at h
    obtain ⟨⟨h1, h2⟩, h3⟩ := h
    field_simp

end

/-- Back from parts per million: `ppm_to_other` of the concentration in the room is the released mass per volume of fresh air. -/
theorem C114_ventilation_mass {Q R T k V P M r : Val ℝ} (hQ : massRate.Has Q) (hR : gasConstant.Has R) (hT : temperature.Has T)
    (hk : num.Has k) (hV : volumeRate.Has V) (hP : pressure.Has P) (hM : molarMass.Has M) {ρ : Sym → ℝ} (hρ : Coherent ρ)
    (hres : ppmToOther (enclosureConcentration (.ok Q) (.ok R) (.ok T) (.ok k) (.ok V) (.ok P) (.ok M)) (.ok R) (.ok T) (.ok P)
      (.ok M) = .ok r) (nM : M.magn ρ ≠ 0) (nR : R.magn ρ ≠ 0) (nT : T.magn ρ ≠ 0) (nP : P.magn ρ ≠ 0) :
    HasMag ρ r (Q.magn ρ / (k.magn ρ * V.magn ρ)) := by
  have key : Computes (ppmToOther (enclosureConcentration (.ok Q) (.ok R) (.ok T) (.ok k) (.ok V) (.ok P) (.ok M)) (.ok R) (.ok T)
      (.ok P) (.ok M)) density.dim fun μ =>
        (((10 * 10 ^ 6) * (μ Q * μ R * μ T)) / (μ k * μ V * μ P * μ M)) / (((10 * 10 ^ 6) * (μ R * μ T)) / (μ P * μ M)) := by
    checked ((.lit (10 * 10 ^ 6) * (.var 0 * .var 1 * .var 2)) / (.var 3 * .var 4 * .var 5 * .var 6)) /
        ((.lit (10 * 10 ^ 6) * (.var 1 * .var 2)) / (.var 5 * .var 6)), density.dim,
      [massRate, gasConstant, temperature, num, volumeRate, pressure, molarMass],
      [Q, R, T, k, V, P, M], ⟨hQ, hR, hT, hk, hV, hP, hM, trivial⟩
  refine ((key r hres).2 ρ hρ).of_eq ?_
  beta_reduce
  by_cases h : k.magn ρ * V.magn ρ = 0
  · rcases mul_eq_zero.1 h with h | h <;> simp [h]
  · obtain ⟨h1, h2⟩ := mul_ne_zero_iff.1 h
    field_simp

/-! ## Diffusion with an estimated coefficient -/

/-- Particles from a surface into still liquid, the diffusion coefficient from `stokes_einstein`. -/
theorem C114_settling {T mu R cs c0 z t : Val ℝ} (hT : temperature.Has T) (hmu : viscosity.Has mu) (hR : length.Has R)
    (hcs : density.Has cs) (hc0 : density.Has c0) (hz : length.Has z) (ht : time.Has t) :
    ∃ kB : Val ℝ, (boltzmann : PyM (Val ℝ)) = .ok kB ∧
      Computes (semiInfiniteSlabDiffusion (.ok cs) (.ok c0) (.ok z) (stokesEinstein (.ok T) (.ok mu) (.ok R)) (.ok t)) density.dim fun μ =>
        μ cs - (μ cs - μ c0) * erf (μ z / Real.sqrt (4 * (μ kB * μ T / (6 * Real.pi * μ mu * μ R)) * μ t)) := by
  refine ⟨_, boltzmann_eq, ?_⟩
  unfold stokesEinstein
  rw [boltzmann_eq]
  set kB : Val ℝ := .multi ⟨.multi, 1380649 / 10 ^ 29, [⟨c!"m", 2⟩, ⟨c!"kg", 1⟩], [⟨c!"s", 2⟩, ⟨c!"K", 1⟩]⟩
  have hk : (Ty.any (2, 1, -2, -1, 0, 0)).Has kB := ⟨⟨by decide +kernel, by decide +kernel⟩, by decide +kernel⟩
  checked .var 4 - (.var 4 - .var 5) * .fn .erf (.var 6 / .pow (.lit 4 * ((.var 3 * .var 0) /
      (.lit 6 * .lit Real.pi * .var 1 * .var 2)) * .var 7) (1 / 2)), density.dim,
    [temperature, viscosity, length, .any (2, 1, -2, -1, 0, 0), density, density, length, time],
    [T, mu, R, kB, cs, c0, z, t], ⟨hT, hmu, hR, hk, hcs, hc0, hz, ht, trivial⟩

/-! ## Reactors -/

/-- A stirred tank for a first order reaction: `cstr_volume` with the rate `-(k C)`. -/
theorem C114_reactor {F0 F kr C : Val ℝ} (hF0 : molarRate.Has F0) (hF : molarRate.Has F) (hkr : rate.Has kr) (hC : molarity.Has C) :
    Computes (cstrVolume (.ok F0) (.ok F) (-(.ok kr * .ok C))) volume.dim fun μ => (μ F0 - μ F) / (μ kr * μ C) := by
  have key : Computes (cstrVolume (.ok F0) (.ok F) (-(.ok kr * .ok C))) volume.dim fun μ => (μ F0 - μ F) / (- -(μ kr * μ C)) := by
    checked (.var 0 - .var 1) / (-(-(.var 2 * .var 3))), volume.dim,
      [molarRate, molarRate, rate, molarity], [F0, F, kr, C], ⟨hF0, hF, hkr, hC, trivial⟩
  simpa only [neg_neg] using key

/-! ## Model and original -/

/-- Two set-ups in any units, of any size and with any fluids, have the same Nusselt number `h D / k` when the Reynolds and
Prandtl numbers, the viscosity ratios and the slenderness agree. -/
theorem C114_pipe_similarity {rho v D L mu muw cp k rho' v' D' L' mu' muw' cp' k' r r' : Val ℝ}
    (hrho : density.Has rho) (hv : velocity.Has v) (hD : length.Has D) (hL : length.Has L) (hmu : viscosity.Has mu)
    (hmuw : viscosity.Has muw) (hcp : heatCapacity.Has cp) (hk : conductivity.Has k)
    (hrho' : density.Has rho') (hv' : velocity.Has v') (hD' : length.Has D') (hL' : length.Has L') (hmu' : viscosity.Has mu')
    (hmuw' : viscosity.Has muw') (hcp' : heatCapacity.Has cp') (hk' : conductivity.Has k') {ρ : Sym → ℝ} (hρ : Coherent ρ)
    (hRe : ReOf (Val.magn ρ) rho v D mu = ReOf (Val.magn ρ) rho' v' D' mu')
    (hPr : PrOf (Val.magn ρ) mu cp k = PrOf (Val.magn ρ) mu' cp' k')
    (hw : mu.magn ρ / muw.magn ρ = mu'.magn ρ / muw'.magn ρ) (hs : D.magn ρ / L.magn ρ = D'.magn ρ / L'.magn ρ)
    (nD : D.magn ρ ≠ 0) (nk : k.magn ρ ≠ 0) (nD' : D'.magn ρ ≠ 0) (nk' : k'.magn ρ ≠ 0)
    (h : htcShortPipe (htcPipeTurbulent (reynolds (.ok rho) (.ok v) (.ok D) (.ok mu)) (prandtl (.ok mu) (.ok cp) (.ok k))
      (.ok D) (.ok k) (wallViscosity (.ok mu) (.ok muw))) (.ok D) (.ok L) = .ok r)
    (h' : htcShortPipe (htcPipeTurbulent (reynolds (.ok rho') (.ok v') (.ok D') (.ok mu')) (prandtl (.ok mu') (.ok cp') (.ok k'))
      (.ok D') (.ok k') (wallViscosity (.ok mu') (.ok muw'))) (.ok D') (.ok L') = .ok r') :
    r.magn ρ * D.magn ρ / k.magn ρ = r'.magn ρ * D'.magn ρ / k'.magn ρ := by
  rw [((C114_pipe_turbulent hrho hv hD hL hmu hmuw hcp hk r h).2 ρ hρ).magn_eq,
    ((C114_pipe_turbulent hrho' hv' hD' hL' hmu' hmuw' hcp' hk' r' h').2 ρ hρ).magn_eq]
  beta_reduce
  rw [hRe, hPr, hw, hs]
  generalize ReOf (Val.magn ρ) rho' v' D' mu' ^ ((8 / 10 : ℚ) : ℝ) = a
  generalize PrOf (Val.magn ρ) mu' cp' k' ^ ((1 / 3 : ℚ) : ℝ) = b
  generalize (mu'.magn ρ / muw'.magn ρ) ^ ((14 / 100 : ℚ) : ℝ) = c
  generalize (D'.magn ρ / L'.magn ρ) ^ ((7 / 10 : ℚ) : ℝ) = d
  field_simp

/-- The same for a sphere in a stream. -/
theorem C114_sphere_similarity {rho v D mu cp k rho' v' D' mu' cp' k' r r' : Val ℝ}
    (hrho : density.Has rho) (hv : velocity.Has v) (hD : length.Has D) (hmu : viscosity.Has mu)
    (hcp : heatCapacity.Has cp) (hk : conductivity.Has k)
    (hrho' : density.Has rho') (hv' : velocity.Has v') (hD' : length.Has D') (hmu' : viscosity.Has mu')
    (hcp' : heatCapacity.Has cp') (hk' : conductivity.Has k') {ρ : Sym → ℝ} (hρ : Coherent ρ)
    (hRe : ReOf (Val.magn ρ) rho v D mu = ReOf (Val.magn ρ) rho' v' D' mu')
    (hPr : PrOf (Val.magn ρ) mu cp k = PrOf (Val.magn ρ) mu' cp' k')
    (nD : D.magn ρ ≠ 0) (nk : k.magn ρ ≠ 0) (nD' : D'.magn ρ ≠ 0) (nk' : k'.magn ρ ≠ 0)
    (h : htcCrossSphere (reynolds (.ok rho) (.ok v) (.ok D) (.ok mu)) (prandtl (.ok mu) (.ok cp) (.ok k)) (.ok D) (.ok k) = .ok r)
    (h' : htcCrossSphere (reynolds (.ok rho') (.ok v') (.ok D') (.ok mu')) (prandtl (.ok mu') (.ok cp') (.ok k')) (.ok D') (.ok k') =
      .ok r') :
    r.magn ρ * D.magn ρ / k.magn ρ = r'.magn ρ * D'.magn ρ / k'.magn ρ := by
  rw [((C114_cross_sphere hrho hv hD hmu hcp hk r h).2 ρ hρ).magn_eq,
    ((C114_cross_sphere hrho' hv' hD' hmu' hcp' hk' r' h').2 ρ hρ).magn_eq]
  beta_reduce
  rw [hRe, hPr]
  generalize Real.sqrt (ReOf (Val.magn ρ) rho' v' D' mu') = a
  generalize PrOf (Val.magn ρ) mu' cp' k' ^ ((1 / 3 : ℚ) : ℝ) = b
  field_simp

/-! ## The calculations return -/

/-- In SI units the calculation for the pipe returns the value of the composed formula. -/
theorem C114_pipe_turbulent_SI (rho v D mu cp k muw L : ℝ) (hr : 0 < rho) (hv : 0 < v) (hD : 0 < D) (hmu : 0 < mu) (hc : 0 < cp)
    (hk : 0 < k) (hw : 0 < muw) (hL : 0 < L) :
    htcShortPipe (htcPipeTurbulent (reynolds (densSI rho) (velSI v) (lenSI D) (viscSI mu)) (prandtl (viscSI mu) (cpSI cp) (condSI k))
      (lenSI D) (condSI k) (wallViscosity (viscSI mu) (viscSI muw))) (lenSI D) (lenSI L) =
      qMulti (23 / 1000 * (rho * v * D / mu) ^ (4 / 5 : ℝ) * (mu * cp / k) ^ (1 / 3 : ℝ) *
        (mu / muw) ^ (7 / 50 : ℝ) * k / D * (1 + (D / L) ^ (7 / 10 : ℝ))) c!"W/m^2*K" := by
  have hP : prandtl (viscSI mu) (cpSI cp) (condSI k) = pnum (mu * cp / k) := by
    units_eval [prandtl, viscSI, cpSI, condSI, hk.ne']
  have hW : wallViscosity (viscSI mu) (viscSI muw) = pnum ((mu / muw) ^ (7 / 50 : ℝ)) := C72_wall_correction _ _ _ _ _ _ hmu hw
  have hS : (lenSI D / lenSI L : PyM (Val ℝ)) = pnum (D / L) := by units_eval [lenSI, hL.ne']
  rw [htcShortPipe, htcPipeTurbulent, C49_reynolds_SI _ _ _ _ hmu.ne', hP, hW, hS, pnum_pow (by positivity), pnum_pow (by positivity),
    pnum_pow (by positivity)]
  units_eval [lenSI, condSI, hD.ne']
  norm_num

/-- The sphere that cools, in SI units. -/
theorem C114_sphere_cools_SI (rho v D mu cp k Tf To A rs cs V t : ℝ) (hr : 0 < rho) (hv : 0 < v) (hD : 0 < D) (hmu : 0 < mu)
    (hc : 0 < cp) (hk : 0 < k) (hrs : 0 < rs) (hcs : 0 < cs) (hV : 0 < V) :
    lumpedParameter (tempSI Tf) (tempSI To) (htcCrossSphere (reynolds (densSI rho) (velSI v) (lenSI D) (viscSI mu))
      (prandtl (viscSI mu) (cpSI cp) (condSI k)) (lenSI D) (condSI k)) (areaSI A) (densSI rs) (cpSI cs) (volSI V) (timeSI t) =
      tempSI (Tf - (Tf - To) * Real.exp (-((2 + 3 / 5 * Real.sqrt (rho * v * D / mu) * (mu * cp / k) ^ (1 / 3 : ℝ)) * k / D * A * t /
        (rs * cs * V)))) := by
  have hP : prandtl (viscSI mu) (cpSI cp) (condSI k) = pnum (mu * cp / k) := by
    units_eval [prandtl, viscSI, cpSI, condSI, hk.ne']
  rw [htcCrossSphere, C49_reynolds_SI _ _ _ _ hmu.ne', hP, pnum_pow (by positivity), pnum_pow (by positivity)]
  units_eval [lumpedParameter, lenSI, condSI, tempSI, areaSI, densSI, cpSI, volSI, timeSI, hD.ne', hrs.ne', hcs.ne', hV.ne']
  refine okUnit_congr ?_
  rw [Real.sqrt_eq_rpow]
  have e1 : ((1 / 2 : ℚ) : ℝ) = 1 / 2 := by norm_num
  have e2 : ((1 / 3 : ℚ) : ℝ) = 1 / 3 := by norm_num
  rw [e1, e2]
  congr 3
  ring

/-- A pool of water in a room, and a stirred tank, in SI units. -/
example : (enclosureConcentration (qmEvaporation (qM c!"MolecularWeight" (18 / 1000) c!"kg/mol") (qM c!"Velocity" (1 / 100) c!"m/s")
    (qU .area 2 c!"m^2") (qU .pressure 3000 c!"Pa") (qMulti 8 c!"J/mol*K") (qU .temperature 300 c!"K"))
    (qMulti 8 c!"J/mol*K") (qU .temperature 300 c!"K") (pnum (1 / 2)) (qM c!"VolumetricFlowRate" 2 c!"m^3/s")
    (qU .pressure 100000 c!"Pa") (qM c!"MolecularWeight" (18 / 1000) c!"kg/mol") : PyM (Val ℚ)) = .ok (.num 6000) := by
  decide +kernel

example : cstrVolume (qM c!"MolarFlowRate" 8 c!"mol/s") (qM c!"MolarFlowRate" 2 c!"mol/s")
    (-(qMulti 3 c!"s^-1" * qM c!"Molarity" 2 c!"mol/L")) = .ok (.unit ⟨.unit, 1, c!"L", 1⟩) := by
  units_eval [cstrVolume]
  norm_num

/-- A rate constant written `1/s` is not one of the arguments of `C114_reactor`: the digit is kept as a unit, and the volume comes out
in `L/1`. -/
theorem C114_reactor_one_over : cstrVolume (qM c!"MolarFlowRate" 8 c!"mol/s") (qM c!"MolarFlowRate" 2 c!"mol/s")
    (-(qMulti 3 c!"1/s" * qM c!"Molarity" 2 c!"mol/L")) = .ok (.multi ⟨.multi, 1, [⟨c!"L", 1⟩], [⟨c!"1", 1⟩]⟩) := by
  units_eval [cstrVolume]
  norm_num

/-- With the density in pounds and the viscosity in kilograms the Reynolds number is not a number, and the coefficient keeps odd
units, but its magnitude is covered by the theorems above. -/
example : (reynolds (qM c!"Density" 62 c!"lb/ft^3") (qM c!"Velocity" 1 c!"ft/s") (qU .length 1 c!"ft")
    (qM c!"DynamicViscosity" 1 c!"kg/ft*s") : PyM (Val ℚ)) = .ok (.multi ⟨.multi, 62, [⟨c!"lb", 1⟩], [⟨c!"kg", 1⟩]⟩) := by
  decide +kernel

end Verif
