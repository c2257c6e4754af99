import Verif.Units.Code
import Verif.HeatTransfer.Conduction
import Verif.HeatTransfer.Transient
import Verif.HeatTransfer.Exchangers
import Verif.HeatTransfer.Coefficients
import Verif.HeatTransfer.Radiation
import Verif.MassTransfer.Steady
import Verif.MassTransfer.Transient
import Verif.MassTransfer.Pulses
import Verif.MassTransfer.Coefficients
import Verif.Safety.Basic
import Verif.Reactions.Parameters
import Verif.Utility.Dimensionless

/-!
# The formulas of the library as expression trees

Each entry: the name of the Python function, the expression, and the model of the function.
-/

namespace Verif

/-- A formula of the library twice: as an expression and as the function modelled elsewhere. -/
structure CodedFormula where
  name : Sym
  code : Code
  model : (ℕ → Val ℝ) → PyM (Val ℝ)

namespace Code

/-- `a₀ = 0; for i in range(n): a += term(i)`. -/
def sum (n : ℕ) (term : ℕ → Code) : Code := (List.range n).foldl (fun acc i => acc + term i) (.lit 0)

/-- One term of `finite_slab_conduction`: x, s, alpha, time. -/
def slabTerm (x s alpha time : Code) (n : ℕ) : Code :=
  (lit 1 / lit (2 * n + 1)) * fn .sin ((lit (2 * n + 1) * pi * x) / (lit 2 * s)) *
    fn .exp ((-(pow (lit (2 * n + 1) * (pi / lit 2)) 2)) * ((alpha * time) / pow s 2))

/-- One term of `finite_slab_total_heat`. -/
def slabHeatTerm (s alpha time : Code) (n : ℕ) : Code :=
  (lit 1 / pow (lit (2 * n + 1)) 2) *
    (lit 1 - fn .exp ((-(pow (lit (2 * n + 1) * (pi / lit 2)) 2)) * ((alpha * time) / pow s 2)))

/-- One term of `finite_slab_diffusion`. -/
def slabDiffusionTerm (a z D t : Code) (n : ℕ) : Code :=
  lit ((-1) ^ n) * (fn .erfc ((lit (2 * n + 1) * a + z) / pow (lit 4 * D * t) (1 / 2)) +
    fn .erfc ((lit (2 * n + 1) * a - z) / pow (lit 4 * D * t) (1 / 2)))

/-- `finite_slab_conduction`: Ts, To, x, s, k, rho, Cp, time. -/
def finiteSlabConduction (iterations : ℤ) : Code :=
  var 0 - (var 0 - var 1) * (lit 4 / pi) *
    sum (iterations + 1).toNat (slabTerm (var 2) (var 3) (var 4 / (var 5 * var 6)) (var 7))

/-- `finite_slab_total_heat`: s, rho, cp, Ts, To, k, time, area. -/
def finiteSlabTotalHeat (iterations : ℤ) : Code :=
  ((lit 8 * var 0 * var 1 * var 2 * (var 3 - var 4) * var 7) / pow pi 2) *
    sum iterations.toNat (slabHeatTerm (var 0) (var 5 / (var 1 * var 2)) (var 6))

/-- `finite_slab_diffusion`: Cs, Co, a, z, D, t. -/
def finiteSlabDiffusion (iterations : ℤ) : Code :=
  var 0 - (var 0 - var 1) * sum iterations.toNat (slabDiffusionTerm (var 2) (var 3) (var 4) (var 5))

end Code

/-- The arguments of `planar_heat`. -/
def heatArgs (a : ℕ → Val ℝ) : List (Sym × Val ℝ) :=
  [(c!"k", a 0), (c!"T1", a 1), (c!"T2", a 2), (c!"A", a 3), (c!"thickness", a 4), (c!"q", a 5)]

/-- The arguments of `planar_flux`. -/
def fluxArgs (a : ℕ → Val ℝ) : List (Sym × Val ℝ) :=
  [(c!"k", a 0), (c!"T1", a 1), (c!"T2", a 2), (c!"thickness", a 3), (c!"qA", a 4)]

local instance : Coe (Val ℝ) (PyM (Val ℝ)) := ⟨.ok⟩

open Code in
/-- The formulas. -/
noncomputable def codedFormulas : List CodedFormula := [
  ⟨c!"planar_heat (q)", (-(var 0)) * var 3 * ((var 2 - var 1) / var 4), fun a =>
    planarHeatBody (heatArgs a) (.one c!"q")⟩,
  ⟨c!"planar_heat (thickness)", ((-(var 0)) * var 3 * (var 2 - var 1)) / var 5, fun a =>
    planarHeatBody (heatArgs a) (.one c!"thickness")⟩,
  ⟨c!"planar_heat (T2)", ((var 4 * var 5) / ((-(var 0)) * var 3)) + var 1, fun a =>
    planarHeatBody (heatArgs a) (.one c!"T2")⟩,
  ⟨c!"planar_heat (T1)", (-((var 4 * var 5) / ((-(var 0)) * var 3))) + var 2, fun a =>
    planarHeatBody (heatArgs a) (.one c!"T1")⟩,
  ⟨c!"planar_flux (qA)", (-(var 0)) * ((var 2 - var 1) / var 3), fun a =>
    planarFluxBody (fluxArgs a) (.one c!"qA")⟩,
  ⟨c!"planar_flux (thickness)", ((-(var 0)) * (var 2 - var 1)) / var 4, fun a =>
    planarFluxBody (fluxArgs a) (.one c!"thickness")⟩,
  ⟨c!"planar_flux (T2)", ((var 3 * var 4) / (-(var 0))) + var 1, fun a =>
    planarFluxBody (fluxArgs a) (.one c!"T2")⟩,
  ⟨c!"planar_flux (T1)", (-((var 3 * var 4) / (-(var 0)))) + var 2, fun a =>
    planarFluxBody (fluxArgs a) (.one c!"T1")⟩,
  ⟨c!"pipe_heat", lit (-2) * pi * var 3 * var 0 * ((var 2 - var 1) / fn .log (var 4 / var 5)), fun a =>
    pipeHeat (a 0) (a 1) (a 2) (a 3) (a 4) (a 5)⟩,
  ⟨c!"sphere_heat", lit (-4) * pi * var 4 * var 3 * ((var 2 - var 1) / (var 3 - var 4)), fun a =>
    sphereHeat (a 0) (a 1) (a 2) (a 3) (a 4)⟩,
  ⟨c!"pseudo_steady_time", ((var 0 * var 1) / (var 2 * (var 3 - var 4))) * ((pow (var 6) 2 - pow (var 5) 2) / lit 2),
    fun a => pseudoSteadyTime (a 0) (a 1) (a 2) (a 3) (a 4) (a 5) (a 6)⟩,
  ⟨c!"semi_infinite_slab_conduction",
    var 0 - (var 0 - var 1) * fn .erf (var 2 / pow (lit 4 * (var 6 / (var 4 * var 5)) * var 3) (1 / 2)),
    fun a => semiInfiniteSlabConduction (a 0) (a 1) (a 2) (a 3) (a 4) (a 5) (a 6)⟩,
  ⟨c!"lumped_parameter", var 0 - (var 0 - var 1) * fn .exp ((-(var 2 * var 3 * var 7)) / (var 4 * var 5 * var 6)),
    fun a => lumpedParameter (a 0) (a 1) (a 2) (a 3) (a 4) (a 5) (a 6) (a 7)⟩,
  ⟨c!"deltat_logmean", ((var 0 - var 3) - (var 1 - var 2)) / fn .log ((var 0 - var 3) / (var 1 - var 2)), fun a =>
    deltatLogmean (a 0) (a 1) (a 2) (a 3)⟩,
  ⟨c!"z_factor", (var 0 - var 1) / (var 3 - var 2), fun a => zFactor (a 0) (a 1) (a 2) (a 3)⟩,
  ⟨c!"nh_factor", (var 2 - var 1) / (var 0 - var 1), fun a => nhFactor (a 0) (a 1) (a 2)⟩,
  ⟨c!"equivalent_diameter", lit 4 * (var 0 / var 1), fun a => equivalentDiameter (a 0) (a 1)⟩,
  ⟨c!"Ge_calc", pow ((var 0 / var 1) * (var 0 / var 2)) (1 / 2), fun a => geCalc (a 0) (a 1) (a 2)⟩,
  ⟨c!"Sb_calc", var 0 * ((pi * pow (var 1) 2) / lit 4) - var 2 * ((pi * pow (var 3) 2) / lit 4), fun a =>
    sbCalc (a 0) (a 1) (a 2) (a 3)⟩,
  ⟨c!"Sc_calc", var 0 * var 1 * (lit 1 - var 2 / var 3), fun a => scCalc (a 0) (a 1) (a 2) (a 3)⟩,
  ⟨c!"htc_shell",
    ((lit (2 / 10) * pow ((var 0 * var 1) / var 2) (6 / 10) * pow (var 3) (33 / 100) * var 5) * var 4) / var 0, fun a =>
    htcShell (a 0) (a 1) (a 2) (a 3) (a 4) (a 5)⟩,
  ⟨c!"wall_viscosity_correction_factor", pow (var 0 / var 1) (14 / 100), fun a => wallViscosity (a 0) (a 1)⟩,
  ⟨c!"htc_open_field_turbulent_avg",
    ((lit (37 / 1000) * pow (var 0) (8 / 10) * pow (var 1) (1 / 3) * var 4 - lit 871 * pow (var 1) (1 / 3) * var 4) * var 3) /
      var 2, fun a => htcTurbulentAvg (a 0) (a 1) (a 2) (a 3) (a 4)⟩,
  ⟨c!"htc_open_field_turbulent_local",
    ((lit (296 / 10000) * pow (var 0) (8 / 10) * pow (var 1) (1 / 3) * var 4) * var 3) / var 2, fun a =>
    htcTurbulentLocal (a 0) (a 1) (a 2) (a 3) (a 4)⟩,
  ⟨c!"htc_pipe_laminar", ((lit (185 / 100) * pow (var 0 * var 1 * (var 2 / var 3)) (1 / 3) * var 5) * var 4) / var 2, fun a =>
    htcPipeLaminar (a 0) (a 1) (a 2) (a 3) (a 4) (a 5)⟩,
  ⟨c!"htc_pipe_turbulent", ((lit (23 / 1000) * pow (var 0) (8 / 10) * pow (var 1) (1 / 3) * var 4) * var 3) / var 2, fun a =>
    htcPipeTurbulent (a 0) (a 1) (a 2) (a 3) (a 4)⟩,
  ⟨c!"htc_cross_cylinder",
    ((lit (35 / 100) * pow (var 1) (3 / 10) + lit (56 / 100) * pow (var 0) (52 / 100) * pow (var 1) (3 / 10)) * var 3) / var 2,
    fun a => htcCrossCylinder (a 0) (a 1) (a 2) (a 3)⟩,
  ⟨c!"htc_cross_sphere", ((lit 2 + lit (60 / 100) * pow (var 0) (1 / 2) * pow (var 1) (1 / 3)) * var 3) / var 2, fun a =>
    htcCrossSphere (a 0) (a 1) (a 2) (a 3)⟩,
  ⟨c!"htc_short_pipe_correction", var 0 * (lit 1 + pow (var 1 / var 2) (7 / 10)), fun a =>
    htcShortPipe (a 0) (a 1) (a 2)⟩,
  ⟨c!"condensation_transfer_coefficient",
    lit (729 / 1000) * pow ((pow (var 0) 3 * pow (var 1) 2 * var 2 * var 3) /
      (var 4 * (var 5 - var 6) * var 7 * var 8)) (1 / 4), fun a =>
    condensationCoefficient (a 0) (a 1) (a 2) (a 3) (a 4) (a 5) (a 6) (a 7) (a 8)⟩,
  ⟨c!"flux_max_boiling (value)",
    lit (15 / 100) * var 0 * pow (var 1) (1 / 2) * pow (var 3 * var 4 * (var 2 - var 1)) (1 / 4), fun a =>
    fluxMaxBoilingValue (a 0) (a 1) (a 2) (a 3) (a 4)⟩,
  ⟨c!"planar_mass_transfer_steady_state", (-(var 0)) * var 1 * ((var 2 - var 3) / var 4), fun a =>
    planarMassTransfer (a 0) (a 1) (a 2) (a 3) (a 4)⟩,
  ⟨c!"planar_mass_flux_steady_state", (-(var 0)) * ((var 1 - var 2) / var 3), fun a =>
    planarMassFlux (a 0) (a 1) (a 2) (a 3)⟩,
  ⟨c!"pipe_mass_transfer_steady_state", lit (-2) * pi * var 5 * var 0 * ((var 3 - var 4) / fn .log (var 1 / var 2)), fun a =>
    pipeMassTransfer (a 0) (a 1) (a 2) (a 3) (a 4) (a 5)⟩,
  ⟨c!"sphere_mass_transfer_steady_state", lit (-4) * pi * var 2 * var 1 * var 0 * ((var 3 - var 4) / (var 1 - var 2)), fun a =>
    sphereMassTransfer (a 0) (a 1) (a 2) (a 3) (a 4)⟩,
  ⟨c!"semi_infinite_slab_diffusion", var 0 - (var 0 - var 1) * fn .erf (var 2 / pow (lit 4 * var 3 * var 4) (1 / 2)), fun a =>
    semiInfiniteSlabDiffusion (a 0) (a 1) (a 2) (a 3) (a 4)⟩,
  ⟨c!"three_d_pulse_decay (sphere)",
    (var 0 * fn .exp ((-(pow (var 1) 2)) / (lit 4 * var 2 * var 3))) / pow (lit 4 * pi * var 2 * var 3) (3 / 2), fun a =>
    threeDPulse (a 0) (a 1) (a 2) (a 3) c!"sphere"⟩,
  ⟨c!"three_d_pulse_decay (hemisphere)",
    (lit 2 * var 0 * fn .exp ((-(pow (var 1) 2)) / (lit 4 * var 2 * var 3))) / pow (lit 4 * pi * var 2 * var 3) (3 / 2),
    fun a => threeDPulse (a 0) (a 1) (a 2) (a 3) c!"hemisphere"⟩,
  ⟨c!"three_d_pulse_decay (cube)",
    (lit 8 * var 0 * fn .exp ((-(pow (var 1) 2)) / (lit 4 * var 2 * var 3))) / pow (lit 4 * pi * var 2 * var 3) (3 / 2),
    fun a => threeDPulse (a 0) (a 1) (a 2) (a 3) c!"cube"⟩,
  ⟨c!"two_d_pulse_decay",
    (var 0 / var 1 * fn .exp ((-(pow (var 2) 2)) / (lit 4 * var 3 * var 4))) / (lit 4 * pi * var 3 * var 4), fun a =>
    twoDPulse (a 0) (a 1) (a 2) (a 3) (a 4)⟩,
  ⟨c!"one_d_pulse_decay",
    (var 0 / var 1 * fn .exp ((-(pow (var 2) 2)) / (lit 4 * var 3 * var 4))) / pow (lit 4 * pi * var 3 * var 4) (1 / 2),
    fun a => oneDPulse (a 0) (a 1) (a 2) (a 3) (a 4)⟩,
  ⟨c!"stokes_einstein",
    (.const .multi (1380649 / 10 ^ 29) c!"m^2*kg/s^2*K" * var 0) / (lit 6 * pi * var 1 * var 2), fun a =>
    stokesEinstein (a 0) (a 1) (a 2)⟩,
  ⟨c!"ionic_diffusion_coefficient",
    (var 0 * var 1 * ((lit 1 / var 2) + (lit 1 / var 3))) /
      (pow (.const .multi 96500 c!"C/mol") 2 * ((lit 1 / var 4) + (lit 1 / var 5))), fun a =>
    ionicDiffusion (a 0) (a 1) (a 2) (a 3) (a 4) (a 5)⟩,
  ⟨c!"max_vessel_pressure (cylinder)", (var 0 * var 1) / (var 2 + (lit (6 / 10) * var 1)), fun a =>
    maxVesselPressure (a 0) (a 1) (a 2) c!"cylinder"⟩,
  ⟨c!"max_vessel_pressure (sphere)", (lit 2 * var 1 * var 0) / (var 2 + lit (2 / 10) * var 1), fun a =>
    maxVesselPressure (a 0) (a 1) (a 2) c!"sphere"⟩,
  ⟨c!"FAR", (var 0 * lit (10 * 10 ^ 8)) / var 1, fun a => far (a 0) (a 1)⟩,
  ⟨c!"OSHA_incidence_rate", (var 0 * lit 200000) / var 1, fun a => oshaRate (a 0) (a 1)⟩,
  ⟨c!"K_from_standard",
    .const (.sub c!"MassTransferCoefficient") (83 / 100) c!"cm/s" *
      pow (.const (.sub c!"MolecularWeight") 18 c!"g/mol" / var 0) (1 / 3), fun a => kFromStandard (a 0)⟩,
  ⟨c!"Qm_evaporation", (var 0 * var 1 * var 2 * var 3) / (var 4 * var 5), fun a =>
    qmEvaporation (a 0) (a 1) (a 2) (a 3) (a 4) (a 5)⟩,
  ⟨c!"enclosure_concentration", (lit (10 * 10 ^ 6) * (var 0 * var 1 * var 2)) / (var 3 * var 4 * var 5 * var 6), fun a =>
    enclosureConcentration (a 0) (a 1) (a 2) (a 3) (a 4) (a 5) (a 6)⟩,
  ⟨c!"ppm_to_other", var 0 / ((lit (10 * 10 ^ 6) * (var 1 * var 2)) / (var 3 * var 4)), fun a =>
    ppmToOther (a 0) (a 1) (a 2) (a 3) (a 4)⟩,
  ⟨c!"reynolds", (var 0 * var 1 * var 2) / var 3, fun a => reynolds (a 0) (a 1) (a 2) (a 3)⟩,
  ⟨c!"biot", (var 0 * var 1) / var 2, fun a => biot (a 0) (a 1) (a 2)⟩,
  ⟨c!"prandtl", (var 0 * var 1) / var 2, fun a => prandtl (a 0) (a 1) (a 2)⟩,
  ⟨c!"schmidt", var 0 / (var 1 * var 2), fun a => schmidt (a 0) (a 1) (a 2)⟩,
  ⟨c!"gretz", (var 2 * var 0 * var 3 * var 4 * var 5) / (var 6 * var 1), fun a =>
    gretz (a 0) (a 1) (a 2) (a 3) (a 4) (a 5) (a 6)⟩,
  ⟨c!"grashof", (pow (var 4) 3 * pow (var 5) 2 * var 1 * (var 2 - var 3) * var 0) / pow (var 6) 2, fun a =>
    grashof (a 0) (a 1) (a 2) (a 3) (a 4) (a 5) (a 6)⟩,
  ⟨c!"beta", (var 0 - var 1) / (((var 0 + var 1) / lit 2) * (var 2 - var 3)), fun a =>
    thermalBeta (a 0) (a 1) (a 2) (a 3)⟩,
  ⟨c!"cstr_volume", (var 0 - var 1) / (-(var 2)), fun a => cstrVolume (a 0) (a 1) (a 2)⟩]

end Verif
