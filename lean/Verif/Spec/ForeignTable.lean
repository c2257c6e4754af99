import Verif.Spec.Foreign

/-!
# How the library's formulas are called with units of the user's choice

The rows of `callTable` whose formulas contain no constant in SI units, in the six units of a `UnitSet`: energies are
measured in their own unit, so that a conductivity is an energy by time, length and temperature.
-/

namespace Verif

namespace FArg
def pos (k : FKind) : Option (FKind × Option Sgn) := some (k, some .pos)
def any (k : FKind) : Option (FKind × Option Sgn) := some (k, none)
def neg (k : FKind) : Option (FKind × Option Sgn) := some (k, some .neg)

/-! Exponents of length, mass, time, temperature, energy and amount. -/

def lengthDim : Dim := (1, 0, 0, 0, 0, 0)
def timeDim : Dim := (0, 0, 1, 0, 0, 0)
def temperatureDim : Dim := (0, 0, 0, 1, 0, 0)
def areaDim : Dim := (2, 0, 0, 0, 0, 0)
def volumeDim : Dim := (3, 0, 0, 0, 0, 0)
def expansivityDim : Dim := (0, 0, 0, -1, 0, 0)
def conductivityDim : Dim := (-1, 0, -1, -1, 1, 0)
def densityDim : Dim := (-3, 1, 0, 0, 0, 0)
def heatCapacityDim : Dim := (0, -1, 0, -1, 1, 0)
def specificEnergyDim : Dim := (0, -1, 0, 0, 1, 0)
def htcDim : Dim := (-2, 0, -1, -1, 1, 0)
/-- A pressure is an energy by volume. -/
def pressureDim : Dim := (-3, 0, 0, 0, 1, 0)
def molarMassDim : Dim := (0, 1, 0, 0, 0, -1)
def gasConstantDim : Dim := (0, 0, 0, -1, 1, -1)
def volumeRateDim : Dim := (3, 0, -1, 0, 0, 0)
def viscosityDim : Dim := (-1, 1, -1, 0, 0, 0)
def diffusivityDim : Dim := (2, 0, -1, 0, 0, 0)
def velocityDim : Dim := (1, 0, -1, 0, 0, 0)
def accelerationDim : Dim := (1, 0, -2, 0, 0, 0)
def powerDim : Dim := (0, 0, -1, 0, 1, 0)
def heatFluxDim : Dim := (-2, 0, -1, 0, 1, 0)
def massRateDim : Dim := (0, 1, -1, 0, 0, 0)
def massFluxDim : Dim := (-2, 1, -1, 0, 0, 0)
def molarityDim : Dim := (-3, 0, 0, 0, 0, 1)
def molarRateDim : Dim := (0, 0, -1, 0, 0, 1)
def molarFluxDim : Dim := (-2, 0, -1, 0, 0, 1)
def reactionRateDim : Dim := (-3, 0, -1, 0, 0, 1)
def surfaceTensionDim : Dim := (0, 1, -2, 0, 0, 0)

def number : FKind := .number
def temperature : FKind := .simple .temperature .temperature 1
def length : FKind := .simple .length .length 1
def time : FKind := .simple .time .time 1
def mass : FKind := .simple .mass .mass 1
def conductivity : FKind := .compound conductivityDim
def density : FKind := .compound densityDim
def heatCapacity : FKind := .compound heatCapacityDim
def specificEnergy : FKind := .compound specificEnergyDim
def htc : FKind := .compound htcDim
def viscosity : FKind := .compound viscosityDim
def diffusivity : FKind := .compound diffusivityDim
def velocity : FKind := .compound velocityDim
def acceleration : FKind := .compound accelerationDim
def power : FKind := .compound powerDim
def heatFlux : FKind := .compound heatFluxDim
def massRate : FKind := .compound massRateDim
def massFlux : FKind := .compound massFluxDim
def molarity : FKind := .compound molarityDim
def molarRate : FKind := .compound molarRateDim
def reactionRate : FKind := .compound reactionRateDim
def pressure : FKind := .compound pressureDim
def molarMass : FKind := .compound molarMassDim
def gasConstant : FKind := .compound gasConstantDim
def volumeRate : FKind := .compound volumeRateDim
def surfaceTension : FKind := .compound surfaceTensionDim

/-- `Area(2, "ft^2")`, and a compound quantity in square feet. -/
def areas : List FKind := [.simple .area .length 2, .compound areaDim]
/-- `Volume(2, "ft^3")`, and a compound quantity in cubic feet. -/
def volumes : List FKind := [.simple .volume .length 3, .compound volumeDim]
/-- `Unit(2, "F", -1)`, and a compound quantity in reciprocal degrees. -/
def expansivities : List FKind := [.simple .unit .temperature (-1), .compound expansivityDim]
/-- The arguments exchanged: a formula that only asks two arguments to differ. -/
def _root_.Verif.FCall.either (t : FCall) (i j : ℕ) : List FCall := [{ t with above := (i, j) :: t.above }, { t with above := (j, i) :: t.above }]

/-- The formulas for mass transfer, with mass or molar concentrations; `rate` and `flux` of the mass or moles. -/
def _root_.Verif.foreignMassCalls (conc : FKind) (rate flux c : Dim) : List FCall :=
  -- D, A, c2, c1, x
  (areas.map fun A => (⟨c!"planar_mass_transfer_steady_state", [pos diffusivity, pos A, any conc, any conc, pos length], [],
    [(2, 3)], rate⟩ : FCall)) ++
  -- D, c2, c1, x
  [⟨c!"planar_mass_flux_steady_state", [pos diffusivity, any conc, any conc, pos length], [], [(1, 2)], flux⟩] ++
  -- D, r2, r1, c2, c1, L
  FCall.either ⟨c!"pipe_mass_transfer_steady_state",
    [pos diffusivity, pos length, pos length, any conc, any conc, pos length], [], [(3, 4)], rate⟩ 1 2 ++
  -- D, r2, r1, c2, c1
  FCall.either ⟨c!"sphere_mass_transfer_steady_state", [pos diffusivity, any length, any length, any conc, any conc], [],
    [(3, 4)], rate⟩ 1 2 ++
  -- Cs, Co, z, D, t
  [⟨c!"semi_infinite_slab_diffusion", [any conc, any conc, any length, pos diffusivity, pos time], [], [(0, 1)], c⟩]

/-- The table. -/
def _root_.Verif.foreignTable : List FCall :=
  -- k, T1, T2, A, thickness, q
  (areas.flatMap fun A => [
    ⟨c!"planar_heat (q)", [any conductivity, any temperature, any temperature, any A, pos length], [], [],
      powerDim⟩,
    ⟨c!"planar_heat (thickness)", [any conductivity, any temperature, any temperature, any A, none, pos power], [], [],
      lengthDim⟩,
    ⟨c!"planar_heat (T2)", [pos conductivity, any temperature, none, pos A, any length, any power], [], [],
      temperatureDim⟩,
    ⟨c!"planar_heat (T1)", [pos conductivity, none, any temperature, pos A, any length, any power], [], [],
      temperatureDim⟩]) ++ [
  -- k, T1, T2, thickness, q/A
  ⟨c!"planar_flux (qA)", [any conductivity, any temperature, any temperature, pos length], [], [], heatFluxDim⟩,
  ⟨c!"planar_flux (thickness)", [any conductivity, any temperature, any temperature, none, pos heatFlux], [], [],
    lengthDim⟩,
  ⟨c!"planar_flux (T2)", [pos conductivity, any temperature, none, any length, any heatFlux], [], [],
    temperatureDim⟩,
  ⟨c!"planar_flux (T1)", [pos conductivity, none, any temperature, any length, any heatFlux], [], [],
    temperatureDim⟩] ++
  -- k, T1, T2, L, r2, r1
  FCall.either ⟨c!"pipe_heat", [any conductivity, any temperature, any temperature, any length, pos length, pos length],
    [], [], powerDim⟩ 4 5 ++
  -- rho, latent heat, k, Ts, Tm, l0, l1
  FCall.either ⟨c!"pseudo_steady_time", [any density, any specificEnergy, pos conductivity, any temperature, any temperature,
    any length, any length], [], [], timeDim⟩ 3 4 ++
  -- Thi, Tho, Tci, Tco
  FCall.either ⟨c!"z_factor", [any temperature, any temperature, any temperature, any temperature], [], [], 0⟩ 2 3 ++
  FCall.either ⟨c!"nh_factor", [any temperature, any temperature, any temperature], [], [], 0⟩ 0 1 ++ [
  -- area, perimeter
  ⟨c!"equivalent_diameter", [any (.simple .area .length 2), pos length], [], [], lengthDim⟩] ++
  (areas.flatMap fun A => areas.map fun B => ⟨c!"Ge_calc", [pos massRate, pos A, pos B], [], [], massFluxDim⟩) ++ [
  -- Do, Ge, mu, Pr, k, psi
  ⟨c!"htc_shell", [pos length, pos massFlux, pos viscosity, pos number, any conductivity, any number], [], [],
    htcDim⟩,
  ⟨c!"wall_viscosity_correction_factor", [pos viscosity, pos viscosity], [], [], 0⟩,
  -- Re, Pr, L, k, psi
  ⟨c!"htc_open_field_turbulent_avg", [pos number, pos number, pos length, any conductivity, any number], [], [],
    htcDim⟩,
  ⟨c!"htc_open_field_turbulent_local", [pos number, pos number, pos length, any conductivity, any number], [], [],
    htcDim⟩,
  -- Re, Pr, D, L, k, psi
  ⟨c!"htc_pipe_laminar", [pos number, pos number, pos length, pos length, any conductivity, any number], [], [],
    htcDim⟩,
  -- Re, Pr, D, k, psi
  ⟨c!"htc_pipe_turbulent", [pos number, pos number, pos length, any conductivity, any number], [], [], htcDim⟩,
  ⟨c!"htc_cross_cylinder", [pos number, pos number, pos length, any conductivity], [], [], htcDim⟩,
  ⟨c!"htc_cross_sphere", [pos number, pos number, pos length, any conductivity], [], [], htcDim⟩,
  ⟨c!"htc_short_pipe_correction", [any htc, pos length, pos length], [], [], htcDim⟩,
  -- k, rho, g, latent heat, number of tubes, Tsat, Ts, D, mu
  ⟨c!"condensation_transfer_coefficient", [pos conductivity, pos density, pos acceleration, pos specificEnergy, pos number,
    any temperature, any temperature, pos length, pos viscosity], [(5, 6)], [], htcDim⟩,
  -- latent heat, rho of the vapour, rho of the liquid, surface tension, g
  ⟨c!"flux_max_boiling (value)", [any specificEnergy, pos density, pos density, pos surfaceTension, pos acceleration],
    [(2, 1)], [(2, 1)], heatFluxDim⟩,
  -- m, x, D, t
  ⟨c!"three_d_pulse_decay (sphere)", [any mass, any length, pos diffusivity, pos time], [], [], densityDim⟩,
  ⟨c!"three_d_pulse_decay (hemisphere)", [any mass, any length, pos diffusivity, pos time], [], [], densityDim⟩,
  ⟨c!"three_d_pulse_decay (cube)", [any mass, any length, pos diffusivity, pos time], [], [], densityDim⟩,
  -- m, L or A, x, D, t
  ⟨c!"two_d_pulse_decay", [any mass, pos length, any length, pos diffusivity, pos time], [], [], densityDim⟩] ++
  (areas.map fun A =>
    ⟨c!"one_d_pulse_decay", [any mass, pos A, any length, pos diffusivity, pos time], [], [], densityDim⟩) ++ [
  -- stress, thickness, radius
  ⟨c!"max_vessel_pressure (cylinder)", [any pressure, pos length, pos length], [], [], pressureDim⟩,
  ⟨c!"max_vessel_pressure (sphere)", [any pressure, pos length, pos length], [], [], pressureDim⟩,
  ⟨c!"FAR", [any number, pos number], [], [], 0⟩,
  ⟨c!"OSHA_incidence_rate", [any number, pos number], [], [], 0⟩,
  ⟨c!"reynolds", [any density, any velocity, any length, pos viscosity], [], [], 0⟩,
  ⟨c!"biot", [any htc, any length, pos conductivity], [], [], 0⟩,
  ⟨c!"prandtl", [any viscosity, any heatCapacity, pos conductivity], [], [], 0⟩,
  ⟨c!"schmidt", [any viscosity, pos density, pos diffusivity], [], [], 0⟩,
  -- d, L, cp, clearance, rho, v, k
  ⟨c!"gretz", [any length, pos length, any heatCapacity, any length, any density, any velocity, pos conductivity], [], [],
    0⟩] ++
  -- g, beta, T2, T1, L, rho, mu
  (expansivities.map fun b => ⟨c!"grashof", [any acceleration, any b, any temperature, any temperature, any length,
    any density, pos viscosity], [], [], 0⟩) ++
  -- rho1, rho2, T2, T1
  FCall.either ⟨c!"beta", [pos density, pos density, any temperature, any temperature], [], [(0, 1)],
    expansivityDim⟩ 2 3 ++ [
  -- F0, F, r
  ⟨c!"cstr_volume", [any molarRate, any molarRate, pos reactionRate], [], [(0, 1)], volumeDim⟩,
  ⟨c!"cstr_volume", [any molarRate, any molarRate, neg reactionRate], [], [(0, 1)], volumeDim⟩] ++
  foreignMassCalls density massRateDim massFluxDim densityDim ++
  foreignMassCalls molarity molarRateDim molarFluxDim molarityDim ++ [
  -- Ts, To, z, t, rho, cp, k
  ⟨c!"semi_infinite_slab_conduction", [any temperature, any temperature, any length, pos time, pos density,
    pos heatCapacity, pos conductivity], [], [], temperatureDim⟩] ++
  -- Tf, To, h, A, rho, cp, V, t
  (areas.flatMap fun A => volumes.map fun V => ⟨c!"lumped_parameter", [any temperature, any temperature, any htc, any A,
    pos density, pos heatCapacity, pos V, any time], [], [], temperatureDim⟩)

/-- Formulas with temperatures counted from absolute zero. -/
def _root_.Verif.absoluteForeignTable : List FCall :=
  -- M, k, A, P, R, T
  (areas.map fun A => ⟨c!"Qm_evaporation", [any molarMass, any velocity, any A, any pressure, pos gasConstant,
    pos temperature], [], [], massRateDim⟩) ++ [
  -- Qm, R, T, k, Qv, P, M
  ⟨c!"enclosure_concentration", [any massRate, any gasConstant, any temperature, pos number, pos volumeRate, pos pressure,
    pos molarMass], [], [], 0⟩,
  -- concentration, R, T, P, M
  ⟨c!"ppm_to_other", [any number, pos gasConstant, pos temperature, pos pressure, pos molarMass], [], [], densityDim⟩]

/-- Formulas whose documented result is another: a power in `sphere_heat`, areas in the others. -/
def _root_.Verif.oddForeignTable : List FCall :=
  -- k, T1, T2, r2, r1
  FCall.either ⟨c!"sphere_heat", [any conductivity, any temperature, any temperature, any length, any length],
    [], [], (1, 0, 0, 1, 0, 0)⟩ 3 4 ++ [
  -- fraction of the window, shell diameter, number of tubes, tube diameter
  ⟨c!"Sb_calc", [any number, any length, any number, any length], [], [], lengthDim⟩,
  -- baffle spacing, shell diameter, tube diameter, pitch
  ⟨c!"Sc_calc", [any length, any length, any length, pos length], [], [], lengthDim⟩]

/-- All of them. -/
def _root_.Verif.allForeignTable : List FCall := foreignTable ++ (absoluteForeignTable ++ oddForeignTable)

/-- The logarithmic mean of temperature differences: nothing is said of the signs. -/
def _root_.Verif.logmeanCall : FCall := ⟨c!"deltat_logmean", List.replicate 4 (any temperature), [], [], temperatureDim⟩

end FArg

end Verif
