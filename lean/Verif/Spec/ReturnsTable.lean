import Verif.Spec.Returns

/-!
# How the library's formulas are called with SI quantities

One row per formula, and more where an argument may be given in several ways.  `pos k` is a positive argument of kind `k`,
`any k` one of any sign.
-/

namespace Verif

namespace SIArg
def pos (k : SIKind) : Option (SIKind × Option Sgn) := some (k, some .pos)
def any (k : SIKind) : Option (SIKind × Option Sgn) := some (k, none)
def neg (k : SIKind) : Option (SIKind × Option Sgn) := some (k, some .neg)

def number : SIKind := .number
def temperature : SIKind := .simple .temperature c!"K" 1
def length : SIKind := .simple .length c!"m" 1
def time : SIKind := .simple .time c!"s" 1
def mass : SIKind := .simple .mass c!"kg" 1
def pressure : SIKind := .simple .pressure c!"Pa" 1
def conductivity : SIKind := .compound Kind.conductivity.dim
def density : SIKind := .compound Kind.density.dim
def heatCapacity : SIKind := .compound Kind.heatCapacity.dim
def specificEnergy : SIKind := .compound Kind.specificEnergy.dim
def htc : SIKind := .compound Kind.htc.dim
def viscosity : SIKind := .compound Kind.viscosity.dim
def diffusivity : SIKind := .compound Kind.diffusivity.dim
def velocity : SIKind := .compound Kind.velocity.dim
def acceleration : SIKind := .compound Kind.acceleration.dim
def power : SIKind := .compound Kind.power.dim
def heatFlux : SIKind := .compound Kind.heatFlux.dim
def massRate : SIKind := .compound Kind.massRate.dim
def massFlux : SIKind := .compound Kind.massFlux.dim
def molarity : SIKind := .compound Kind.molarity.dim
def molarRate : SIKind := .compound Kind.molarRate.dim
def reactionRate : SIKind := .compound Kind.reactionRate.dim
def surfaceTension : SIKind := .compound Kind.surfaceTension.dim
def molarMass : SIKind := .compound Kind.molarMass.dim
def gasConstant : SIKind := .compound Kind.gasConstant.dim
def volumeRate : SIKind := .compound Kind.volumeRate.dim
/-- The conductance of an ion, in `A * m^2 / (V * mol)`. -/
def conductance : SIKind := .compound (0, -1, 3, 0, 2, -1)

/-- `Area(2, "m^2")`, and a compound quantity in square metres. -/
def areas : List SIKind := [.simple .area c!"m" 2, .compound Kind.area.dim]
/-- `Volume(2, "m^3")`, and a compound quantity in cubic metres. -/
def volumes : List SIKind := [.simple .volume c!"m" 3, .compound Kind.volume.dim]
/-- `Unit(2, "K", -1)`, and a compound quantity in reciprocal kelvin. -/
def expansivities : List SIKind := [.simple .unit c!"K" (-1), .compound Kind.expansivity.dim]
end SIArg

open SIArg

/-- The arguments exchanged: a formula that only asks two arguments to differ. -/
def SICall.either (t : SICall) (i j : ℕ) : List SICall := [{ t with above := (i, j) :: t.above }, { t with above := (j, i) :: t.above }]

/-- The formulas for mass transfer, with mass or molar concentrations; `rate` and `flux` of the mass or moles. -/
def massCalls (conc : SIKind) (rate flux c : Dim) : List SICall :=
  -- D, A, c2, c1, x
  (areas.map fun A => (⟨c!"planar_mass_transfer_steady_state", [pos diffusivity, pos A, any conc, any conc, pos length], [],
    [(2, 3)], rate⟩ : SICall)) ++
  -- D, c2, c1, x
  [⟨c!"planar_mass_flux_steady_state", [pos diffusivity, any conc, any conc, pos length], [], [(1, 2)], flux⟩] ++
  -- D, r2, r1, c2, c1, L
  SICall.either ⟨c!"pipe_mass_transfer_steady_state",
    [pos diffusivity, pos length, pos length, any conc, any conc, pos length], [], [(3, 4)], rate⟩ 1 2 ++
  -- D, r2, r1, c2, c1
  SICall.either ⟨c!"sphere_mass_transfer_steady_state", [pos diffusivity, any length, any length, any conc, any conc], [],
    [(3, 4)], rate⟩ 1 2 ++
  -- Cs, Co, z, D, t
  [⟨c!"semi_infinite_slab_diffusion", [any conc, any conc, any length, pos diffusivity, pos time], [], [(0, 1)], c⟩]

/-- The table. -/
def callTable : List SICall :=
  -- k, T1, T2, A, thickness, q
  (areas.flatMap fun A => [
    ⟨c!"planar_heat (q)", [any conductivity, any temperature, any temperature, any A, pos length], [], [],
      Kind.power.dim⟩,
    ⟨c!"planar_heat (thickness)", [any conductivity, any temperature, any temperature, any A, none, pos power], [], [],
      Kind.length.dim⟩,
    ⟨c!"planar_heat (T2)", [pos conductivity, any temperature, none, pos A, any length, any power], [], [],
      Kind.temperature.dim⟩,
    ⟨c!"planar_heat (T1)", [pos conductivity, none, any temperature, pos A, any length, any power], [], [],
      Kind.temperature.dim⟩]) ++ [
  -- k, T1, T2, thickness, q/A
  ⟨c!"planar_flux (qA)", [any conductivity, any temperature, any temperature, pos length], [], [], Kind.heatFlux.dim⟩,
  ⟨c!"planar_flux (thickness)", [any conductivity, any temperature, any temperature, none, pos heatFlux], [], [],
    Kind.length.dim⟩,
  ⟨c!"planar_flux (T2)", [pos conductivity, any temperature, none, any length, any heatFlux], [], [],
    Kind.temperature.dim⟩,
  ⟨c!"planar_flux (T1)", [pos conductivity, none, any temperature, any length, any heatFlux], [], [],
    Kind.temperature.dim⟩] ++
  -- k, T1, T2, L, r2, r1
  SICall.either ⟨c!"pipe_heat", [any conductivity, any temperature, any temperature, any length, pos length, pos length],
    [], [], Kind.power.dim⟩ 4 5 ++
  -- rho, latent heat, k, Ts, Tm, l0, l1
  SICall.either ⟨c!"pseudo_steady_time", [any density, any specificEnergy, pos conductivity, any temperature, any temperature,
    any length, any length], [], [], Kind.time.dim⟩ 3 4 ++
  -- Thi, Tho, Tci, Tco
  SICall.either ⟨c!"z_factor", [any temperature, any temperature, any temperature, any temperature], [], [], 0⟩ 2 3 ++
  SICall.either ⟨c!"nh_factor", [any temperature, any temperature, any temperature], [], [], 0⟩ 0 1 ++ [
  -- area, perimeter
  ⟨c!"equivalent_diameter", [any (.simple .area c!"m" 2), pos length], [], [], Kind.length.dim⟩] ++
  (areas.flatMap fun A => areas.map fun B => ⟨c!"Ge_calc", [pos massRate, pos A, pos B], [], [], Kind.massFlux.dim⟩) ++ [
  -- Do, Ge, mu, Pr, k, psi
  ⟨c!"htc_shell", [pos length, pos massFlux, pos viscosity, pos number, any conductivity, any number], [], [],
    Kind.htc.dim⟩,
  ⟨c!"wall_viscosity_correction_factor", [pos viscosity, pos viscosity], [], [], 0⟩,
  -- Re, Pr, L, k, psi
  ⟨c!"htc_open_field_turbulent_avg", [pos number, pos number, pos length, any conductivity, any number], [], [],
    Kind.htc.dim⟩,
  ⟨c!"htc_open_field_turbulent_local", [pos number, pos number, pos length, any conductivity, any number], [], [],
    Kind.htc.dim⟩,
  -- Re, Pr, D, L, k, psi
  ⟨c!"htc_pipe_laminar", [pos number, pos number, pos length, pos length, any conductivity, any number], [], [],
    Kind.htc.dim⟩,
  -- Re, Pr, D, k, psi
  ⟨c!"htc_pipe_turbulent", [pos number, pos number, pos length, any conductivity, any number], [], [], Kind.htc.dim⟩,
  ⟨c!"htc_cross_cylinder", [pos number, pos number, pos length, any conductivity], [], [], Kind.htc.dim⟩,
  ⟨c!"htc_cross_sphere", [pos number, pos number, pos length, any conductivity], [], [], Kind.htc.dim⟩,
  ⟨c!"htc_short_pipe_correction", [any htc, pos length, pos length], [], [], Kind.htc.dim⟩,
  -- k, rho, g, latent heat, number of tubes, Tsat, Ts, D, mu
  ⟨c!"condensation_transfer_coefficient", [pos conductivity, pos density, pos acceleration, pos specificEnergy, pos number,
    any temperature, any temperature, pos length, pos viscosity], [(5, 6)], [], Kind.htc.dim⟩,
  -- latent heat, rho of the vapour, rho of the liquid, surface tension, g
  ⟨c!"flux_max_boiling (value)", [any specificEnergy, pos density, pos density, pos surfaceTension, pos acceleration],
    [(2, 1)], [(2, 1)], Kind.heatFlux.dim⟩,
  -- m, x, D, t
  ⟨c!"three_d_pulse_decay (sphere)", [any mass, any length, pos diffusivity, pos time], [], [], Kind.density.dim⟩,
  ⟨c!"three_d_pulse_decay (hemisphere)", [any mass, any length, pos diffusivity, pos time], [], [], Kind.density.dim⟩,
  ⟨c!"three_d_pulse_decay (cube)", [any mass, any length, pos diffusivity, pos time], [], [], Kind.density.dim⟩,
  -- m, L or A, x, D, t
  ⟨c!"two_d_pulse_decay", [any mass, pos length, any length, pos diffusivity, pos time], [], [], Kind.density.dim⟩] ++
  (areas.map fun A =>
    ⟨c!"one_d_pulse_decay", [any mass, pos A, any length, pos diffusivity, pos time], [], [], Kind.density.dim⟩) ++ [
  -- T, mu, R
  ⟨c!"stokes_einstein", [any temperature, pos viscosity, pos length], [], [], Kind.diffusivity.dim⟩,
  -- R, T, charges, conductances of the ions
  ⟨c!"ionic_diffusion_coefficient", [any gasConstant, any temperature, pos number, pos number, pos conductance,
    pos conductance], [], [(4, 5)], Kind.diffusivity.dim⟩,
  -- stress, thickness, radius
  ⟨c!"max_vessel_pressure (cylinder)", [any pressure, pos length, pos length], [], [], Kind.pressure.dim⟩,
  ⟨c!"max_vessel_pressure (sphere)", [any pressure, pos length, pos length], [], [], Kind.pressure.dim⟩,
  ⟨c!"FAR", [any number, pos number], [], [], 0⟩,
  ⟨c!"OSHA_incidence_rate", [any number, pos number], [], [], 0⟩] ++
  -- M, k, A, P, R, T
  (areas.map fun A => ⟨c!"Qm_evaporation", [any molarMass, any velocity, any A, any pressure, pos gasConstant,
    pos temperature], [], [], Kind.massRate.dim⟩) ++ [
  -- Qm, R, T, k, Qv, P, M
  ⟨c!"enclosure_concentration", [any massRate, any gasConstant, any temperature, pos number, pos volumeRate, pos pressure,
    pos molarMass], [], [], 0⟩,
  -- concentration, R, T, P, M
  ⟨c!"ppm_to_other", [any number, pos gasConstant, pos temperature, pos pressure, pos molarMass], [], [],
    Kind.density.dim⟩,
  ⟨c!"reynolds", [any density, any velocity, any length, pos viscosity], [], [], 0⟩,
  ⟨c!"biot", [any htc, any length, pos conductivity], [], [], 0⟩,
  ⟨c!"prandtl", [any viscosity, any heatCapacity, pos conductivity], [], [], 0⟩,
  ⟨c!"schmidt", [any viscosity, pos density, pos diffusivity], [], [], 0⟩,
  -- d, L, cp, clearance, rho, v, k
  ⟨c!"gretz", [any length, pos length, any heatCapacity, any length, any density, any velocity, pos conductivity], [], [],
    0⟩] ++
  -- g, beta, T2, T1, L, rho, mu
  (expansivities.map fun b => ⟨c!"grashof", [any acceleration, any b, any temperature, any temperature, any length,
    any density, pos viscosity], [], [], 0⟩) ++
  -- rho1, rho2, T2, T1
  SICall.either ⟨c!"beta", [pos density, pos density, any temperature, any temperature], [], [(0, 1)],
    Kind.expansivity.dim⟩ 2 3 ++ [
  -- F0, F, r
  ⟨c!"cstr_volume", [any molarRate, any molarRate, pos reactionRate], [], [(0, 1)], Kind.volume.dim⟩,
  ⟨c!"cstr_volume", [any molarRate, any molarRate, neg reactionRate], [], [(0, 1)], Kind.volume.dim⟩] ++
  massCalls density Kind.massRate.dim Kind.massFlux.dim Kind.density.dim ++
  massCalls molarity Kind.molarRate.dim Kind.molarFlux.dim Kind.molarity.dim ++ [
  -- Ts, To, z, t, rho, cp, k
  ⟨c!"semi_infinite_slab_conduction", [any temperature, any temperature, any length, pos time, pos density,
    pos heatCapacity, pos conductivity], [], [], Kind.temperature.dim⟩] ++
  -- Tf, To, h, A, rho, cp, V, t
  (areas.flatMap fun A => volumes.map fun V => ⟨c!"lumped_parameter", [any temperature, any temperature, any htc, any A,
    pos density, pos heatCapacity, pos V, any time], [], [], Kind.temperature.dim⟩)

/-- Formulas whose documented result is another: a power in `sphere_heat`, areas in the others. -/
def oddCallTable : List SICall :=
  -- k, T1, T2, r2, r1
  SICall.either ⟨c!"sphere_heat", [any conductivity, any temperature, any temperature, any length, any length],
    [], [], (1, 0, 0, 1, 0, 0)⟩ 3 4 ++ [
  -- fraction of the window, shell diameter, number of tubes, tube diameter
  ⟨c!"Sb_calc", [any number, any length, any number, any length], [], [], Kind.length.dim⟩,
  -- baffle spacing, shell diameter, tube diameter, pitch
  ⟨c!"Sc_calc", [any length, any length, any length, pos length], [], [], Kind.length.dim⟩]

/-- What these formulas should return. -/
def documentedDim (name : Sym) : Dim := if name = c!"sphere_heat" then Kind.power.dim else Kind.area.dim

end Verif
