import Verif.Spec.Prefixes

/-!
# What becomes of the prefixes of the arguments of the library's formulas

One row per formula, and more where an argument may be given in several ways.
-/

namespace Verif

namespace PrefixArg
def heeded (k : GivenAs) : Option (GivenAs × Prefixing) := some (k, .heeded)
def ignored (k : GivenAs) : Option (GivenAs × Prefixing) := some (k, .ignored)
def absent (k : GivenAs) : Option (GivenAs × Prefixing) := some (k, .absent)

def number : GivenAs := .number
def temperature : GivenAs := .simple Kind.temperature.dim 1
def length : GivenAs := .simple Kind.length.dim 1
def time : GivenAs := .simple Kind.time.dim 1
def mass : GivenAs := .simple Kind.mass.dim 1
def pressure : GivenAs := .simple Kind.pressure.dim 1
def thermalConductivity : GivenAs := .compound Kind.conductivity.dim
def density : GivenAs := .compound Kind.density.dim
def heatCapacity : GivenAs := .compound Kind.heatCapacity.dim
def specificEnergy : GivenAs := .compound Kind.specificEnergy.dim
def htc : GivenAs := .compound Kind.htc.dim
def viscosity : GivenAs := .compound Kind.viscosity.dim
def diffusivity : GivenAs := .compound Kind.diffusivity.dim
def velocity : GivenAs := .compound Kind.velocity.dim
def acceleration : GivenAs := .compound Kind.acceleration.dim
def power : GivenAs := .compound Kind.power.dim
def heatFlux : GivenAs := .compound Kind.heatFlux.dim
def massRate : GivenAs := .compound Kind.massRate.dim
def massFlux : GivenAs := .compound Kind.massFlux.dim
def molarity : GivenAs := .compound Kind.molarity.dim
def molarRate : GivenAs := .compound Kind.molarRate.dim
def reactionRate : GivenAs := .compound Kind.reactionRate.dim
def surfaceTension : GivenAs := .compound Kind.surfaceTension.dim
def molarMass : GivenAs := .compound Kind.molarMass.dim
def gasConstant : GivenAs := .compound Kind.gasConstant.dim
def volumeRate : GivenAs := .compound Kind.volumeRate.dim
/-- The conductance of an ion. -/
def conductance : GivenAs := .compound (0, -1, 3, 0, 2, -1)
/-- `Area(2, "cm^2")`, and a compound quantity such as `2 cm*cm`. -/
def area : GivenAs := .simple Kind.area.dim 2
def areaCompound : GivenAs := .compound Kind.area.dim
/-- `Volume(2, "cm^3")`, and a compound quantity. -/
def volume : GivenAs := .simple Kind.volume.dim 3
def volumeCompound : GivenAs := .compound Kind.volume.dim
/-- `Unit(2, "mK", -1)`, and a compound quantity. -/
def expansivity : GivenAs := .simple Kind.expansivity.dim (-1)
def expansivityCompound : GivenAs := .compound Kind.expansivity.dim
end PrefixArg

open PrefixArg

/-- The formulas for mass transfer, with mass or molar concentrations. -/
def massPrefixes (conc : GivenAs) : List PrefixUse := [
  -- D, A, c2, c1, x
  ⟨c!"planar_mass_transfer_steady_state", [ignored diffusivity, ignored area, heeded conc, heeded conc, heeded length],
    []⟩,
  ⟨c!"planar_mass_transfer_steady_state", [heeded diffusivity, heeded areaCompound, heeded conc, heeded conc,
    heeded length], []⟩,
  ⟨c!"planar_mass_flux_steady_state", [heeded diffusivity, heeded conc, heeded conc, heeded length], []⟩,
  -- D, r2, r1, c2, c1, L
  ⟨c!"pipe_mass_transfer_steady_state", [ignored diffusivity, heeded length, heeded length, heeded conc, heeded conc,
    ignored length], []⟩,
  ⟨c!"sphere_mass_transfer_steady_state", [absent diffusivity, absent length, absent length, heeded conc, heeded conc],
    []⟩,
  -- Cs, Co, z, D, t
  ⟨c!"semi_infinite_slab_diffusion", [heeded conc, heeded conc, absent length, ignored diffusivity, ignored time], []⟩]

/-- The table. -/
def prefixTable : List PrefixUse := [
  -- k, T1, T2, A, thickness, q
  ⟨c!"planar_heat (q)", [ignored thermalConductivity, heeded temperature, heeded temperature, ignored area,
    heeded length], []⟩,
  ⟨c!"planar_heat (q)", [heeded thermalConductivity, heeded temperature, heeded temperature, heeded areaCompound,
    heeded length], []⟩,
  ⟨c!"planar_heat (thickness)", [ignored thermalConductivity, heeded temperature, heeded temperature, ignored area,
    none, heeded power], [0, 0, -1]⟩,
  ⟨c!"planar_heat (thickness)", [heeded thermalConductivity, heeded temperature, heeded temperature,
    heeded areaCompound, none, heeded power], [0, 0, -1]⟩,
  ⟨c!"planar_heat (T2)", [ignored thermalConductivity, heeded temperature, none, ignored area, ignored length,
    ignored power], []⟩,
  ⟨c!"planar_heat (T2)", [heeded thermalConductivity, heeded temperature, none, heeded areaCompound, ignored length,
    ignored power], []⟩,
  ⟨c!"planar_heat (T1)", [ignored thermalConductivity, none, heeded temperature, ignored area, ignored length,
    ignored power], []⟩,
  ⟨c!"planar_heat (T1)", [heeded thermalConductivity, none, heeded temperature, heeded areaCompound, ignored length,
    ignored power], []⟩,
  -- k, T1, T2, thickness, q/A
  ⟨c!"planar_flux (qA)", [heeded thermalConductivity, heeded temperature, heeded temperature, heeded length], []⟩,
  ⟨c!"planar_flux (thickness)", [ignored thermalConductivity, heeded temperature, heeded temperature, none,
    heeded heatFlux], [0, 0, -1]⟩,
  ⟨c!"planar_flux (T2)", [heeded thermalConductivity, heeded temperature, none, ignored length, ignored heatFlux], []⟩,
  ⟨c!"planar_flux (T1)", [heeded thermalConductivity, none, heeded temperature, ignored length, ignored heatFlux], []⟩,
  -- k, T1, T2, L, r2, r1
  ⟨c!"pipe_heat", [ignored thermalConductivity, heeded temperature, heeded temperature, ignored length, heeded length,
    heeded length], [0, 0, -1]⟩,
  -- k, T1, T2, r2, r1
  ⟨c!"sphere_heat", [heeded thermalConductivity, heeded temperature, absent temperature, absent length, absent length],
    []⟩,
  -- rho, latent heat, k, Ts, Tm, l0, l1
  ⟨c!"pseudo_steady_time", [heeded density, heeded specificEnergy, ignored thermalConductivity, heeded temperature,
    heeded temperature, heeded length, heeded length], [0, 0, 0, 1, 0, 0, -2]⟩,
  -- Ts, To, z, t, rho, cp, k
  ⟨c!"semi_infinite_slab_conduction", [heeded temperature, heeded temperature, absent length, ignored time,
    heeded density, heeded heatCapacity, heeded thermalConductivity], []⟩,
  -- Tf, To, h, A, rho, cp, V, t
  ⟨c!"lumped_parameter", [heeded temperature, heeded temperature, ignored htc, ignored area, heeded density,
    heeded heatCapacity, ignored volume, ignored time], []⟩,
  ⟨c!"lumped_parameter", [heeded temperature, heeded temperature, ignored htc, ignored area, heeded density,
    heeded heatCapacity, heeded volumeCompound, ignored time], []⟩,
  ⟨c!"lumped_parameter", [heeded temperature, heeded temperature, heeded htc, heeded areaCompound, heeded density,
    heeded heatCapacity, ignored volume, ignored time], []⟩,
  ⟨c!"lumped_parameter", [heeded temperature, heeded temperature, heeded htc, heeded areaCompound, heeded density,
    heeded heatCapacity, heeded volumeCompound, ignored time], []⟩,
  -- Thi, Tho, Tci, Tco
  ⟨c!"deltat_logmean", [heeded temperature, heeded temperature, heeded temperature, heeded temperature], []⟩,
  ⟨c!"z_factor", [heeded temperature, heeded temperature, heeded temperature, heeded temperature], []⟩,
  ⟨c!"nh_factor", [heeded temperature, heeded temperature, heeded temperature], []⟩,
  -- area, perimeter
  ⟨c!"equivalent_diameter", [heeded area, heeded length], []⟩,
  ⟨c!"Ge_calc", [heeded massRate, heeded area, heeded area], []⟩,
  ⟨c!"Ge_calc", [heeded massRate, heeded area, heeded areaCompound], []⟩,
  ⟨c!"Ge_calc", [heeded massRate, heeded areaCompound, heeded area], []⟩,
  ⟨c!"Ge_calc", [heeded massRate, heeded areaCompound, heeded areaCompound], []⟩,
  -- Do, Ge, mu, Pr, k, psi
  ⟨c!"htc_shell", [heeded length, ignored massFlux, absent viscosity, heeded number, heeded thermalConductivity,
    heeded number], [-3/5]⟩,
  ⟨c!"wall_viscosity_correction_factor", [heeded viscosity, heeded viscosity], []⟩,
  -- Re, Pr, L, k, psi
  ⟨c!"htc_open_field_turbulent_avg", [heeded number, heeded number, heeded length, heeded thermalConductivity,
    heeded number], []⟩,
  ⟨c!"htc_open_field_turbulent_local", [heeded number, heeded number, heeded length, heeded thermalConductivity,
    heeded number], []⟩,
  ⟨c!"htc_pipe_laminar", [heeded number, heeded number, heeded length, heeded length, heeded thermalConductivity,
    heeded number], []⟩,
  ⟨c!"htc_pipe_turbulent", [heeded number, heeded number, heeded length, heeded thermalConductivity, heeded number],
    []⟩,
  ⟨c!"htc_cross_cylinder", [heeded number, heeded number, heeded length, heeded thermalConductivity], []⟩,
  ⟨c!"htc_cross_sphere", [heeded number, heeded number, heeded length, heeded thermalConductivity], []⟩,
  ⟨c!"htc_short_pipe_correction", [heeded htc, heeded length, heeded length], []⟩,
  -- k, rho, g, latent heat, number of tubes, Tsat, Ts, D, mu
  ⟨c!"condensation_transfer_coefficient", [heeded thermalConductivity, heeded density, heeded acceleration,
    heeded specificEnergy, heeded number, heeded temperature, heeded temperature, heeded length, heeded viscosity], []⟩,
  -- latent heat, rho of the vapour, rho of the liquid, surface tension, g
  ⟨c!"flux_max_boiling (value)", [heeded specificEnergy, heeded density, heeded density, heeded surfaceTension,
    heeded acceleration], []⟩,
  -- m, x, D, t
  ⟨c!"three_d_pulse_decay (sphere)", [absent mass, absent length, ignored diffusivity, ignored time], []⟩,
  ⟨c!"three_d_pulse_decay (hemisphere)", [absent mass, absent length, ignored diffusivity, ignored time], []⟩,
  ⟨c!"three_d_pulse_decay (cube)", [absent mass, absent length, ignored diffusivity, ignored time], []⟩,
  -- m, L or A, x, D, t
  ⟨c!"two_d_pulse_decay", [heeded mass, heeded length, absent length, ignored diffusivity, ignored time], []⟩,
  ⟨c!"one_d_pulse_decay", [heeded mass, heeded area, absent length, ignored diffusivity, ignored time], []⟩,
  ⟨c!"one_d_pulse_decay", [ignored mass, ignored areaCompound, absent length, ignored diffusivity, ignored time], []⟩,
  ⟨c!"stokes_einstein", [ignored temperature, ignored viscosity, ignored length], []⟩,
  ⟨c!"ionic_diffusion_coefficient", [ignored gasConstant, ignored temperature, heeded number, heeded number,
    heeded conductance, heeded conductance], []⟩,
  -- stress, thickness, radius
  ⟨c!"max_vessel_pressure (cylinder)", [heeded pressure, heeded length, heeded length], []⟩,
  ⟨c!"max_vessel_pressure (sphere)", [heeded pressure, heeded length, heeded length], []⟩,
  ⟨c!"FAR", [heeded number, heeded number], []⟩,
  ⟨c!"OSHA_incidence_rate", [heeded number, heeded number], []⟩,
  -- M, k, A, P, R, T
  ⟨c!"Qm_evaporation", [heeded molarMass, heeded velocity, ignored area, ignored pressure, ignored gasConstant,
    ignored temperature], []⟩,
  ⟨c!"Qm_evaporation", [heeded molarMass, heeded velocity, heeded areaCompound, ignored pressure, ignored gasConstant,
    ignored temperature], []⟩,
  -- Qm, R, T, k, Qv, P, M
  ⟨c!"enclosure_concentration", [heeded massRate, heeded gasConstant, ignored temperature, heeded number,
    ignored volumeRate, ignored pressure, absent molarMass], []⟩,
  -- concentration, R, T, P, M
  ⟨c!"ppm_to_other", [heeded number, ignored gasConstant, ignored temperature, ignored pressure, ignored molarMass],
    []⟩,
  ⟨c!"reynolds", [heeded density, heeded velocity, ignored length, absent viscosity], []⟩,
  ⟨c!"biot", [ignored htc, ignored length, heeded thermalConductivity], []⟩,
  ⟨c!"prandtl", [heeded viscosity, heeded heatCapacity, heeded thermalConductivity], []⟩,
  ⟨c!"schmidt", [heeded viscosity, heeded density, heeded diffusivity], []⟩,
  -- d, L, cp, clearance, rho, v, k
  ⟨c!"gretz", [ignored length, ignored length, ignored heatCapacity, ignored length, heeded density, heeded velocity,
    ignored thermalConductivity], []⟩,
  -- g, beta, T2, T1, L, rho, mu
  ⟨c!"grashof", [heeded acceleration, ignored expansivity, heeded temperature, heeded temperature, ignored length,
    ignored density, heeded viscosity], [0, 0, -1]⟩,
  ⟨c!"grashof", [heeded acceleration, heeded expansivityCompound, heeded temperature, heeded temperature,
    ignored length, ignored density, heeded viscosity], [0, 0, -1]⟩,
  -- rho1, rho2, T2, T1
  ⟨c!"beta", [heeded density, heeded density, heeded temperature, heeded temperature], [1, 0, 1]⟩,
  -- F0, F, r
  ⟨c!"cstr_volume", [heeded molarRate, heeded molarRate, heeded reactionRate], []⟩] ++
  massPrefixes density ++ massPrefixes molarity

end Verif
