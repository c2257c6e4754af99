import Verif.Spec.Trends

/-!
# The trends claimed of the library's formulas

One row per formula, and two where the direction depends on which of two arguments is larger.  `up k` is a positive argument
of kind `k` with which the result grows, `mute k` one of which nothing is claimed; with a dash the argument may have any
sign.  `true` after a kind: SI prefixes are allowed.
-/

namespace Verif

open PKind

namespace TrendRow
def up (k : PTy) : Option TrendArg := some ⟨k, some .pos, some .up⟩
def down (k : PTy) : Option TrendArg := some ⟨k, some .pos, some .down⟩
def mute (k : PTy) : Option TrendArg := some ⟨k, some .pos, none⟩
def up' (k : PTy) : Option TrendArg := some ⟨k, none, some .up⟩
def down' (k : PTy) : Option TrendArg := some ⟨k, none, some .down⟩
def mute' (k : PTy) : Option TrendArg := some ⟨k, none, none⟩
/-- A negative argument with which the result grows. -/
def upNeg (k : PTy) : Option TrendArg := some ⟨k, some .neg, some .up⟩
end TrendRow

open TrendRow

/-- A heated and a cooled wall: `surface` first. -/
def slabTrends (name : Sym) (kind : Bool → PTy) (rest : List (PTy × Effect)) : List Trends := [
  ⟨name, [up' (kind true), up' (kind true)] ++ rest.map (fun p => some ⟨p.1, some .pos, some p.2⟩), [(0, 1)]⟩,
  ⟨name, [up' (kind true), up' (kind true)] ++ rest.map (fun p => some ⟨p.1, some .pos, some (match p.2 with
    | .up => .down
    | .down => .up
    | .same => .same)⟩), [(1, 0)]⟩]

/-- The formulas for mass transfer, with mass or molar concentrations. -/
def massTrends (conc : Bool → PTy) : List Trends := [
  -- D, A, c2, c1, x
  ⟨c!"planar_mass_transfer_steady_state",
    [up (diffusivity false), up (area false), down' (conc true), up' (conc true), down (length true)], [(3, 2)]⟩,
  -- D, c2, c1, x
  ⟨c!"planar_mass_flux_steady_state", [up (diffusivity true), down' (conc true), up' (conc true), down (length true)],
    [(2, 1)]⟩,
  -- D, r2, r1, c2, c1, L
  ⟨c!"pipe_mass_transfer_steady_state",
    [up (diffusivity false), down (length true), up (length true), down' (conc true), up' (conc true), up (length false)],
    [(1, 2), (4, 3)]⟩,
  -- D, r2, r1, c2, c1
  ⟨c!"sphere_mass_transfer_steady_state",
    [up (diffusivity false), mute (length false), mute (length false), down' (conc true), up' (conc true)],
    [(1, 2), (4, 3)]⟩] ++
  -- Cs, Co, z, D, t
  slabTrends c!"semi_infinite_slab_diffusion" conc
    [(length false, .down), (diffusivity false, .up), (time false, .up)]

/-- The table. -/
def trendTable : List Trends := [
  -- k, T1, T2, A, thickness, q
  ⟨c!"planar_heat (q)",
    [up (conductivity false), up' (temperature true), down' (temperature true), up (area false), down (length true)],
    [(1, 2)]⟩,
  ⟨c!"planar_heat (thickness)",
    [up (conductivity false), up' (temperature true), down' (temperature false), up (area false), none, down (power true)],
    [(1, 2)]⟩,
  ⟨c!"planar_heat (T2)",
    [up (conductivity false), up' (temperature true), none, up (area false), down (length false), down (power false)], []⟩,
  ⟨c!"planar_heat (T1)",
    [down (conductivity false), none, up' (temperature true), down (area false), up (length false), up (power false)], []⟩,
  -- k, T1, T2, thickness, q/A
  ⟨c!"planar_flux (qA)", [up (conductivity true), up' (temperature true), down' (temperature true), down (length true)],
    [(1, 2)]⟩,
  ⟨c!"planar_flux (thickness)",
    [up (conductivity false), up' (temperature true), down' (temperature false), none, down (heatFlux true)], [(1, 2)]⟩,
  ⟨c!"planar_flux (T2)",
    [up (conductivity true), up' (temperature true), none, down (length false), down (heatFlux false)], []⟩,
  ⟨c!"planar_flux (T1)",
    [down (conductivity true), none, up' (temperature true), up (length false), up (heatFlux false)], []⟩,
  -- k, T1, T2, L, r2, r1
  ⟨c!"pipe_heat",
    [up (conductivity false), up' (temperature true), down' (temperature false), up (length false), down (length true),
      up (length true)], [(1, 2), (4, 5)]⟩,
  -- rho, latent heat, k, Ts, Tm, l0, l1
  ⟨c!"pseudo_steady_time",
    [up (density true), up (specificEnergy true), down (conductivity false), down' (temperature false),
      up' (temperature true), down (length true), up (length false)], [(3, 4), (6, 5)]⟩,
  -- Thi, Tho, Tci, Tco
  ⟨c!"z_factor", [up' (temperature true), down' (temperature true), up' (temperature true), down' (temperature true)],
    [(0, 1), (3, 2)]⟩,
  ⟨c!"nh_factor", [down' (temperature true), mute' (temperature true), up' (temperature true)], [(0, 1), (2, 1)]⟩,
  ⟨c!"Ge_calc", [up (massRate true), down (area true), down (area true)], []⟩,
  -- Do, Ge, mu, Pr, k, psi
  ⟨c!"htc_shell", [mute (length false), up (.compound false Kind.massFlux.dim), down (viscosity false), up (num false),
    up (conductivity false), up (num false)], []⟩,
  ⟨c!"wall_viscosity_correction_factor", [up (viscosity true), down (viscosity true)], []⟩,
  -- Re, Pr, L, k, psi
  ⟨c!"htc_open_field_turbulent_avg",
    [up (num false), mute (num false), mute (length true), mute (conductivity true), mute (num false)], []⟩,
  ⟨c!"htc_open_field_turbulent_local",
    [up (num false), up (num false), down (length true), up (conductivity true), up (num false)], []⟩,
  -- Re, Pr, D, L, k, psi
  ⟨c!"htc_pipe_laminar",
    [up (num false), up (num false), mute (length false), down (length false), up (conductivity false), up (num false)], []⟩,
  -- Re, Pr, D, k, psi
  ⟨c!"htc_pipe_turbulent",
    [up (num false), up (num false), down (length true), up (conductivity true), up (num false)], []⟩,
  ⟨c!"htc_cross_cylinder", [up (num false), up (num false), down (length true), up (conductivity true)], []⟩,
  ⟨c!"htc_cross_sphere", [up (num false), up (num false), down (length true), up (conductivity true)], []⟩,
  ⟨c!"htc_short_pipe_correction", [up (htc true), up (length true), down (length true)], []⟩,
  -- k, rho, g, latent heat, number of tubes, Tsat, Ts, D, mu
  ⟨c!"condensation_transfer_coefficient",
    [up (conductivity true), up (density true), up (acceleration true), up (specificEnergy true), down (num false),
      down' (temperature true), up' (temperature true), down (length true), down (viscosity true)], [(5, 6)]⟩,
  -- latent heat, rho of the vapour, rho of the liquid, surface tension, g
  ⟨c!"flux_max_boiling (value)",
    [up (specificEnergy true), mute (density true), up (density true), up (surfaceTension true), up (acceleration true)],
    [(2, 1)]⟩,
  -- m, x, D, t
  ⟨c!"three_d_pulse_decay (sphere)", [up (mass false), down (length false), mute (diffusivity false), mute (time false)], []⟩,
  ⟨c!"three_d_pulse_decay (hemisphere)", [up (mass false), down (length false), mute (diffusivity false), mute (time false)],
    []⟩,
  ⟨c!"three_d_pulse_decay (cube)", [up (mass false), down (length false), mute (diffusivity false), mute (time false)], []⟩,
  -- m, L or A, x, D, t
  ⟨c!"two_d_pulse_decay",
    [up (mass true), down (length true), down (length false), mute (diffusivity false), mute (time false)], []⟩,
  ⟨c!"one_d_pulse_decay",
    [up (mass false), down (area false), down (length false), mute (diffusivity false), mute (time false)], []⟩,
  -- stress, thickness, radius
  ⟨c!"max_vessel_pressure (cylinder)", [up (pressure true), mute (length true), down (length true)], []⟩,
  ⟨c!"max_vessel_pressure (sphere)", [up (pressure true), mute (length true), down (length true)], []⟩,
  ⟨c!"FAR", [up (num false), down (num false)], []⟩,
  ⟨c!"OSHA_incidence_rate", [up (num false), down (num false)], []⟩,
  -- M, k, A, P, R, T
  ⟨c!"Qm_evaporation", [up (molarMass true), up (velocity true), up (area false), up (pressure false),
    down (gasConstant false), down (temperature false)], []⟩,
  -- Qm, R, T, k, Qv, P, M
  ⟨c!"enclosure_concentration", [up (massRate true), up (gasConstant true), up (temperature false), down (num false),
    down (volumeRate false), down (pressure false), down (molarMass false)], []⟩,
  -- concentration, R, T, P, M
  ⟨c!"ppm_to_other", [up (num false), down (gasConstant false), down (temperature false), up (pressure false),
    up (molarMass false)], []⟩,
  ⟨c!"reynolds", [up (density true), up (velocity true), up (length false), down (viscosity false)], []⟩,
  ⟨c!"biot", [up (htc false), up (length false), down (conductivity true)], []⟩,
  ⟨c!"prandtl", [up (viscosity true), up (heatCapacity true), down (conductivity true)], []⟩,
  ⟨c!"schmidt", [up (viscosity true), down (density true), down (diffusivity true)], []⟩,
  -- d, L, cp, clearance, rho, v, k
  ⟨c!"gretz", [up (length false), down (length false), up (heatCapacity false), up (length false), up (density true),
    up (velocity true), down (conductivity false)], []⟩,
  -- g, beta, T2, T1, L, rho, mu
  ⟨c!"grashof", [up (acceleration true), up (expansivity false), up' (temperature false), down' (temperature true),
    up (length false), up (density false), down (viscosity true)], [(2, 3)]⟩,
  -- rho1, rho2, T2, T1
  ⟨c!"beta", [mute (density false), mute (density true), down' (temperature false), up' (temperature true)],
    [(0, 1), (2, 3)]⟩,
  -- F0, F, r
  ⟨c!"cstr_volume", [up (molarRate true), down (molarRate true), upNeg (reactionRate true)], [(0, 1)]⟩] ++
  massTrends density ++ massTrends molarity ++
  -- Ts, To, z, t, rho, cp, k
  slabTrends c!"semi_infinite_slab_conduction" temperature
    [(length false, .down), (time false, .up), (density true, .down), (heatCapacity true, .down),
      (conductivity true, .up)] ++
  -- Tf, To, h, A, rho, cp, V, t
  slabTrends c!"lumped_parameter" temperature
    [(htc false, .up), (area false, .up), (density true, .down), (heatCapacity true, .down), (volume false, .down),
      (time false, .up)]

/-- Rows that cannot be read off the formula as it is written: the argument occurs above and below the line, so that its
effect depends on the size of the others. -/
def trendTableMore : List Trends := [
  -- D, r2, r1, c2, c1
  ⟨c!"sphere_mass_transfer_steady_state",
    [mute (diffusivity false), down (length false), up (length false), mute' (density true), mute' (density true)],
    [(1, 2), (4, 3)]⟩,
  ⟨c!"sphere_mass_transfer_steady_state",
    [mute (diffusivity false), down (length false), up (length false), mute' (molarity true), mute' (molarity true)],
    [(1, 2), (4, 3)]⟩,
  ⟨c!"nh_factor", [mute' (temperature true), down' (temperature true), mute' (temperature true)],
    [(0, 1), (2, 1), (0, 2)]⟩,
  -- Do, Ge, mu, Pr, k, psi
  ⟨c!"htc_shell", [down (length false), mute (.compound false Kind.massFlux.dim), mute (viscosity false),
    mute (num false), mute (conductivity false), mute (num false)], []⟩,
  -- Re, Pr, D, L, k, psi
  ⟨c!"htc_pipe_laminar", [mute (num false), mute (num false), down (length false), mute (length false),
    mute (conductivity false), mute (num false)], []⟩,
  -- stress, thickness, radius
  ⟨c!"max_vessel_pressure (cylinder)", [mute (pressure true), up (length true), mute (length true)], []⟩,
  ⟨c!"max_vessel_pressure (sphere)", [mute (pressure true), up (length true), mute (length true)], []⟩,
  -- rho1, rho2, T2, T1
  ⟨c!"beta", [up (density false), down (density true), mute' (temperature false), mute' (temperature true)],
    [(0, 1), (2, 3)]⟩]

/-- The log mean temperature difference: hot in, hot out, cold in, cold out. -/
def logmeanTrends : Trends :=
  ⟨c!"deltat_logmean", [up' (temperature true), up' (temperature true), down' (temperature true), down' (temperature true)],
    [(0, 3), (1, 2)]⟩

/-- The Stokes-Einstein diffusivity: T, mu, R. -/
def stokesEinsteinTrends : Trends :=
  ⟨c!"stokes_einstein", [up (temperature false), down (viscosity false), down (length false)], []⟩

/-- The diffusivity of an electrolyte: R, T, charges, conductances. -/
def ionicTrends : Trends :=
  ⟨c!"ionic_diffusion_coefficient", [up (gasConstant false), up (temperature false), down (num false), down (num false),
    up (.compound false (0, -1, 3, 0, 2, -1)), up (.compound false (0, -1, 3, 0, 2, -1))], []⟩

/-- `sphere_heat` and the conductivity. -/
def sphereConductivityTrends : Trends :=
  ⟨c!"sphere_heat", [up (conductivity true), mute' (temperature true), mute' (temperature true), mute (length false),
    mute (length false)], [(1, 2), (3, 4)]⟩

end Verif
