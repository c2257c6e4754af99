import Verif.Props.Prefixed
import Verif.Tactic.UnitsEval

/-!
# C86: the library's formulas with prefixed arguments

For every formula the arguments marked `Prefixed` may be given with SI prefixes, the others may not; what is returned has the
dimension and the magnitude of the textbook formula.
-/

namespace Verif

/-- The arguments are as declared. -/
def AllHaveP : List PTy → List (Val ℝ) → Prop
  | [], [] => True
  | t :: ts, v :: vs => t.Has v ∧ AllHaveP ts vs
  | _, _ => False

def ptyOf (l : List PTy) (i : ℕ) : PTy := l.getD i .num

theorem AllHaveP.get {ts : List PTy} {vs : List (Val ℝ)} (h : AllHaveP ts vs) (i : ℕ) : (ptyOf ts i).Has (envOf vs i) := by
  induction ts generalizing vs i with
  | nil => cases vs with
    | nil => exact ⟨0, rfl⟩
    | cons => exact h.elim
  | cons t ts ih => cases vs with
    | nil => exact h.elim
    | cons v vs => cases i with
      | zero => exact h.1
      | succ i => exact ih h.2 i

theorem LooseVal.hasMag {v : Val ℝ} (h : LooseVal v) (ρ : Sym → ℝ) : HasMag ρ v (v.magn ρ) := by
  cases v with
  | none | other | bare => exact h.elim
  | num x => exact .num x
  | unit u => exact .unit u
  | multi m => exact .multi m

theorem Arith.computesP {ts : List PTy} {vs : List (Val ℝ)} (h : AllHaveP ts vs) (e : Arith) {d : Dim}
    (hd : (e.checkPre (ptyOf ts)).map PTy.dim = some d) :
    Computes (e.run (envOf vs)) d fun μ => e.meaning fun i => μ (envOf vs i) := by
  intro r hr
  obtain ⟨t, ht, rfl⟩ := Option.map_eq_some_iff.1 hd
  obtain ⟨h1, h2⟩ := C86_checked e (ptyOf ts) (envOf vs) h.get t ht r hr
  exact ⟨h1.dim, fun ρ hρ => h2 ρ hρ _ fun i => (h.get i).loose.hasMag ρ⟩

/-- `prefixed e, d, ts, vs, h`: as `checked`, with prefixes. -/
macro "prefixed " e:term ", " d:term ", " ts:term ", " vs:term ", " h:term : tactic =>
  `(tactic| (
    have := Arith.computesP (ts := $ts) (vs := $vs) $h $e (d := $d) (by decide +kernel)
    first
    | exact this
    | exact Computes.of_eq this fun μ => by
        simp only [← rpow_two, ← rpow_three, ← rpow_half]; rfl))

/-- Cases on a value of nonzero dimension. -/
theorem PTy.Has.cases {p : Bool} {d : Dim} {v : Val ℝ} (h : (PTy.any p d).Has v) (hd : d ≠ 0) :
    (∃ u, v = .unit u) ∨ ∃ m, v = .multi m := by
  have h1 := h.loose
  cases v with
  | none | other | bare => exact h1.elim
  | num x => exact absurd h.2.symm hd
  | unit u => exact .inl ⟨u, rfl⟩
  | multi m => exact .inr ⟨m, rfl⟩

/-! ## Kinds of arguments

Areas and volumes are simple or compound quantities, the others are what their class says. -/

namespace PKind
def num (_ : Bool) : PTy := .num
def temperature (p : Bool) : PTy := .simple p Kind.temperature.dim
def length (p : Bool) : PTy := .simple p Kind.length.dim
def time (p : Bool) : PTy := .simple p Kind.time.dim
def mass (p : Bool) : PTy := .simple p Kind.mass.dim
def pressure (p : Bool) : PTy := .simple p Kind.pressure.dim
def area (p : Bool) : PTy := .any p Kind.area.dim
def volume (p : Bool) : PTy := .any p Kind.volume.dim
def conductivity (p : Bool) : PTy := .compound p Kind.conductivity.dim
def density (p : Bool) : PTy := .compound p Kind.density.dim
def heatCapacity (p : Bool) : PTy := .compound p Kind.heatCapacity.dim
def specificEnergy (p : Bool) : PTy := .compound p Kind.specificEnergy.dim
def htc (p : Bool) : PTy := .compound p Kind.htc.dim
def viscosity (p : Bool) : PTy := .compound p Kind.viscosity.dim
def diffusivity (p : Bool) : PTy := .compound p Kind.diffusivity.dim
def velocity (p : Bool) : PTy := .compound p Kind.velocity.dim
def acceleration (p : Bool) : PTy := .compound p Kind.acceleration.dim
def expansivity (p : Bool) : PTy := .any p Kind.expansivity.dim
def power (p : Bool) : PTy := .compound p Kind.power.dim
def heatFlux (p : Bool) : PTy := .compound p Kind.heatFlux.dim
def massRate (p : Bool) : PTy := .compound p Kind.massRate.dim
def molarity (p : Bool) : PTy := .compound p Kind.molarity.dim
def molarRate (p : Bool) : PTy := .compound p Kind.molarRate.dim
def reactionRate (p : Bool) : PTy := .compound p Kind.reactionRate.dim
def surfaceTension (p : Bool) : PTy := .compound p Kind.surfaceTension.dim
def molarMass (p : Bool) : PTy := .compound p Kind.molarMass.dim
def gasConstant (p : Bool) : PTy := .compound p Kind.gasConstant.dim
def volumeRate (p : Bool) : PTy := .compound p Kind.volumeRate.dim
end PKind

/-- Known units without prefix. -/
def Plain (t : Bool → PTy) (v : Val ℝ) : Prop := (t false).Has v

/-- Known units, possibly with SI prefixes. -/
def Prefixed (t : Bool → PTy) (v : Val ℝ) : Prop := (t true).Has v

open PKind

theorem C86_pipe_heat {k T1 T2 L r2 r1 : Val ℝ} (hk : Plain conductivity k) (h1 : Prefixed temperature T1) (h2 : Plain
    temperature T2) (hL : Plain length L) (hr2 : Prefixed length r2) (hr1 : Prefixed length r1) :
    Computes (pipeHeat (.ok k) (.ok T1) (.ok T2) (.ok L) (.ok r2) (.ok r1)) Kind.power.dim fun μ => -2 * Real.pi * μ L
      * μ k * ((μ T2 - μ T1) / Real.log (μ r2 / μ r1)) := by
  prefixed .lit (-2) * .lit Real.pi * .var 3 * .var 0 * ((.var 2 - .var 1) / .fn .log (.var 4 / .var 5)),
    Kind.power.dim,
    [conductivity false, temperature true, temperature false, length false, length true, length true], [k, T1, T2, L,
    r2, r1],
    ⟨hk, h1, h2, hL, hr2, hr1, trivial⟩

theorem C86_planar_heat {k T1 T2 A x : Val ℝ} (hk : Plain conductivity k) (h1 : Prefixed temperature T1) (h2 :
    Prefixed temperature T2) (hA : Plain area A) (hx : Prefixed length x) :
    Computes (planarHeat [k, T1, T2, A, x] []) Kind.power.dim fun μ => -μ k * μ A * ((μ T2 - μ T1) / μ x) := by
  have e : planarHeat [k, T1, T2, A, x] [] = (-.ok k) * .ok A * ((.ok T2 - .ok T1) / .ok x) := by
    obtain ⟨_, rfl, -⟩ := hk
    obtain ⟨_, rfl, -⟩ := h1
    obtain ⟨_, rfl, -⟩ := h2
    obtain ⟨_, rfl, -⟩ := hx
    rcases PTy.Has.cases hA (by decide +kernel) with ⟨_, rfl⟩ | ⟨_, rfl⟩ <;> rfl
  rw [e]
  prefixed (-.var 0) * .var 3 * ((.var 2 - .var 1) / .var 4), Kind.power.dim,
    [conductivity false, temperature true, temperature true, area false, length true], [k, T1, T2, A, x],
    ⟨hk, h1, h2, hA, hx, trivial⟩

theorem C86_planar_heat_thickness {k T1 T2 A q : Val ℝ} (hk : Plain conductivity k) (h1 : Prefixed temperature T1) (h2
    : Plain temperature T2) (hA : Plain area A) (hq : Prefixed power q) :
    Computes (planarHeat [k, T1, T2, A, .none, q] []) Kind.length.dim fun μ => (-μ k * μ A * (μ T2 - μ T1)) / μ q :=
      by
  have e : planarHeat [k, T1, T2, A, .none, q] [] = ((-.ok k) * .ok A * (.ok T2 - .ok T1)) / .ok q := by
    obtain ⟨_, rfl, -⟩ := hk
    obtain ⟨_, rfl, -⟩ := h1
    obtain ⟨_, rfl, -⟩ := h2
    obtain ⟨_, rfl, -⟩ := hq
    rcases PTy.Has.cases hA (by decide +kernel) with ⟨_, rfl⟩ | ⟨_, rfl⟩ <;> rfl
  rw [e]
  prefixed ((-.var 0) * .var 3 * (.var 2 - .var 1)) / .var 4, Kind.length.dim,
    [conductivity false, temperature true, temperature false, area false, power true], [k, T1, T2, A, q],
    ⟨hk, h1, h2, hA, hq, trivial⟩

theorem C86_planar_heat_T2 {k T1 A x q : Val ℝ} (hk : Plain conductivity k) (h1 : Prefixed temperature T1) (hA : Plain
    area A) (hx : Plain length x) (hq : Plain power q) :
    Computes (planarHeat [k, T1, .none, A, x, q] []) Kind.temperature.dim fun μ => (μ x * μ q) / (-μ k * μ A) + μ T1
      := by
  have e : planarHeat [k, T1, .none, A, x, q] [] = ((.ok x * .ok q) / ((-.ok k) * .ok A)) + .ok T1 := by
    obtain ⟨_, rfl, -⟩ := hk
    obtain ⟨_, rfl, -⟩ := h1
    obtain ⟨_, rfl, -⟩ := hx
    obtain ⟨_, rfl, -⟩ := hq
    rcases PTy.Has.cases hA (by decide +kernel) with ⟨_, rfl⟩ | ⟨_, rfl⟩ <;> rfl
  rw [e]
  prefixed ((.var 3 * .var 4) / ((-.var 0) * .var 2)) + .var 1, Kind.temperature.dim,
    [conductivity false, temperature true, area false, length false, power false], [k, T1, A, x, q],
    ⟨hk, h1, hA, hx, hq, trivial⟩

theorem C86_planar_heat_T1 {k T2 A x q : Val ℝ} (hk : Plain conductivity k) (h2 : Prefixed temperature T2) (hA : Plain
    area A) (hx : Plain length x) (hq : Plain power q) :
    Computes (planarHeat [k, .none, T2, A, x, q] []) Kind.temperature.dim fun μ => -((μ x * μ q) / (-μ k * μ A)) + μ
      T2 := by
  have e : planarHeat [k, .none, T2, A, x, q] [] = (-((.ok x * .ok q) / ((-.ok k) * .ok A))) + .ok T2 := by
    obtain ⟨_, rfl, -⟩ := hk
    obtain ⟨_, rfl, -⟩ := h2
    obtain ⟨_, rfl, -⟩ := hx
    obtain ⟨_, rfl, -⟩ := hq
    rcases PTy.Has.cases hA (by decide +kernel) with ⟨_, rfl⟩ | ⟨_, rfl⟩ <;> rfl
  rw [e]
  prefixed (-((.var 3 * .var 4) / ((-.var 0) * .var 2))) + .var 1, Kind.temperature.dim,
    [conductivity false, temperature true, area false, length false, power false], [k, T2, A, x, q],
    ⟨hk, h2, hA, hx, hq, trivial⟩

theorem C86_planar_flux {k T1 T2 x : Val ℝ} (hk : Prefixed conductivity k) (h1 : Prefixed temperature T1) (h2 :
    Prefixed temperature T2) (hx : Prefixed length x) :
    Computes (planarFlux [k, T1, T2, x] []) Kind.heatFlux.dim fun μ => -μ k * ((μ T2 - μ T1) / μ x) := by
  have e : planarFlux [k, T1, T2, x] [] = (-.ok k) * ((.ok T2 - .ok T1) / .ok x) := by
    obtain ⟨_, rfl, -⟩ := hk
    obtain ⟨_, rfl, -⟩ := h1
    obtain ⟨_, rfl, -⟩ := h2
    obtain ⟨_, rfl, -⟩ := hx
    rfl
  rw [e]
  prefixed (-.var 0) * ((.var 2 - .var 1) / .var 3), Kind.heatFlux.dim,
    [conductivity true, temperature true, temperature true, length true], [k, T1, T2, x],
    ⟨hk, h1, h2, hx, trivial⟩

theorem C86_planar_flux_thickness {k T1 T2 q : Val ℝ} (hk : Plain conductivity k) (h1 : Prefixed temperature T1) (h2 :
    Plain temperature T2) (hq : Prefixed heatFlux q) :
    Computes (planarFlux [k, T1, T2, .none, q] []) Kind.length.dim fun μ => (-μ k * (μ T2 - μ T1)) / μ q := by
  have e : planarFlux [k, T1, T2, .none, q] [] = ((-.ok k) * (.ok T2 - .ok T1)) / .ok q := by
    obtain ⟨_, rfl, -⟩ := hk
    obtain ⟨_, rfl, -⟩ := h1
    obtain ⟨_, rfl, -⟩ := h2
    obtain ⟨_, rfl, -⟩ := hq
    rfl
  rw [e]
  prefixed ((-.var 0) * (.var 2 - .var 1)) / .var 3, Kind.length.dim,
    [conductivity false, temperature true, temperature false, heatFlux true], [k, T1, T2, q],
    ⟨hk, h1, h2, hq, trivial⟩

theorem C86_planar_flux_T2 {k T1 x q : Val ℝ} (hk : Prefixed conductivity k) (h1 : Prefixed temperature T1) (hx :
    Plain length x) (hq : Plain heatFlux q) :
    Computes (planarFlux [k, T1, .none, x, q] []) Kind.temperature.dim fun μ => (μ x * μ q) / (-μ k) + μ T1 := by
  have e : planarFlux [k, T1, .none, x, q] [] = ((.ok x * .ok q) / (-.ok k)) + .ok T1 := by
    obtain ⟨_, rfl, -⟩ := hk
    obtain ⟨_, rfl, -⟩ := h1
    obtain ⟨_, rfl, -⟩ := hx
    obtain ⟨_, rfl, -⟩ := hq
    rfl
  rw [e]
  prefixed ((.var 2 * .var 3) / (-.var 0)) + .var 1, Kind.temperature.dim,
    [conductivity true, temperature true, length false, heatFlux false], [k, T1, x, q],
    ⟨hk, h1, hx, hq, trivial⟩

theorem C86_planar_flux_T1 {k T2 x q : Val ℝ} (hk : Prefixed conductivity k) (h2 : Prefixed temperature T2) (hx :
    Plain length x) (hq : Plain heatFlux q) :
    Computes (planarFlux [k, .none, T2, x, q] []) Kind.temperature.dim fun μ => -((μ x * μ q) / (-μ k)) + μ T2 := by
  have e : planarFlux [k, .none, T2, x, q] [] = (-((.ok x * .ok q) / (-.ok k))) + .ok T2 := by
    obtain ⟨_, rfl, -⟩ := hk
    obtain ⟨_, rfl, -⟩ := h2
    obtain ⟨_, rfl, -⟩ := hx
    obtain ⟨_, rfl, -⟩ := hq
    rfl
  rw [e]
  prefixed (-((.var 2 * .var 3) / (-.var 0))) + .var 1, Kind.temperature.dim,
    [conductivity true, temperature true, length false, heatFlux false], [k, T2, x, q],
    ⟨hk, h2, hx, hq, trivial⟩

theorem C86_pseudo_steady_time {rho H k Ts Tm l0 l1 : Val ℝ} (hr : Prefixed density rho) (hH : Prefixed specificEnergy
    H) (hk : Plain conductivity k) (hs : Plain temperature Ts) (hm : Prefixed temperature Tm) (h0 : Prefixed length
    l0) (h1 : Plain length l1) :
    Computes (pseudoSteadyTime (.ok rho) (.ok H) (.ok k) (.ok Ts) (.ok Tm) (.ok l0) (.ok l1)) Kind.time.dim fun μ =>
      (μ rho * μ H) / (μ k * (μ Ts - μ Tm)) * ((μ l1 ^ 2 - μ l0 ^ 2) / 2) := by
  prefixed ((.var 0 * .var 1) / (.var 2 * (.var 3 - .var 4))) * ((.pow (.var 6) 2 - .pow (.var 5) 2) / .lit 2),
    Kind.time.dim,
    [density true, specificEnergy true, conductivity false, temperature false, temperature true, length true, length
    false], [rho, H, k, Ts, Tm, l0, l1],
    ⟨hr, hH, hk, hs, hm, h0, h1, trivial⟩

theorem C86_semi_infinite_slab {Ts To z t rho cp k : Val ℝ} (hs : Prefixed temperature Ts) (h0 : Prefixed temperature
    To) (hz : Plain length z) (ht : Plain time t) (hr : Prefixed density rho) (hc : Prefixed heatCapacity cp) (hk :
    Prefixed conductivity k) :
    Computes (semiInfiniteSlabConduction (.ok Ts) (.ok To) (.ok z) (.ok t) (.ok rho) (.ok cp) (.ok k))
      Kind.temperature.dim fun μ => μ Ts - (μ Ts - μ To) * erf (μ z / Real.sqrt (4 * (μ k / (μ rho * μ cp)) * μ t)) :=
      by
  prefixed .var 0 - (.var 0 - .var 1) * .fn .erf (.var 2 / .pow (.lit 4 * (.var 6 / (.var 4 * .var 5)) * .var 3) (1 /
    2)), Kind.temperature.dim,
    [temperature true, temperature true, length false, time false, density true, heatCapacity true, conductivity
    true], [Ts, To, z, t, rho, cp, k],
    ⟨hs, h0, hz, ht, hr, hc, hk, trivial⟩

theorem C86_lumped {Tf To h A rho cp V t : Val ℝ} (hf : Prefixed temperature Tf) (h0 : Prefixed temperature To) (hh :
    Plain htc h) (hA : Plain area A) (hr : Prefixed density rho) (hc : Prefixed heatCapacity cp) (hV : Plain volume V)
    (ht : Plain time t) :
    Computes (lumpedParameter (.ok Tf) (.ok To) (.ok h) (.ok A) (.ok rho) (.ok cp) (.ok V) (.ok t))
      Kind.temperature.dim fun μ => μ Tf - (μ Tf - μ To) * Real.exp (-(μ h * μ A * μ t) / (μ rho * μ cp * μ V)) := by
  prefixed .var 0 - (.var 0 - .var 1) * .fn .exp ((-(.var 2 * .var 3 * .var 7)) / (.var 4 * .var 5 * .var 6)),
    Kind.temperature.dim,
    [temperature true, temperature true, htc false, area false, density true, heatCapacity true, volume false, time
    false], [Tf, To, h, A, rho, cp, V, t],
    ⟨hf, h0, hh, hA, hr, hc, hV, ht, trivial⟩

theorem C86_z_factor {a b c e : Val ℝ} (ha : Prefixed temperature a) (hb : Prefixed temperature b) (hc : Prefixed
    temperature c) (he : Prefixed temperature e) :
    Computes (zFactor (.ok a) (.ok b) (.ok c) (.ok e)) Kind.num.dim fun μ => (μ a - μ b) / (μ e - μ c) := by
  prefixed (.var 0 - .var 1) / (.var 3 - .var 2), Kind.num.dim,
    [temperature true, temperature true, temperature true, temperature true], [a, b, c, e],
    ⟨ha, hb, hc, he, trivial⟩

theorem C86_nh_factor {a c e : Val ℝ} (ha : Prefixed temperature a) (hc : Prefixed temperature c) (he : Prefixed
    temperature e) :
    Computes (nhFactor (.ok a) (.ok c) (.ok e)) Kind.num.dim fun μ => (μ e - μ c) / (μ a - μ c) := by
  prefixed (.var 2 - .var 1) / (.var 0 - .var 1), Kind.num.dim,
    [temperature true, temperature true, temperature true], [a, c, e],
    ⟨ha, hc, he, trivial⟩

/-- Countercurrent: `a`, `b` the inlet and outlet of one stream, `c`, `e` those of the other. -/
theorem C86_logmean {a b c e : Val ℝ} (ha : Prefixed temperature a) (hb : Prefixed temperature b) (hc : Prefixed
    temperature c) (he : Prefixed temperature e) :
    Computes (deltatLogmean (.ok a) (.ok b) (.ok c) (.ok e)) Kind.temperature.dim fun μ => ((μ a - μ e) - (μ b - μ c))
      / Real.log ((μ a - μ e) / (μ b - μ c)) := by
  prefixed ((.var 0 - .var 3) - (.var 1 - .var 2)) / .fn .log ((.var 0 - .var 3) / (.var 1 - .var 2)),
    Kind.temperature.dim,
    [temperature true, temperature true, temperature true, temperature true], [a, b, c, e],
    ⟨ha, hb, hc, he, trivial⟩

theorem C86_ge {m b c : Val ℝ} (hm : Prefixed massRate m) (hb : Prefixed area b) (hc : Prefixed area c) :
    Computes (geCalc (.ok m) (.ok b) (.ok c)) Kind.massFlux.dim fun μ => Real.sqrt ((μ m / μ b) * (μ m / μ c)) := by
  prefixed .pow ((.var 0 / .var 1) * (.var 0 / .var 2)) (1 / 2), Kind.massFlux.dim,
    [massRate true, area true, area true], [m, b, c],
    ⟨hm, hb, hc, trivial⟩

theorem C86_wall_viscosity {mu muw : Val ℝ} (hmu : Prefixed viscosity mu) (hmuw : Prefixed viscosity muw) :
    Computes (wallViscosity (.ok mu) (.ok muw)) Kind.num.dim fun μ => (μ mu / μ muw) ^ ((14 / 100 : ℚ) : ℝ) := by
  prefixed .pow (.var 0 / .var 1) (14 / 100), Kind.num.dim,
    [viscosity true, viscosity true], [mu, muw],
    ⟨hmu, hmuw, trivial⟩

theorem C86_turbulent_avg {Re Pr L k psi : Val ℝ} (hRe : Plain num Re) (hPr : Plain num Pr) (hL : Prefixed length L)
    (hk : Prefixed conductivity k) (hpsi : Plain num psi) :
    Computes (htcTurbulentAvg (.ok Re) (.ok Pr) (.ok L) (.ok k) (.ok psi)) Kind.htc.dim fun μ => ((37 / 1000 * μ Re ^
      ((8 / 10 : ℚ) : ℝ) * μ Pr ^ ((1 / 3 : ℚ) : ℝ) * μ psi - 871 * μ Pr ^ ((1 / 3 : ℚ) : ℝ) * μ psi) * μ k) / μ L :=
      by
  prefixed ((.lit (37 / 1000) * .pow (.var 0) (8 / 10) * .pow (.var 1) (1 / 3) * .var 4 - .lit 871 * .pow (.var 1) (1
    / 3) * .var 4) * .var 3) / .var 2, Kind.htc.dim,
    [num false, num false, length true, conductivity true, num false], [Re, Pr, L, k, psi],
    ⟨hRe, hPr, hL, hk, hpsi, trivial⟩

theorem C86_turbulent_local {Re Pr L k psi : Val ℝ} (hRe : Plain num Re) (hPr : Plain num Pr) (hL : Prefixed length L)
    (hk : Prefixed conductivity k) (hpsi : Plain num psi) :
    Computes (htcTurbulentLocal (.ok Re) (.ok Pr) (.ok L) (.ok k) (.ok psi)) Kind.htc.dim fun μ => ((296 / 10000 * μ
      Re ^ ((8 / 10 : ℚ) : ℝ) * μ Pr ^ ((1 / 3 : ℚ) : ℝ) * μ psi) * μ k) / μ L := by
  prefixed ((.lit (296 / 10000) * .pow (.var 0) (8 / 10) * .pow (.var 1) (1 / 3) * .var 4) * .var 3) / .var 2,
    Kind.htc.dim,
    [num false, num false, length true, conductivity true, num false], [Re, Pr, L, k, psi],
    ⟨hRe, hPr, hL, hk, hpsi, trivial⟩

theorem C86_pipe_turbulent {Re Pr D k psi : Val ℝ} (hRe : Plain num Re) (hPr : Plain num Pr) (hD : Prefixed length D)
    (hk : Prefixed conductivity k) (hpsi : Plain num psi) :
    Computes (htcPipeTurbulent (.ok Re) (.ok Pr) (.ok D) (.ok k) (.ok psi)) Kind.htc.dim fun μ => ((23 / 1000 * μ Re ^
      ((8 / 10 : ℚ) : ℝ) * μ Pr ^ ((1 / 3 : ℚ) : ℝ) * μ psi) * μ k) / μ D := by
  prefixed ((.lit (23 / 1000) * .pow (.var 0) (8 / 10) * .pow (.var 1) (1 / 3) * .var 4) * .var 3) / .var 2,
    Kind.htc.dim,
    [num false, num false, length true, conductivity true, num false], [Re, Pr, D, k, psi],
    ⟨hRe, hPr, hD, hk, hpsi, trivial⟩

theorem C86_cross_cylinder {Re Pr D k : Val ℝ} (hRe : Plain num Re) (hPr : Plain num Pr) (hD : Prefixed length D) (hk
    : Prefixed conductivity k) :
    Computes (htcCrossCylinder (.ok Re) (.ok Pr) (.ok D) (.ok k)) Kind.htc.dim fun μ => ((35 / 100 * μ Pr ^ ((3 / 10 :
      ℚ) : ℝ) + 56 / 100 * μ Re ^ ((52 / 100 : ℚ) : ℝ) * μ Pr ^ ((3 / 10 : ℚ) : ℝ)) * μ k) / μ D := by
  prefixed ((.lit (35 / 100) * .pow (.var 1) (3 / 10) + .lit (56 / 100) * .pow (.var 0) (52 / 100) * .pow (.var 1) (3
    / 10)) * .var 3) / .var 2, Kind.htc.dim,
    [num false, num false, length true, conductivity true], [Re, Pr, D, k],
    ⟨hRe, hPr, hD, hk, trivial⟩

theorem C86_cross_sphere {Re Pr D k : Val ℝ} (hRe : Plain num Re) (hPr : Plain num Pr) (hD : Prefixed length D) (hk :
    Prefixed conductivity k) :
    Computes (htcCrossSphere (.ok Re) (.ok Pr) (.ok D) (.ok k)) Kind.htc.dim fun μ => ((2 + 60 / 100 * Real.sqrt (μ
      Re) * μ Pr ^ ((1 / 3 : ℚ) : ℝ)) * μ k) / μ D := by
  prefixed ((.lit 2 + .lit (60 / 100) * .pow (.var 0) (1 / 2) * .pow (.var 1) (1 / 3)) * .var 3) / .var 2,
    Kind.htc.dim,
    [num false, num false, length true, conductivity true], [Re, Pr, D, k],
    ⟨hRe, hPr, hD, hk, trivial⟩

theorem C86_short_pipe {h D L : Val ℝ} (hh : Prefixed htc h) (hD : Prefixed length D) (hL : Prefixed length L) :
    Computes (htcShortPipe (.ok h) (.ok D) (.ok L)) Kind.htc.dim fun μ => μ h * (1 + (μ D / μ L) ^ ((7 / 10 : ℚ) : ℝ))
      := by
  prefixed .var 0 * (.lit 1 + .pow (.var 1 / .var 2) (7 / 10)), Kind.htc.dim,
    [htc true, length true, length true], [h, D, L],
    ⟨hh, hD, hL, trivial⟩

theorem C86_condensation {k rho g H n T2 T1 D mu : Val ℝ} (hk : Prefixed conductivity k) (hrho : Prefixed density rho)
    (hg : Prefixed acceleration g) (hH : Prefixed specificEnergy H) (hn : Plain num n) (hT2 : Prefixed temperature T2)
    (hT1 : Prefixed temperature T1) (hD : Prefixed length D) (hmu : Prefixed viscosity mu) :
    Computes (condensationCoefficient (.ok k) (.ok rho) (.ok g) (.ok H) (.ok n) (.ok T2) (.ok T1) (.ok D) (.ok mu))
      Kind.htc.dim fun μ => 729 / 1000 * ((μ k ^ 3 * μ rho ^ 2 * μ g * μ H) / (μ n * (μ T2 - μ T1) * μ D * μ mu)) ^
      ((1 / 4 : ℚ) : ℝ) := by
  prefixed .lit (729 / 1000) * .pow ((.pow (.var 0) 3 * .pow (.var 1) 2 * .var 2 * .var 3) / (.var 4 * (.var 5 - .var
    6) * .var 7 * .var 8)) (1 / 4), Kind.htc.dim,
    [conductivity true, density true, acceleration true, specificEnergy true, num false, temperature true, temperature
    true, length true, viscosity true], [k, rho, g, H, n, T2, T1, D, mu],
    ⟨hk, hrho, hg, hH, hn, hT2, hT1, hD, hmu, trivial⟩

theorem C86_flux_max {H rv rl s g : Val ℝ} (hH : Prefixed specificEnergy H) (hrv : Prefixed density rv) (hrl :
    Prefixed density rl) (hs : Prefixed surfaceTension s) (hg : Prefixed acceleration g) :
    Computes (fluxMaxBoilingValue (.ok H) (.ok rv) (.ok rl) (.ok s) (.ok g)) Kind.heatFlux.dim fun μ => 15 / 100 * μ H
      * Real.sqrt (μ rv) * (μ s * μ g * (μ rl - μ rv)) ^ ((1 / 4 : ℚ) : ℝ) := by
  prefixed .lit (15 / 100) * .var 0 * .pow (.var 1) (1 / 2) * .pow (.var 3 * .var 4 * (.var 2 - .var 1)) (1 / 4),
    Kind.heatFlux.dim,
    [specificEnergy true, density true, density true, surfaceTension true, acceleration true], [H, rv, rl, s, g],
    ⟨hH, hrv, hrl, hs, hg, trivial⟩

theorem C86_planar_mass_transfer {D A c2 c1 x : Val ℝ} (hD : Plain diffusivity D) (hA : Plain area A) (hc2 : Prefixed
    density c2) (hc1 : Prefixed density c1) (hx : Prefixed length x) :
    Computes (planarMassTransfer (.ok D) (.ok A) (.ok c2) (.ok c1) (.ok x)) Kind.massRate.dim fun μ => -μ D * μ A *
      ((μ c2 - μ c1) / μ x) := by
  prefixed (-.var 0) * .var 1 * ((.var 2 - .var 3) / .var 4), Kind.massRate.dim,
    [diffusivity false, area false, density true, density true, length true], [D, A, c2, c1, x],
    ⟨hD, hA, hc2, hc1, hx, trivial⟩

theorem C86_planar_mass_flux {D c2 c1 x : Val ℝ} (hD : Prefixed diffusivity D) (hc2 : Prefixed density c2) (hc1 :
    Prefixed density c1) (hx : Prefixed length x) :
    Computes (planarMassFlux (.ok D) (.ok c2) (.ok c1) (.ok x)) Kind.massFlux.dim fun μ => -μ D * ((μ c2 - μ c1) / μ
      x) := by
  prefixed (-.var 0) * ((.var 1 - .var 2) / .var 3), Kind.massFlux.dim,
    [diffusivity true, density true, density true, length true], [D, c2, c1, x],
    ⟨hD, hc2, hc1, hx, trivial⟩

theorem C86_pipe_mass_transfer {D r2 r1 c2 c1 L : Val ℝ} (hD : Plain diffusivity D) (hr2 : Prefixed length r2) (hr1 :
    Prefixed length r1) (hc2 : Prefixed density c2) (hc1 : Prefixed density c1) (hL : Plain length L) :
    Computes (pipeMassTransfer (.ok D) (.ok r2) (.ok r1) (.ok c2) (.ok c1) (.ok L)) Kind.massRate.dim fun μ => -2 *
      Real.pi * μ L * μ D * ((μ c2 - μ c1) / Real.log (μ r2 / μ r1)) := by
  prefixed .lit (-2) * .lit Real.pi * .var 5 * .var 0 * ((.var 3 - .var 4) / .fn .log (.var 1 / .var 2)),
    Kind.massRate.dim,
    [diffusivity false, length true, length true, density true, density true, length false], [D, r2, r1, c2, c1, L],
    ⟨hD, hr2, hr1, hc2, hc1, hL, trivial⟩

theorem C86_sphere_mass_transfer {D r2 r1 c2 c1 : Val ℝ} (hD : Plain diffusivity D) (hr2 : Plain length r2) (hr1 :
    Plain length r1) (hc2 : Prefixed density c2) (hc1 : Prefixed density c1) :
    Computes (sphereMassTransfer (.ok D) (.ok r2) (.ok r1) (.ok c2) (.ok c1)) Kind.massRate.dim fun μ => -4 * Real.pi
      * μ r1 * μ r2 * μ D * ((μ c2 - μ c1) / (μ r2 - μ r1)) := by
  prefixed .lit (-4) * .lit Real.pi * .var 2 * .var 1 * .var 0 * ((.var 3 - .var 4) / (.var 1 - .var 2)),
    Kind.massRate.dim,
    [diffusivity false, length false, length false, density true, density true], [D, r2, r1, c2, c1],
    ⟨hD, hr2, hr1, hc2, hc1, trivial⟩

theorem C86_semi_infinite_diffusion {cs c0 z D t : Val ℝ} (hcs : Prefixed density cs) (hc0 : Prefixed density c0) (hz
    : Plain length z) (hD : Plain diffusivity D) (ht : Plain time t) :
    Computes (semiInfiniteSlabDiffusion (.ok cs) (.ok c0) (.ok z) (.ok D) (.ok t)) Kind.density.dim fun μ => μ cs - (μ
      cs - μ c0) * erf (μ z / Real.sqrt (4 * μ D * μ t)) := by
  prefixed .var 0 - (.var 0 - .var 1) * .fn .erf (.var 2 / .pow (.lit 4 * .var 3 * .var 4) (1 / 2)), Kind.density.dim,
    [density true, density true, length false, diffusivity false, time false], [cs, c0, z, D, t],
    ⟨hcs, hc0, hz, hD, ht, trivial⟩

theorem C86_planar_mass_transfer_molar {D A c2 c1 x : Val ℝ} (hD : Plain diffusivity D) (hA : Plain area A) (hc2 :
    Prefixed molarity c2) (hc1 : Prefixed molarity c1) (hx : Prefixed length x) :
    Computes (planarMassTransfer (.ok D) (.ok A) (.ok c2) (.ok c1) (.ok x)) Kind.molarRate.dim fun μ => -μ D * μ A *
      ((μ c2 - μ c1) / μ x) := by
  prefixed (-.var 0) * .var 1 * ((.var 2 - .var 3) / .var 4), Kind.molarRate.dim,
    [diffusivity false, area false, molarity true, molarity true, length true], [D, A, c2, c1, x],
    ⟨hD, hA, hc2, hc1, hx, trivial⟩

theorem C86_planar_mass_flux_molar {D c2 c1 x : Val ℝ} (hD : Prefixed diffusivity D) (hc2 : Prefixed molarity c2) (hc1
    : Prefixed molarity c1) (hx : Prefixed length x) :
    Computes (planarMassFlux (.ok D) (.ok c2) (.ok c1) (.ok x)) Kind.molarFlux.dim fun μ => -μ D * ((μ c2 - μ c1) / μ
      x) := by
  prefixed (-.var 0) * ((.var 1 - .var 2) / .var 3), Kind.molarFlux.dim,
    [diffusivity true, molarity true, molarity true, length true], [D, c2, c1, x],
    ⟨hD, hc2, hc1, hx, trivial⟩

theorem C86_pipe_mass_transfer_molar {D r2 r1 c2 c1 L : Val ℝ} (hD : Plain diffusivity D) (hr2 : Prefixed length r2)
    (hr1 : Prefixed length r1) (hc2 : Prefixed molarity c2) (hc1 : Prefixed molarity c1) (hL : Plain length L) :
    Computes (pipeMassTransfer (.ok D) (.ok r2) (.ok r1) (.ok c2) (.ok c1) (.ok L)) Kind.molarRate.dim fun μ => -2 *
      Real.pi * μ L * μ D * ((μ c2 - μ c1) / Real.log (μ r2 / μ r1)) := by
  prefixed .lit (-2) * .lit Real.pi * .var 5 * .var 0 * ((.var 3 - .var 4) / .fn .log (.var 1 / .var 2)),
    Kind.molarRate.dim,
    [diffusivity false, length true, length true, molarity true, molarity true, length false], [D, r2, r1, c2, c1, L],
    ⟨hD, hr2, hr1, hc2, hc1, hL, trivial⟩

theorem C86_sphere_mass_transfer_molar {D r2 r1 c2 c1 : Val ℝ} (hD : Plain diffusivity D) (hr2 : Plain length r2) (hr1
    : Plain length r1) (hc2 : Prefixed molarity c2) (hc1 : Prefixed molarity c1) :
    Computes (sphereMassTransfer (.ok D) (.ok r2) (.ok r1) (.ok c2) (.ok c1)) Kind.molarRate.dim fun μ => -4 * Real.pi
      * μ r1 * μ r2 * μ D * ((μ c2 - μ c1) / (μ r2 - μ r1)) := by
  prefixed .lit (-4) * .lit Real.pi * .var 2 * .var 1 * .var 0 * ((.var 3 - .var 4) / (.var 1 - .var 2)),
    Kind.molarRate.dim,
    [diffusivity false, length false, length false, molarity true, molarity true], [D, r2, r1, c2, c1],
    ⟨hD, hr2, hr1, hc2, hc1, trivial⟩

theorem C86_semi_infinite_diffusion_molar {cs c0 z D t : Val ℝ} (hcs : Prefixed molarity cs) (hc0 : Prefixed molarity
    c0) (hz : Plain length z) (hD : Plain diffusivity D) (ht : Plain time t) :
    Computes (semiInfiniteSlabDiffusion (.ok cs) (.ok c0) (.ok z) (.ok D) (.ok t)) Kind.molarity.dim fun μ => μ cs -
      (μ cs - μ c0) * erf (μ z / Real.sqrt (4 * μ D * μ t)) := by
  prefixed .var 0 - (.var 0 - .var 1) * .fn .erf (.var 2 / .pow (.lit 4 * .var 3 * .var 4) (1 / 2)),
    Kind.molarity.dim,
    [molarity true, molarity true, length false, diffusivity false, time false], [cs, c0, z, D, t],
    ⟨hcs, hc0, hz, hD, ht, trivial⟩

theorem C86_two_d_pulse {m L x D t : Val ℝ} (hm : Prefixed mass m) (hL : Prefixed length L) (hx : Plain length x) (hD
    : Plain diffusivity D) (ht : Plain time t) :
    Computes (twoDPulse (.ok m) (.ok L) (.ok x) (.ok D) (.ok t)) Kind.density.dim fun μ => ((μ m / μ L) * Real.exp
      (-(μ x) ^ 2 / (4 * μ D * μ t))) / (4 * Real.pi * μ D * μ t) := by
  prefixed ((.var 0 / .var 1) * .fn .exp ((-.pow (.var 2) 2) / (.lit 4 * .var 3 * .var 4))) / (.lit 4 * .lit Real.pi *
    .var 3 * .var 4), Kind.density.dim,
    [mass true, length true, length false, diffusivity false, time false], [m, L, x, D, t],
    ⟨hm, hL, hx, hD, ht, trivial⟩

theorem C86_reynolds {rho v L mu : Val ℝ} (hrho : Prefixed density rho) (hv : Prefixed velocity v) (hL : Plain length
    L) (hmu : Plain viscosity mu) :
    Computes (reynolds (.ok rho) (.ok v) (.ok L) (.ok mu)) Kind.num.dim fun μ => (μ rho * μ v * μ L) / μ mu := by
  prefixed (.var 0 * .var 1 * .var 2) / .var 3, Kind.num.dim,
    [density true, velocity true, length false, viscosity false], [rho, v, L, mu],
    ⟨hrho, hv, hL, hmu, trivial⟩

theorem C86_biot {h L k : Val ℝ} (hh : Plain htc h) (hL : Plain length L) (hk : Prefixed conductivity k) :
    Computes (biot (.ok h) (.ok L) (.ok k)) Kind.num.dim fun μ => (μ h * μ L) / μ k := by
  prefixed (.var 0 * .var 1) / .var 2, Kind.num.dim,
    [htc false, length false, conductivity true], [h, L, k],
    ⟨hh, hL, hk, trivial⟩

theorem C86_prandtl {mu cp k : Val ℝ} (hmu : Prefixed viscosity mu) (hcp : Prefixed heatCapacity cp) (hk : Prefixed
    conductivity k) :
    Computes (prandtl (.ok mu) (.ok cp) (.ok k)) Kind.num.dim fun μ => (μ mu * μ cp) / μ k := by
  prefixed (.var 0 * .var 1) / .var 2, Kind.num.dim,
    [viscosity true, heatCapacity true, conductivity true], [mu, cp, k],
    ⟨hmu, hcp, hk, trivial⟩

theorem C86_schmidt {mu rho D : Val ℝ} (hmu : Prefixed viscosity mu) (hrho : Prefixed density rho) (hD : Prefixed
    diffusivity D) :
    Computes (schmidt (.ok mu) (.ok rho) (.ok D)) Kind.num.dim fun μ => μ mu / (μ rho * μ D) := by
  prefixed .var 0 / (.var 1 * .var 2), Kind.num.dim,
    [viscosity true, density true, diffusivity true], [mu, rho, D],
    ⟨hmu, hrho, hD, trivial⟩

theorem C86_gretz {d L cp cl rho v k : Val ℝ} (hd : Plain length d) (hL : Plain length L) (hcp : Plain heatCapacity
    cp) (hcl : Plain length cl) (hrho : Prefixed density rho) (hv : Prefixed velocity v) (hk : Plain conductivity k) :
    Computes (gretz (.ok d) (.ok L) (.ok cp) (.ok cl) (.ok rho) (.ok v) (.ok k)) Kind.num.dim fun μ => (μ cp * μ d * μ
      cl * μ rho * μ v) / (μ k * μ L) := by
  prefixed (.var 2 * .var 0 * .var 3 * .var 4 * .var 5) / (.var 6 * .var 1), Kind.num.dim,
    [length false, length false, heatCapacity false, length false, density true, velocity true, conductivity false],
    [d, L, cp, cl, rho, v, k],
    ⟨hd, hL, hcp, hcl, hrho, hv, hk, trivial⟩

theorem C86_grashof {g b T2 T1 L rho mu : Val ℝ} (hg : Prefixed acceleration g) (hb : Plain expansivity b) (hT2 :
    Plain temperature T2) (hT1 : Prefixed temperature T1) (hL : Plain length L) (hrho : Plain density rho) (hmu :
    Prefixed viscosity mu) :
    Computes (grashof (.ok g) (.ok b) (.ok T2) (.ok T1) (.ok L) (.ok rho) (.ok mu)) Kind.num.dim fun μ => (μ L ^ 3 * μ
      rho ^ 2 * μ b * (μ T2 - μ T1) * μ g) / μ mu ^ 2 := by
  prefixed (.pow (.var 4) 3 * .pow (.var 5) 2 * .var 1 * (.var 2 - .var 3) * .var 0) / .pow (.var 6) 2, Kind.num.dim,
    [acceleration true, expansivity false, temperature false, temperature true, length false, density false, viscosity
    true], [g, b, T2, T1, L, rho, mu],
    ⟨hg, hb, hT2, hT1, hL, hrho, hmu, trivial⟩

theorem C86_thermal_beta {r1 r2 T2 T1 : Val ℝ} (hr1 : Plain density r1) (hr2 : Prefixed density r2) (hT2 : Plain
    temperature T2) (hT1 : Prefixed temperature T1) :
    Computes (thermalBeta (.ok r1) (.ok r2) (.ok T2) (.ok T1)) Kind.expansivity.dim fun μ => (μ r1 - μ r2) / (((μ r1 +
      μ r2) / 2) * (μ T2 - μ T1)) := by
  prefixed (.var 0 - .var 1) / (((.var 0 + .var 1) / .lit 2) * (.var 2 - .var 3)), Kind.expansivity.dim,
    [density false, density true, temperature false, temperature true], [r1, r2, T2, T1],
    ⟨hr1, hr2, hT2, hT1, trivial⟩

theorem C86_vessel_cylinder {s x r : Val ℝ} (hs : Prefixed pressure s) (hx : Prefixed length x) (hr : Prefixed length
    r) :
    Computes (maxVesselPressure (.ok s) (.ok x) (.ok r) c!"cylinder") Kind.pressure.dim fun μ => (μ s * μ x) / (μ r +
      6 / 10 * μ x) := by
  prefixed (.var 0 * .var 1) / (.var 2 + (.lit (6 / 10) * .var 1)), Kind.pressure.dim,
    [pressure true, length true, length true], [s, x, r],
    ⟨hs, hx, hr, trivial⟩

theorem C86_vessel_sphere {s x r : Val ℝ} (hs : Prefixed pressure s) (hx : Prefixed length x) (hr : Prefixed length r)
    :
    Computes (maxVesselPressure (.ok s) (.ok x) (.ok r) c!"sphere") Kind.pressure.dim fun μ => (2 * μ x * μ s) / (μ r
      + 2 / 10 * μ x) := by
  prefixed (.lit 2 * .var 1 * .var 0) / (.var 2 + .lit (2 / 10) * .var 1), Kind.pressure.dim,
    [pressure true, length true, length true], [s, x, r],
    ⟨hs, hx, hr, trivial⟩

theorem C86_far {n t : Val ℝ} (hn : Plain num n) (ht : Prefixed time t) :
    Computes (far (.ok n) (.ok t)) Kind.rate.dim fun μ => (μ n * (10 * 10 ^ 8)) / μ t := by
  prefixed (.var 0 * .lit (10 * 10 ^ 8)) / .var 1, Kind.rate.dim,
    [num false, time true], [n, t],
    ⟨hn, ht, trivial⟩

theorem C86_osha {n t : Val ℝ} (hn : Plain num n) (ht : Prefixed time t) :
    Computes (oshaRate (.ok n) (.ok t)) Kind.rate.dim fun μ => (μ n * 200000) / μ t := by
  prefixed (.var 0 * .lit 200000) / .var 1, Kind.rate.dim,
    [num false, time true], [n, t],
    ⟨hn, ht, trivial⟩

theorem C86_evaporation {M k A P R T : Val ℝ} (hM : Prefixed molarMass M) (hk : Prefixed velocity k) (hA : Plain area
    A) (hP : Plain pressure P) (hR : Plain gasConstant R) (hT : Plain temperature T) :
    Computes (qmEvaporation (.ok M) (.ok k) (.ok A) (.ok P) (.ok R) (.ok T)) Kind.massRate.dim fun μ => (μ M * μ k * μ
      A * μ P) / (μ R * μ T) := by
  prefixed (.var 0 * .var 1 * .var 2 * .var 3) / (.var 4 * .var 5), Kind.massRate.dim,
    [molarMass true, velocity true, area false, pressure false, gasConstant false, temperature false], [M, k, A, P, R,
    T],
    ⟨hM, hk, hA, hP, hR, hT, trivial⟩

theorem C86_enclosure {Q R T k V P M : Val ℝ} (hQ : Prefixed massRate Q) (hR : Prefixed gasConstant R) (hT : Plain
    temperature T) (hk : Plain num k) (hV : Plain volumeRate V) (hP : Plain pressure P) (hM : Plain molarMass M) :
    Computes (enclosureConcentration (.ok Q) (.ok R) (.ok T) (.ok k) (.ok V) (.ok P) (.ok M)) Kind.num.dim fun μ =>
      ((10 * 10 ^ 6) * (μ Q * μ R * μ T)) / (μ k * μ V * μ P * μ M) := by
  prefixed (.lit (10 * 10 ^ 6) * (.var 0 * .var 1 * .var 2)) / (.var 3 * .var 4 * .var 5 * .var 6), Kind.num.dim,
    [massRate true, gasConstant true, temperature false, num false, volumeRate false, pressure false, molarMass
    false], [Q, R, T, k, V, P, M],
    ⟨hQ, hR, hT, hk, hV, hP, hM, trivial⟩

theorem C86_cstr {F0 F r : Val ℝ} (hF0 : Prefixed molarRate F0) (hF : Prefixed molarRate F) (hr : Prefixed
    reactionRate r) :
    Computes (cstrVolume (.ok F0) (.ok F) (.ok r)) Kind.volume.dim fun μ => (μ F0 - μ F) / (-μ r) := by
  prefixed (.var 0 - .var 1) / (-.var 2), Kind.volume.dim,
    [molarRate true, molarRate true, reactionRate true], [F0, F, r],
    ⟨hF0, hF, hr, trivial⟩

/-- Conduction through 5 cm of a wall with 2 kW/(m·K) between 300 K and 350 K: the hypotheses hold with prefixes that are not
one, and a result is returned. -/
example : ∃ k T1 T2 x : Val ℝ, Prefixed conductivity k ∧ Prefixed temperature T1 ∧ Prefixed temperature T2 ∧
    Prefixed length x ∧ ∃ r, planarFlux [k, T1, T2, x] [] = .ok r := by
  refine ⟨.multi ⟨.multi, 2, [⟨c!"kW", 1⟩], [⟨c!"m", 1⟩, ⟨c!"K", 1⟩]⟩, .unit ⟨.temperature, 300, c!"K", 1⟩,
    .unit ⟨.temperature, 350, c!"K", 1⟩, .unit ⟨.length, 5, c!"cm", 1⟩,
    ⟨_, rfl, ⟨by decide +kernel, by decide +kernel⟩, by decide +kernel⟩,
    ⟨_, rfl, ⟨⟨300, c!"K", 1, rfl⟩, by decide +kernel, by decide⟩, rfl, by decide +kernel⟩,
    ⟨_, rfl, ⟨⟨350, c!"K", 1, rfl⟩, by decide +kernel, by decide⟩, rfl, by decide +kernel⟩,
    ⟨_, rfl, ⟨⟨5, c!"cm", 1, rfl⟩, by decide +kernel, by decide⟩, rfl, by decide +kernel⟩, ?_⟩
  have e (k : MultiV ℝ) (a b x : UnitV ℝ) : planarFlux [.multi k, .unit a, .unit b, .unit x] [] =
      (-.ok (.multi k)) * ((.ok (.unit b) - .ok (.unit a)) / .ok (.unit x)) := rfl
  rw [e]
  units_eval [show (5 : ℝ) ≠ 0 by norm_num]
  exact ⟨_, rfl⟩

end Verif
