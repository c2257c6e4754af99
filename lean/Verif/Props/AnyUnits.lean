import Verif.Props.Checked
import Verif.Props.Conduction
import Verif.HeatTransfer.Transient
import Verif.HeatTransfer.Exchangers
import Verif.HeatTransfer.Coefficients
import Verif.HeatTransfer.Radiation
import Verif.MassTransfer.Pulses
import Verif.MassTransfer.Steady
import Verif.MassTransfer.Transient
import Verif.Safety.Basic
import Verif.Reactions.Parameters

/-!
# C75: the library's formulas in any units without prefix

Every formula below passes the dimensional check, so that what it returns has the dimension and the magnitude of the
textbook formula whatever units the arguments are written in, as long as none carries a prefix.
-/

namespace Verif

/-! ## Reading a formula as a checked expression -/

/-- The magnitude. -/
noncomputable def Val.magn (ρ : Sym → ℝ) : Val ℝ → ℝ
  | .num x => x
  | .unit u => u.mag ρ
  | .multi m => m.mag ρ
  | _ => 0

theorem PlainVal.hasMag {v : Val ℝ} (h : PlainVal v) (ρ : Sym → ℝ) : HasMag ρ v (v.magn ρ) := by
  cases v with
  | none | other | bare => exact h.elim
  | num x => exact .num x
  | unit u => exact .unit u
  | multi m => exact .multi m

/-- Whatever `f` returns has dimension `d` and the magnitude `m` computes from the magnitudes of the arguments. -/
def Computes (f : PyM (Val ℝ)) (d : Dim) (m : (Val ℝ → ℝ) → ℝ) : Prop :=
  ∀ r, f = .ok r → r.dim = d ∧ ∀ ρ, Coherent ρ → HasMag ρ r (m (Val.magn ρ))

/-- The arguments are as declared. -/
def AllHave : List Ty → List (Val ℝ) → Prop
  | [], [] => True
  | t :: ts, v :: vs => t.Has v ∧ AllHave ts vs
  | _, _ => False

def tyOf (l : List Ty) (i : ℕ) : Ty := l.getD i .num
def envOf (l : List (Val ℝ)) (i : ℕ) : Val ℝ := l.getD i (.num 0)

theorem AllHave.get {ts : List Ty} {vs : List (Val ℝ)} (h : AllHave ts vs) (i : ℕ) : (tyOf ts i).Has (envOf vs i) := by
  induction ts generalizing vs i with
  | nil => cases vs with
    | nil => exact ⟨0, rfl⟩
    | cons => exact h.elim
  | cons t ts ih => cases vs with
    | nil => exact h.elim
    | cons v vs => cases i with
      | zero => exact h.1
      | succ i => exact ih h.2 i

theorem Arith.computes {ts : List Ty} {vs : List (Val ℝ)} (h : AllHave ts vs) (e : Arith) {d : Dim}
    (hd : (e.check (tyOf ts)).map Ty.dim = some d) :
    Computes (e.run (envOf vs)) d fun μ => e.meaning fun i => μ (envOf vs i) := by
  intro r hr
  obtain ⟨t, ht, rfl⟩ := Option.map_eq_some_iff.1 hd
  obtain ⟨h1, h2⟩ := C75_checked e (tyOf ts) (envOf vs) h.get t ht r hr
  exact ⟨h1.dim, fun ρ hρ => h2 ρ hρ _ fun i => (h.get i).plain.hasMag ρ⟩

instance : Mul Arith := ⟨.mul⟩
instance : Div Arith := ⟨.div⟩
instance : Add Arith := ⟨.add⟩
instance : Sub Arith := ⟨.sub⟩
instance : Neg Arith := ⟨.neg⟩

theorem Computes.of_eq {f : PyM (Val ℝ)} {d : Dim} {m m' : (Val ℝ → ℝ) → ℝ} (h : Computes f d m) (e : ∀ μ, m μ = m' μ) :
    Computes f d m' := (funext e : m = m') ▸ h

theorem rpow_two (x : ℝ) : x ^ (((2 : ℚ)) : ℝ) = x ^ 2 := by norm_num
theorem rpow_three (x : ℝ) : x ^ (((3 : ℚ)) : ℝ) = x ^ 3 := by norm_num
theorem rpow_half (x : ℝ) : x ^ (((1 / 2 : ℚ)) : ℝ) = Real.sqrt x := by rw [Real.sqrt_eq_rpow]; norm_num

/-- `checked e, d, ts, vs, h`: the goal is `Computes f d m` with `f` and, up to the spelling of powers, `m` the
two readings of `e`. -/
macro "checked " e:term ", " d:term ", " ts:term ", " vs:term ", " h:term : tactic =>
  `(tactic| (
    have := Arith.computes (ts := $ts) (vs := $vs) $h $e (d := $d) (by decide +kernel)
    first
    | exact this
    | exact Computes.of_eq this fun μ => by
        simp only [← rpow_two, ← rpow_three, ← rpow_half]; rfl))

/-! ## Kinds of arguments -/

namespace Kind
def num : Ty := .num
def temperature : Ty := .simple (0, 0, 0, 1, 0, 0)
def length : Ty := .simple (1, 0, 0, 0, 0, 0)
def time : Ty := .simple (0, 0, 1, 0, 0, 0)
def mass : Ty := .simple (0, 1, 0, 0, 0, 0)
def pressure : Ty := .simple (-1, 1, -2, 0, 0, 0)
def area : Ty := .any (2, 0, 0, 0, 0, 0)
def volume : Ty := .any (3, 0, 0, 0, 0, 0)
def conductivity : Ty := .any (1, 1, -3, -1, 0, 0)
def density : Ty := .any (-3, 1, 0, 0, 0, 0)
def heatCapacity : Ty := .any (2, 0, -2, -1, 0, 0)
def specificEnergy : Ty := .any (2, 0, -2, 0, 0, 0)
def htc : Ty := .any (0, 1, -3, -1, 0, 0)
def viscosity : Ty := .any (-1, 1, -1, 0, 0, 0)
def diffusivity : Ty := .any (2, 0, -1, 0, 0, 0)
def velocity : Ty := .any (1, 0, -1, 0, 0, 0)
def acceleration : Ty := .any (1, 0, -2, 0, 0, 0)
def expansivity : Ty := .any (0, 0, 0, -1, 0, 0)
def power : Ty := .any (2, 1, -3, 0, 0, 0)
def heatFlux : Ty := .any (0, 1, -3, 0, 0, 0)
def massRate : Ty := .any (0, 1, -1, 0, 0, 0)
def massFlux : Ty := .any (-2, 1, -1, 0, 0, 0)
def molarity : Ty := .any (-3, 0, 0, 0, 0, 1)
def molarRate : Ty := .any (0, 0, -1, 0, 0, 1)
def molarFlux : Ty := .any (-2, 0, -1, 0, 0, 1)
def reactionRate : Ty := .any (-3, 0, -1, 0, 0, 1)
def surfaceTension : Ty := .any (0, 1, -2, 0, 0, 0)
def rate : Ty := .any (0, 0, -1, 0, 0, 0)
def molarMass : Ty := .any (0, 1, 0, 0, 0, -1)
def gasConstant : Ty := .any (2, 1, -2, -1, 0, -1)
def volumeRate : Ty := .any (3, 0, -1, 0, 0, 0)
end Kind

open Kind

section
variable {k T1 T2 A x q L r1 r2 : Val ℝ}

/-! ## Conduction -/

theorem C75_pipe_heat (hk : conductivity.Has k) (h1 : temperature.Has T1) (h2 : temperature.Has T2) (hL : length.Has L)
    (hr2 : length.Has r2) (hr1 : length.Has r1) :
    Computes (pipeHeat (.ok k) (.ok T1) (.ok T2) (.ok L) (.ok r2) (.ok r1)) power.dim fun μ =>
      -2 * Real.pi * μ L * μ k * ((μ T2 - μ T1) / Real.log (μ r2 / μ r1)) := by
  checked .lit (-2) * .lit Real.pi * .var 3 * .var 0 * ((.var 2 - .var 1) / .fn .log (.var 4 / .var 5)), power.dim,
    [conductivity, temperature, temperature, length, length, length], [k, T1, T2, L, r2, r1],
    ⟨hk, h1, h2, hL, hr2, hr1, trivial⟩

/-- Cases on a value of nonzero dimension. -/
theorem Ty.Has.cases {d : Dim} {v : Val ℝ} (h : (Ty.any d).Has v) (hd : d ≠ 0) :
    (∃ u, v = .unit u) ∨ ∃ m, v = .multi m := by
  obtain ⟨h1, h2⟩ := h
  cases v with
  | none | other | bare => exact h1.elim
  | num x => exact absurd h2.symm hd
  | unit u => exact .inl ⟨u, rfl⟩
  | multi m => exact .inr ⟨m, rfl⟩

section
variable (hk : conductivity.Has k) (h1 : temperature.Has T1) (h2 : temperature.Has T2) (hA : area.Has A) (hx : length.Has x)
  (hq : power.Has q)
include hk h1 h2 hA hx in
theorem C75_planar_heat : Computes (planarHeat [k, T1, T2, A, x] []) power.dim fun μ =>
    -μ k * μ A * ((μ T2 - μ T1) / μ x) := by
  have e : planarHeat [k, T1, T2, A, x] [] = (-.ok k) * .ok A * ((.ok T2 - .ok T1) / .ok x) := by
    obtain ⟨k, rfl⟩ := hk.is_multi (by decide +kernel)
    obtain ⟨_, rfl, -⟩ := h1
    obtain ⟨_, rfl, -⟩ := h2
    obtain ⟨_, rfl, -⟩ := hx
    rcases hA.cases (by decide +kernel) with ⟨_, rfl⟩ | ⟨_, rfl⟩ <;> rfl
  rw [e]
  checked (-.var 0) * .var 3 * ((.var 2 - .var 1) / .var 4), power.dim,
    [conductivity, temperature, temperature, area, length], [k, T1, T2, A, x],
    ⟨hk, h1, h2, hA, hx, trivial⟩

include hk h1 h2 hA hq in
theorem C75_planar_heat_thickness : Computes (planarHeat [k, T1, T2, A, .none, q] []) length.dim fun μ =>
    (-μ k * μ A * (μ T2 - μ T1)) / μ q := by
  have e : planarHeat [k, T1, T2, A, .none, q] [] = ((-.ok k) * .ok A * (.ok T2 - .ok T1)) / .ok q := by
    obtain ⟨k, rfl⟩ := hk.is_multi (by decide +kernel)
    obtain ⟨_, rfl, -⟩ := h1
    obtain ⟨_, rfl, -⟩ := h2
    rcases hA.cases (by decide +kernel) with ⟨_, rfl⟩ | ⟨_, rfl⟩ <;>
    rcases hq.cases (by decide +kernel) with ⟨_, rfl⟩ | ⟨_, rfl⟩ <;> rfl
  rw [e]
  checked ((-.var 0) * .var 3 * (.var 2 - .var 1)) / .var 4, length.dim,
    [conductivity, temperature, temperature, area, power], [k, T1, T2, A, q],
    ⟨hk, h1, h2, hA, hq, trivial⟩

include hk h1 hA hx hq in
theorem C75_planar_heat_T2 : Computes (planarHeat [k, T1, .none, A, x, q] []) temperature.dim fun μ =>
    (μ x * μ q) / (-μ k * μ A) + μ T1 := by
  have e : planarHeat [k, T1, .none, A, x, q] [] = ((.ok x * .ok q) / ((-.ok k) * .ok A)) + .ok T1 := by
    obtain ⟨k, rfl⟩ := hk.is_multi (by decide +kernel)
    obtain ⟨_, rfl, -⟩ := h1
    obtain ⟨_, rfl, -⟩ := hx
    rcases hA.cases (by decide +kernel) with ⟨_, rfl⟩ | ⟨_, rfl⟩ <;>
    rcases hq.cases (by decide +kernel) with ⟨_, rfl⟩ | ⟨_, rfl⟩ <;> rfl
  rw [e]
  checked ((.var 3 * .var 4) / ((-.var 0) * .var 2)) + .var 1, temperature.dim,
    [conductivity, temperature, area, length, power], [k, T1, A, x, q],
    ⟨hk, h1, hA, hx, hq, trivial⟩

include hk h2 hA hx hq in
theorem C75_planar_heat_T1 : Computes (planarHeat [k, .none, T2, A, x, q] []) temperature.dim fun μ =>
    -((μ x * μ q) / (-μ k * μ A)) + μ T2 := by
  have e : planarHeat [k, .none, T2, A, x, q] [] = (-((.ok x * .ok q) / ((-.ok k) * .ok A))) + .ok T2 := by
    obtain ⟨k, rfl⟩ := hk.is_multi (by decide +kernel)
    obtain ⟨_, rfl, -⟩ := h2
    obtain ⟨_, rfl, -⟩ := hx
    rcases hA.cases (by decide +kernel) with ⟨_, rfl⟩ | ⟨_, rfl⟩ <;>
    rcases hq.cases (by decide +kernel) with ⟨_, rfl⟩ | ⟨_, rfl⟩ <;> rfl
  rw [e]
  checked (-((.var 3 * .var 4) / ((-.var 0) * .var 2))) + .var 1, temperature.dim,
    [conductivity, temperature, area, length, power], [k, T2, A, x, q],
    ⟨hk, h2, hA, hx, hq, trivial⟩

end

section
variable (hk : conductivity.Has k) (h1 : temperature.Has T1) (h2 : temperature.Has T2) (hx : length.Has x)
  (hq : heatFlux.Has q)
include hk h1 h2 hx in
theorem C75_planar_flux : Computes (planarFlux [k, T1, T2, x] []) heatFlux.dim fun μ =>
    -μ k * ((μ T2 - μ T1) / μ x) := by
  have e : planarFlux [k, T1, T2, x] [] = (-.ok k) * ((.ok T2 - .ok T1) / .ok x) := by
    obtain ⟨k, rfl⟩ := hk.is_multi (by decide +kernel)
    obtain ⟨_, rfl, -⟩ := h1
    obtain ⟨_, rfl, -⟩ := h2
    obtain ⟨_, rfl, -⟩ := hx
    rfl
  rw [e]
  checked (-.var 0) * ((.var 2 - .var 1) / .var 3), heatFlux.dim,
    [conductivity, temperature, temperature, length], [k, T1, T2, x],
    ⟨hk, h1, h2, hx, trivial⟩

include hk h1 h2 hq in
theorem C75_planar_flux_thickness : Computes (planarFlux [k, T1, T2, .none, q] []) length.dim fun μ =>
    (-μ k * (μ T2 - μ T1)) / μ q := by
  have e : planarFlux [k, T1, T2, .none, q] [] = ((-.ok k) * (.ok T2 - .ok T1)) / .ok q := by
    obtain ⟨k, rfl⟩ := hk.is_multi (by decide +kernel)
    obtain ⟨_, rfl, -⟩ := h1
    obtain ⟨_, rfl, -⟩ := h2
    rcases hq.cases (by decide +kernel) with ⟨_, rfl⟩ | ⟨_, rfl⟩ <;> rfl
  rw [e]
  checked ((-.var 0) * (.var 2 - .var 1)) / .var 3, length.dim,
    [conductivity, temperature, temperature, heatFlux], [k, T1, T2, q],
    ⟨hk, h1, h2, hq, trivial⟩

include hk h1 hx hq in
theorem C75_planar_flux_T2 : Computes (planarFlux [k, T1, .none, x, q] []) temperature.dim fun μ =>
    (μ x * μ q) / (-μ k) + μ T1 := by
  have e : planarFlux [k, T1, .none, x, q] [] = ((.ok x * .ok q) / (-.ok k)) + .ok T1 := by
    obtain ⟨k, rfl⟩ := hk.is_multi (by decide +kernel)
    obtain ⟨_, rfl, -⟩ := h1
    obtain ⟨_, rfl, -⟩ := hx
    rcases hq.cases (by decide +kernel) with ⟨_, rfl⟩ | ⟨_, rfl⟩ <;> rfl
  rw [e]
  checked ((.var 2 * .var 3) / (-.var 0)) + .var 1, temperature.dim,
    [conductivity, temperature, length, heatFlux], [k, T1, x, q],
    ⟨hk, h1, hx, hq, trivial⟩

include hk h2 hx hq in
theorem C75_planar_flux_T1 : Computes (planarFlux [k, .none, T2, x, q] []) temperature.dim fun μ =>
    -((μ x * μ q) / (-μ k)) + μ T2 := by
  have e : planarFlux [k, .none, T2, x, q] [] = (-((.ok x * .ok q) / (-.ok k))) + .ok T2 := by
    obtain ⟨k, rfl⟩ := hk.is_multi (by decide +kernel)
    obtain ⟨_, rfl, -⟩ := h2
    obtain ⟨_, rfl, -⟩ := hx
    rcases hq.cases (by decide +kernel) with ⟨_, rfl⟩ | ⟨_, rfl⟩ <;> rfl
  rw [e]
  checked (-((.var 2 * .var 3) / (-.var 0))) + .var 1, temperature.dim,
    [conductivity, temperature, length, heatFlux], [k, T2, x, q],
    ⟨hk, h2, hx, hq, trivial⟩

end

end

/-! ## Transient conduction -/

section
variable {rho cp k h A V s z t Ts To Tf Tm l0 l1 H : Val ℝ}

theorem C75_pseudo_steady_time (hr : density.Has rho) (hH : specificEnergy.Has H) (hk : conductivity.Has k)
    (hs : temperature.Has Ts) (hm : temperature.Has Tm) (h0 : length.Has l0) (h1 : length.Has l1) :
    Computes (pseudoSteadyTime (.ok rho) (.ok H) (.ok k) (.ok Ts) (.ok Tm) (.ok l0) (.ok l1)) time.dim fun μ =>
      (μ rho * μ H) / (μ k * (μ Ts - μ Tm)) * ((μ l1 ^ 2 - μ l0 ^ 2) / 2) := by
  checked ((.var 0 * .var 1) / (.var 2 * (.var 3 - .var 4))) * ((.pow (.var 6) 2 - .pow (.var 5) 2) / .lit 2), time.dim,
    [density, specificEnergy, conductivity, temperature, temperature, length, length], [rho, H, k, Ts, Tm, l0, l1],
    ⟨hr, hH, hk, hs, hm, h0, h1, trivial⟩

theorem C75_semi_infinite_slab (hs : temperature.Has Ts) (h0 : temperature.Has To) (hz : length.Has z) (ht : time.Has t)
    (hr : density.Has rho) (hc : heatCapacity.Has cp) (hk : conductivity.Has k) :
    Computes (semiInfiniteSlabConduction (.ok Ts) (.ok To) (.ok z) (.ok t) (.ok rho) (.ok cp) (.ok k)) temperature.dim
      fun μ => μ Ts - (μ Ts - μ To) * erf (μ z / Real.sqrt (4 * (μ k / (μ rho * μ cp)) * μ t)) := by
  checked .var 0 - (.var 0 - .var 1) *
      .fn .erf (.var 2 / .pow (.lit 4 * (.var 6 / (.var 4 * .var 5)) * .var 3) (1 / 2)), temperature.dim,
    [temperature, temperature, length, time, density, heatCapacity, conductivity], [Ts, To, z, t, rho, cp, k],
    ⟨hs, h0, hz, ht, hr, hc, hk, trivial⟩

theorem C75_lumped (hf : temperature.Has Tf) (h0 : temperature.Has To) (hh : htc.Has h) (hA : area.Has A)
    (hr : density.Has rho) (hc : heatCapacity.Has cp) (hV : volume.Has V) (ht : time.Has t) :
    Computes (lumpedParameter (.ok Tf) (.ok To) (.ok h) (.ok A) (.ok rho) (.ok cp) (.ok V) (.ok t)) temperature.dim
      fun μ => μ Tf - (μ Tf - μ To) * Real.exp (-(μ h * μ A * μ t) / (μ rho * μ cp * μ V)) := by
  checked .var 0 - (.var 0 - .var 1) * .fn .exp ((-(.var 2 * .var 3 * .var 7)) / (.var 4 * .var 5 * .var 6)), temperature.dim,
    [temperature, temperature, htc, area, density, heatCapacity, volume, time], [Tf, To, h, A, rho, cp, V, t],
    ⟨hf, h0, hh, hA, hr, hc, hV, ht, trivial⟩

end

/-! ## Heat exchangers -/

theorem C75_z_factor {a b c e : Val ℝ} (ha : temperature.Has a) (hb : temperature.Has b) (hc : temperature.Has c) (he : temperature.Has
    e) :
    Computes (zFactor (.ok a) (.ok b) (.ok c) (.ok e)) num.dim fun μ =>
      (μ a - μ b) / (μ e - μ c) := by
  checked (.var 0 - .var 1) / (.var 3 - .var 2), num.dim,
    [temperature, temperature, temperature, temperature],
    [a, b, c, e], ⟨ha, hb, hc, he, trivial⟩

theorem C75_nh_factor {a c e : Val ℝ} (ha : temperature.Has a) (hc : temperature.Has c) (he : temperature.Has e) :
    Computes (nhFactor (.ok a) (.ok c) (.ok e)) num.dim fun μ =>
      (μ e - μ c) / (μ a - μ c) := by
  checked (.var 2 - .var 1) / (.var 0 - .var 1), num.dim,
    [temperature, temperature, temperature],
    [a, c, e], ⟨ha, hc, he, trivial⟩

/-- Countercurrent: `a`, `b` the inlet and outlet of one stream, `c`, `e` those of the other. -/
theorem C75_logmean {a b c e : Val ℝ} (ha : temperature.Has a) (hb : temperature.Has b) (hc : temperature.Has c) (he : temperature.Has
    e) :
    Computes (deltatLogmean (.ok a) (.ok b) (.ok c) (.ok e)) temperature.dim fun μ =>
      ((μ a - μ e) - (μ b - μ c)) / Real.log ((μ a - μ e) / (μ b - μ c)) := by
  checked ((.var 0 - .var 3) - (.var 1 - .var 2)) / .fn .log ((.var 0 - .var 3) / (.var 1 - .var 2)), temperature.dim,
    [temperature, temperature, temperature, temperature],
    [a, b, c, e], ⟨ha, hb, hc, he, trivial⟩

/-- Cocurrent: what is computed, in any units; not the logarithmic mean (line 63 assigns instead of subtracting). -/
theorem C75_logmean_cocurrent_partial {a b c e : Val ℝ} (ha : temperature.Has a) (hb : temperature.Has b) (hc : temperature.Has c) (he : temperature.Has
    e) :
    Computes (deltatLogmean (.ok a) (.ok b) (.ok c) (.ok e) true) temperature.dim fun μ =>
      (μ c - (μ b - μ e)) / Real.log (μ c / (μ b - μ e)) := by
  checked (.var 2 - (.var 1 - .var 3)) / .fn .log (.var 2 / (.var 1 - .var 3)), temperature.dim,
    [temperature, temperature, temperature, temperature],
    [a, b, c, e], ⟨ha, hb, hc, he, trivial⟩

theorem C75_ge {m b c : Val ℝ} (hm : massRate.Has m) (hb : area.Has b) (hc : area.Has c) :
    Computes (geCalc (.ok m) (.ok b) (.ok c)) massFlux.dim fun μ =>
      Real.sqrt ((μ m / μ b) * (μ m / μ c)) := by
  checked .pow ((.var 0 / .var 1) * (.var 0 / .var 2)) (1 / 2), massFlux.dim,
    [massRate, area, area],
    [m, b, c], ⟨hm, hb, hc, trivial⟩

theorem C75_htc_shell {Do Ge mu Pr k psi : Val ℝ} (hDo : length.Has Do) (hGe : massFlux.Has Ge) (hmu : viscosity.Has mu) (hPr : num.Has Pr) (hk :
    conductivity.Has k) (hpsi : num.Has psi) :
    Computes (htcShell (.ok Do) (.ok Ge) (.ok mu) (.ok Pr) (.ok k) (.ok psi)) htc.dim fun μ =>
      ((2 / 10 * ((μ Do * μ Ge) / μ mu) ^ ((6 / 10 : ℚ) : ℝ) * μ Pr ^ ((33 / 100 : ℚ) : ℝ) * μ psi) * μ k) / μ Do := by
  checked ((.lit (2 / 10) * .pow ((.var 0 * .var 1) / .var 2) (6 / 10) * .pow (.var 3) (33 / 100) * .var
      5) * .var 4) / .var 0, htc.dim,
    [length, massFlux, viscosity, num, conductivity, num],
    [Do, Ge, mu, Pr, k, psi], ⟨hDo, hGe, hmu, hPr, hk, hpsi, trivial⟩

/-! ## Heat transfer coefficients -/

theorem C75_wall_viscosity {mu muw : Val ℝ} (hmu : viscosity.Has mu) (hmuw : viscosity.Has muw) :
    Computes (wallViscosity (.ok mu) (.ok muw)) num.dim fun μ =>
      (μ mu / μ muw) ^ ((14 / 100 : ℚ) : ℝ) := by
  checked .pow (.var 0 / .var 1) (14 / 100), num.dim,
    [viscosity, viscosity],
    [mu, muw], ⟨hmu, hmuw, trivial⟩

theorem C75_turbulent_avg {Re Pr L k psi : Val ℝ} (hRe : num.Has Re) (hPr : num.Has Pr) (hL : length.Has L) (hk : conductivity.Has k) (hpsi :
    num.Has psi) :
    Computes (htcTurbulentAvg (.ok Re) (.ok Pr) (.ok L) (.ok k) (.ok psi)) htc.dim fun μ =>
      ((37 / 1000 * μ Re ^ ((8 / 10 : ℚ) : ℝ) * μ Pr ^ ((1 / 3 : ℚ) : ℝ) * μ psi - 871 * μ Pr ^ ((1 / 3 : ℚ) : ℝ) * μ
      psi) * μ k) / μ L := by
  checked ((.lit (37 / 1000) * .pow (.var 0) (8 / 10) * .pow (.var 1) (1 / 3) * .var 4 - .lit 871 * .pow
      (.var 1) (1 / 3) * .var 4) * .var 3) / .var 2, htc.dim,
    [num, num, length, conductivity, num],
    [Re, Pr, L, k, psi], ⟨hRe, hPr, hL, hk, hpsi, trivial⟩

theorem C75_turbulent_local {Re Pr L k psi : Val ℝ} (hRe : num.Has Re) (hPr : num.Has Pr) (hL : length.Has L) (hk : conductivity.Has k) (hpsi :
    num.Has psi) :
    Computes (htcTurbulentLocal (.ok Re) (.ok Pr) (.ok L) (.ok k) (.ok psi)) htc.dim fun μ =>
      ((296 / 10000 * μ Re ^ ((8 / 10 : ℚ) : ℝ) * μ Pr ^ ((1 / 3 : ℚ) : ℝ) * μ psi) * μ k) / μ L := by
  checked ((.lit (296 / 10000) * .pow (.var 0) (8 / 10) * .pow (.var 1) (1 / 3) * .var 4) * .var 3) /
      .var 2, htc.dim,
    [num, num, length, conductivity, num],
    [Re, Pr, L, k, psi], ⟨hRe, hPr, hL, hk, hpsi, trivial⟩

theorem C75_pipe_laminar {Re Pr D L k psi : Val ℝ} (hRe : num.Has Re) (hPr : num.Has Pr) (hD : length.Has D) (hL : length.Has L) (hk :
    conductivity.Has k) (hpsi : num.Has psi) :
    Computes (htcPipeLaminar (.ok Re) (.ok Pr) (.ok D) (.ok L) (.ok k) (.ok psi)) htc.dim fun μ =>
      ((185 / 100 * (μ Re * μ Pr * (μ D / μ L)) ^ ((1 / 3 : ℚ) : ℝ) * μ psi) * μ k) / μ D := by
  checked ((.lit (185 / 100) * .pow (.var 0 * .var 1 * (.var 2 / .var 3)) (1 / 3) * .var 5) * .var 4) /
      .var 2, htc.dim,
    [num, num, length, length, conductivity, num],
    [Re, Pr, D, L, k, psi], ⟨hRe, hPr, hD, hL, hk, hpsi, trivial⟩

theorem C75_pipe_turbulent {Re Pr D k psi : Val ℝ} (hRe : num.Has Re) (hPr : num.Has Pr) (hD : length.Has D) (hk : conductivity.Has k) (hpsi :
    num.Has psi) :
    Computes (htcPipeTurbulent (.ok Re) (.ok Pr) (.ok D) (.ok k) (.ok psi)) htc.dim fun μ =>
      ((23 / 1000 * μ Re ^ ((8 / 10 : ℚ) : ℝ) * μ Pr ^ ((1 / 3 : ℚ) : ℝ) * μ psi) * μ k) / μ D := by
  checked ((.lit (23 / 1000) * .pow (.var 0) (8 / 10) * .pow (.var 1) (1 / 3) * .var 4) * .var 3) / .var
      2, htc.dim,
    [num, num, length, conductivity, num],
    [Re, Pr, D, k, psi], ⟨hRe, hPr, hD, hk, hpsi, trivial⟩

theorem C75_cross_cylinder {Re Pr D k : Val ℝ} (hRe : num.Has Re) (hPr : num.Has Pr) (hD : length.Has D) (hk : conductivity.Has k) :
    Computes (htcCrossCylinder (.ok Re) (.ok Pr) (.ok D) (.ok k)) htc.dim fun μ =>
      ((35 / 100 * μ Pr ^ ((3 / 10 : ℚ) : ℝ) + 56 / 100 * μ Re ^ ((52 / 100 : ℚ) : ℝ) * μ Pr ^ ((3 / 10 : ℚ) : ℝ)) * μ
      k) / μ D := by
  checked ((.lit (35 / 100) * .pow (.var 1) (3 / 10) + .lit (56 / 100) * .pow (.var 0) (52 / 100) * .pow
      (.var 1) (3 / 10)) * .var 3) / .var 2, htc.dim,
    [num, num, length, conductivity],
    [Re, Pr, D, k], ⟨hRe, hPr, hD, hk, trivial⟩

theorem C75_cross_sphere {Re Pr D k : Val ℝ} (hRe : num.Has Re) (hPr : num.Has Pr) (hD : length.Has D) (hk : conductivity.Has k) :
    Computes (htcCrossSphere (.ok Re) (.ok Pr) (.ok D) (.ok k)) htc.dim fun μ =>
      ((2 + 60 / 100 * Real.sqrt (μ Re) * μ Pr ^ ((1 / 3 : ℚ) : ℝ)) * μ k) / μ D := by
  checked ((.lit 2 + .lit (60 / 100) * .pow (.var 0) (1 / 2) * .pow (.var 1) (1 / 3)) * .var 3) / .var 2, htc.dim,
    [num, num, length, conductivity],
    [Re, Pr, D, k], ⟨hRe, hPr, hD, hk, trivial⟩

theorem C75_short_pipe {h D L : Val ℝ} (hh : htc.Has h) (hD : length.Has D) (hL : length.Has L) :
    Computes (htcShortPipe (.ok h) (.ok D) (.ok L)) htc.dim fun μ =>
      μ h * (1 + (μ D / μ L) ^ ((7 / 10 : ℚ) : ℝ)) := by
  checked .var 0 * (.lit 1 + .pow (.var 1 / .var 2) (7 / 10)), htc.dim,
    [htc, length, length],
    [h, D, L], ⟨hh, hD, hL, trivial⟩

/-! ## Phase changes -/

theorem C75_condensation {k rho g H n T2 T1 D mu : Val ℝ} (hk : conductivity.Has k) (hrho : density.Has rho) (hg : acceleration.Has g) (hH :
    specificEnergy.Has H) (hn : num.Has n) (hT2 : temperature.Has T2) (hT1 : temperature.Has T1) (hD
    : length.Has D) (hmu : viscosity.Has mu) :
    Computes (condensationCoefficient (.ok k) (.ok rho) (.ok g) (.ok H) (.ok n) (.ok T2) (.ok T1) (.ok D)
      (.ok mu)) htc.dim fun μ =>
      729 / 1000 * ((μ k ^ 3 * μ rho ^ 2 * μ g * μ H) / (μ n * (μ T2 - μ T1) * μ D * μ mu)) ^ ((1 / 4 : ℚ) : ℝ) := by
  checked .lit (729 / 1000) * .pow ((.pow (.var 0) 3 * .pow (.var 1) 2 * .var 2 * .var 3) / (.var 4 *
      (.var 5 - .var 6) * .var 7 * .var 8)) (1 / 4), htc.dim,
    [conductivity, density, acceleration, specificEnergy, num, temperature, temperature, length, viscosity],
    [k, rho, g, H, n, T2, T1, D, mu], ⟨hk, hrho, hg, hH, hn, hT2, hT1, hD, hmu, trivial⟩

theorem C75_flux_max {H rv rl s g : Val ℝ} (hH : specificEnergy.Has H) (hrv : density.Has rv) (hrl : density.Has rl) (hs :
    surfaceTension.Has s) (hg : acceleration.Has g) :
    Computes (fluxMaxBoilingValue (.ok H) (.ok rv) (.ok rl) (.ok s) (.ok g)) heatFlux.dim fun μ =>
      15 / 100 * μ H * Real.sqrt (μ rv) * (μ s * μ g * (μ rl - μ rv)) ^ ((1 / 4 : ℚ) : ℝ) := by
  checked .lit (15 / 100) * .var 0 * .pow (.var 1) (1 / 2) * .pow (.var 3 * .var 4 * (.var 2 - .var 1))
      (1 / 4), heatFlux.dim,
    [specificEnergy, density, density, surfaceTension, acceleration],
    [H, rv, rl, s, g], ⟨hH, hrv, hrl, hs, hg, trivial⟩

/-! ## Mass transfer -/

theorem C75_planar_mass_transfer {D A c2 c1 x : Val ℝ} (hD : diffusivity.Has D) (hA : area.Has A) (hc2 : density.Has c2) (hc1 : density.Has c1) (hx :
    length.Has x) :
    Computes (planarMassTransfer (.ok D) (.ok A) (.ok c2) (.ok c1) (.ok x)) massRate.dim fun μ =>
      -μ D * μ A * ((μ c2 - μ c1) / μ x) := by
  checked (-.var 0) * .var 1 * ((.var 2 - .var 3) / .var 4), massRate.dim,
    [diffusivity, area, density, density, length],
    [D, A, c2, c1, x], ⟨hD, hA, hc2, hc1, hx, trivial⟩

theorem C75_planar_mass_flux {D c2 c1 x : Val ℝ} (hD : diffusivity.Has D) (hc2 : density.Has c2) (hc1 : density.Has c1) (hx : length.Has x) :
    Computes (planarMassFlux (.ok D) (.ok c2) (.ok c1) (.ok x)) massFlux.dim fun μ =>
      -μ D * ((μ c2 - μ c1) / μ x) := by
  checked (-.var 0) * ((.var 1 - .var 2) / .var 3), massFlux.dim,
    [diffusivity, density, density, length],
    [D, c2, c1, x], ⟨hD, hc2, hc1, hx, trivial⟩

theorem C75_pipe_mass_transfer {D r2 r1 c2 c1 L : Val ℝ} (hD : diffusivity.Has D) (hr2 : length.Has r2) (hr1 : length.Has r1) (hc2 : density.Has c2) (hc1
    : density.Has c1) (hL : length.Has L) :
    Computes (pipeMassTransfer (.ok D) (.ok r2) (.ok r1) (.ok c2) (.ok c1) (.ok L)) massRate.dim fun μ =>
      -2 * Real.pi * μ L * μ D * ((μ c2 - μ c1) / Real.log (μ r2 / μ r1)) := by
  checked .lit (-2) * .lit Real.pi * .var 5 * .var 0 * ((.var 3 - .var 4) / .fn .log (.var 1 / .var 2)), massRate.dim,
    [diffusivity, length, length, density, density, length],
    [D, r2, r1, c2, c1, L], ⟨hD, hr2, hr1, hc2, hc1, hL, trivial⟩

theorem C75_sphere_mass_transfer {D r2 r1 c2 c1 : Val ℝ} (hD : diffusivity.Has D) (hr2 : length.Has r2) (hr1 : length.Has r1) (hc2 : density.Has c2) (hc1
    : density.Has c1) :
    Computes (sphereMassTransfer (.ok D) (.ok r2) (.ok r1) (.ok c2) (.ok c1)) massRate.dim fun μ =>
      -4 * Real.pi * μ r1 * μ r2 * μ D * ((μ c2 - μ c1) / (μ r2 - μ r1)) := by
  checked .lit (-4) * .lit Real.pi * .var 2 * .var 1 * .var 0 * ((.var 3 - .var 4) / (.var 1 - .var 2)), massRate.dim,
    [diffusivity, length, length, density, density],
    [D, r2, r1, c2, c1], ⟨hD, hr2, hr1, hc2, hc1, trivial⟩

theorem C75_semi_infinite_diffusion {cs c0 z D t : Val ℝ} (hcs : density.Has cs) (hc0 : density.Has c0) (hz : length.Has z) (hD : diffusivity.Has D) (ht :
    time.Has t) :
    Computes (semiInfiniteSlabDiffusion (.ok cs) (.ok c0) (.ok z) (.ok D) (.ok t)) density.dim fun μ =>
      μ cs - (μ cs - μ c0) * erf (μ z / Real.sqrt (4 * μ D * μ t)) := by
  checked .var 0 - (.var 0 - .var 1) * .fn .erf (.var 2 / .pow (.lit 4 * .var 3 * .var 4) (1 / 2)), density.dim,
    [density, density, length, diffusivity, time],
    [cs, c0, z, D, t], ⟨hcs, hc0, hz, hD, ht, trivial⟩

theorem C75_planar_mass_transfer_molar {D A c2 c1 x : Val ℝ} (hD : diffusivity.Has D) (hA : area.Has A) (hc2 : molarity.Has c2) (hc1 : molarity.Has c1) (hx :
    length.Has x) :
    Computes (planarMassTransfer (.ok D) (.ok A) (.ok c2) (.ok c1) (.ok x)) molarRate.dim fun μ =>
      -μ D * μ A * ((μ c2 - μ c1) / μ x) := by
  checked (-.var 0) * .var 1 * ((.var 2 - .var 3) / .var 4), molarRate.dim,
    [diffusivity, area, molarity, molarity, length],
    [D, A, c2, c1, x], ⟨hD, hA, hc2, hc1, hx, trivial⟩

theorem C75_planar_mass_flux_molar {D c2 c1 x : Val ℝ} (hD : diffusivity.Has D) (hc2 : molarity.Has c2) (hc1 : molarity.Has c1) (hx : length.Has x) :
    Computes (planarMassFlux (.ok D) (.ok c2) (.ok c1) (.ok x)) molarFlux.dim fun μ =>
      -μ D * ((μ c2 - μ c1) / μ x) := by
  checked (-.var 0) * ((.var 1 - .var 2) / .var 3), molarFlux.dim,
    [diffusivity, molarity, molarity, length],
    [D, c2, c1, x], ⟨hD, hc2, hc1, hx, trivial⟩

theorem C75_pipe_mass_transfer_molar {D r2 r1 c2 c1 L : Val ℝ} (hD : diffusivity.Has D) (hr2 : length.Has r2) (hr1 : length.Has r1) (hc2 : molarity.Has c2)
    (hc1 : molarity.Has c1) (hL : length.Has L) :
    Computes (pipeMassTransfer (.ok D) (.ok r2) (.ok r1) (.ok c2) (.ok c1) (.ok L)) molarRate.dim fun μ =>
      -2 * Real.pi * μ L * μ D * ((μ c2 - μ c1) / Real.log (μ r2 / μ r1)) := by
  checked .lit (-2) * .lit Real.pi * .var 5 * .var 0 * ((.var 3 - .var 4) / .fn .log (.var 1 / .var 2)), molarRate.dim,
    [diffusivity, length, length, molarity, molarity, length],
    [D, r2, r1, c2, c1, L], ⟨hD, hr2, hr1, hc2, hc1, hL, trivial⟩

theorem C75_sphere_mass_transfer_molar {D r2 r1 c2 c1 : Val ℝ} (hD : diffusivity.Has D) (hr2 : length.Has r2) (hr1 : length.Has r1) (hc2 : molarity.Has c2)
    (hc1 : molarity.Has c1) :
    Computes (sphereMassTransfer (.ok D) (.ok r2) (.ok r1) (.ok c2) (.ok c1)) molarRate.dim fun μ =>
      -4 * Real.pi * μ r1 * μ r2 * μ D * ((μ c2 - μ c1) / (μ r2 - μ r1)) := by
  checked .lit (-4) * .lit Real.pi * .var 2 * .var 1 * .var 0 * ((.var 3 - .var 4) / (.var 1 - .var 2)), molarRate.dim,
    [diffusivity, length, length, molarity, molarity],
    [D, r2, r1, c2, c1], ⟨hD, hr2, hr1, hc2, hc1, trivial⟩

theorem C75_semi_infinite_diffusion_molar {cs c0 z D t : Val ℝ} (hcs : molarity.Has cs) (hc0 : molarity.Has c0) (hz : length.Has z) (hD : diffusivity.Has D) (ht
    : time.Has t) :
    Computes (semiInfiniteSlabDiffusion (.ok cs) (.ok c0) (.ok z) (.ok D) (.ok t)) molarity.dim fun μ =>
      μ cs - (μ cs - μ c0) * erf (μ z / Real.sqrt (4 * μ D * μ t)) := by
  checked .var 0 - (.var 0 - .var 1) * .fn .erf (.var 2 / .pow (.lit 4 * .var 3 * .var 4) (1 / 2)), molarity.dim,
    [molarity, molarity, length, diffusivity, time],
    [cs, c0, z, D, t], ⟨hcs, hc0, hz, hD, ht, trivial⟩

theorem C75_two_d_pulse {m L x D t : Val ℝ} (hm : mass.Has m) (hL : length.Has L) (hx : length.Has x) (hD : diffusivity.Has D) (ht :
    time.Has t) :
    Computes (twoDPulse (.ok m) (.ok L) (.ok x) (.ok D) (.ok t)) density.dim fun μ =>
      ((μ m / μ L) * Real.exp (-(μ x) ^ 2 / (4 * μ D * μ t))) / (4 * Real.pi * μ D * μ t) := by
  checked ((.var 0 / .var 1) * .fn .exp ((-.pow (.var 2) 2) / (.lit 4 * .var 3 * .var 4))) / (.lit 4 *
      .lit Real.pi * .var 3 * .var 4), density.dim,
    [mass, length, length, diffusivity, time],
    [m, L, x, D, t], ⟨hm, hL, hx, hD, ht, trivial⟩

theorem C75_one_d_pulse {m A x D t : Val ℝ} (hm : mass.Has m) (hA : area.Has A) (hx : length.Has x) (hD : diffusivity.Has D) (ht : time.Has
    t) :
    Computes (oneDPulse (.ok m) (.ok A) (.ok x) (.ok D) (.ok t)) density.dim fun μ =>
      ((μ m / μ A) * Real.exp (-(μ x) ^ 2 / (4 * μ D * μ t))) / Real.sqrt (4 * Real.pi * μ D * μ t) := by
  checked ((.var 0 / .var 1) * .fn .exp ((-.pow (.var 2) 2) / (.lit 4 * .var 3 * .var 4))) / .pow (.lit
      4 * .lit Real.pi * .var 3 * .var 4) (1 / 2), density.dim,
    [mass, area, length, diffusivity, time],
    [m, A, x, D, t], ⟨hm, hA, hx, hD, ht, trivial⟩

theorem C75_three_d_pulse_sphere {m x D t : Val ℝ} (hm : mass.Has m) (hx : length.Has x) (hD : diffusivity.Has D) (ht : time.Has t) :
    Computes (threeDPulse (.ok m) (.ok x) (.ok D) (.ok t) c!"sphere") density.dim fun μ =>
      ((μ m) * Real.exp (-(μ x) ^ 2 / (4 * μ D * μ t))) / (4 * Real.pi * μ D * μ t) ^ ((3 / 2 : ℚ) : ℝ) := by
  checked ((.var 0) * .fn .exp ((-.pow (.var 1) 2) / (.lit 4 * .var 2 * .var 3))) / .pow (.lit 4 * .lit
      Real.pi * .var 2 * .var 3) (3 / 2), density.dim,
    [mass, length, diffusivity, time],
    [m, x, D, t], ⟨hm, hx, hD, ht, trivial⟩

theorem C75_three_d_pulse_hemisphere {m x D t : Val ℝ} (hm : mass.Has m) (hx : length.Has x) (hD : diffusivity.Has D) (ht : time.Has t) :
    Computes (threeDPulse (.ok m) (.ok x) (.ok D) (.ok t) c!"hemisphere") density.dim fun μ =>
      ((2 * μ m) * Real.exp (-(μ x) ^ 2 / (4 * μ D * μ t))) / (4 * Real.pi * μ D * μ t) ^ ((3 / 2 : ℚ) : ℝ) := by
  checked ((.lit 2 * .var 0) * .fn .exp ((-.pow (.var 1) 2) / (.lit 4 * .var 2 * .var 3))) / .pow (.lit
      4 * .lit Real.pi * .var 2 * .var 3) (3 / 2), density.dim,
    [mass, length, diffusivity, time],
    [m, x, D, t], ⟨hm, hx, hD, ht, trivial⟩

theorem C75_three_d_pulse_cube {m x D t : Val ℝ} (hm : mass.Has m) (hx : length.Has x) (hD : diffusivity.Has D) (ht : time.Has t) :
    Computes (threeDPulse (.ok m) (.ok x) (.ok D) (.ok t) c!"cube") density.dim fun μ =>
      ((8 * μ m) * Real.exp (-(μ x) ^ 2 / (4 * μ D * μ t))) / (4 * Real.pi * μ D * μ t) ^ ((3 / 2 : ℚ) : ℝ) := by
  checked ((.lit 8 * .var 0) * .fn .exp ((-.pow (.var 1) 2) / (.lit 4 * .var 2 * .var 3))) / .pow (.lit
      4 * .lit Real.pi * .var 2 * .var 3) (3 / 2), density.dim,
    [mass, length, diffusivity, time],
    [m, x, D, t], ⟨hm, hx, hD, ht, trivial⟩

/-! ## Dimensionless groups -/

theorem C75_reynolds {rho v L mu : Val ℝ} (hrho : density.Has rho) (hv : velocity.Has v) (hL : length.Has L) (hmu : viscosity.Has mu) :
    Computes (reynolds (.ok rho) (.ok v) (.ok L) (.ok mu)) num.dim fun μ =>
      (μ rho * μ v * μ L) / μ mu := by
  checked (.var 0 * .var 1 * .var 2) / .var 3, num.dim,
    [density, velocity, length, viscosity],
    [rho, v, L, mu], ⟨hrho, hv, hL, hmu, trivial⟩

theorem C75_biot {h L k : Val ℝ} (hh : htc.Has h) (hL : length.Has L) (hk : conductivity.Has k) :
    Computes (biot (.ok h) (.ok L) (.ok k)) num.dim fun μ =>
      (μ h * μ L) / μ k := by
  checked (.var 0 * .var 1) / .var 2, num.dim,
    [htc, length, conductivity],
    [h, L, k], ⟨hh, hL, hk, trivial⟩

theorem C75_prandtl {mu cp k : Val ℝ} (hmu : viscosity.Has mu) (hcp : heatCapacity.Has cp) (hk : conductivity.Has k) :
    Computes (prandtl (.ok mu) (.ok cp) (.ok k)) num.dim fun μ =>
      (μ mu * μ cp) / μ k := by
  checked (.var 0 * .var 1) / .var 2, num.dim,
    [viscosity, heatCapacity, conductivity],
    [mu, cp, k], ⟨hmu, hcp, hk, trivial⟩

theorem C75_schmidt {mu rho D : Val ℝ} (hmu : viscosity.Has mu) (hrho : density.Has rho) (hD : diffusivity.Has D) :
    Computes (schmidt (.ok mu) (.ok rho) (.ok D)) num.dim fun μ =>
      μ mu / (μ rho * μ D) := by
  checked .var 0 / (.var 1 * .var 2), num.dim,
    [viscosity, density, diffusivity],
    [mu, rho, D], ⟨hmu, hrho, hD, trivial⟩

theorem C75_gretz {d L cp cl rho v k : Val ℝ} (hd : length.Has d) (hL : length.Has L) (hcp : heatCapacity.Has cp) (hcl : length.Has cl) (hrho
    : density.Has rho) (hv : velocity.Has v) (hk : conductivity.Has k) :
    Computes (gretz (.ok d) (.ok L) (.ok cp) (.ok cl) (.ok rho) (.ok v) (.ok k)) num.dim fun μ =>
      (μ cp * μ d * μ cl * μ rho * μ v) / (μ k * μ L) := by
  checked (.var 2 * .var 0 * .var 3 * .var 4 * .var 5) / (.var 6 * .var 1), num.dim,
    [length, length, heatCapacity, length, density, velocity, conductivity],
    [d, L, cp, cl, rho, v, k], ⟨hd, hL, hcp, hcl, hrho, hv, hk, trivial⟩

theorem C75_grashof {g b T2 T1 L rho mu : Val ℝ} (hg : acceleration.Has g) (hb : expansivity.Has b) (hT2 : temperature.Has T2) (hT1 :
    temperature.Has T1) (hL : length.Has L) (hrho : density.Has rho) (hmu : viscosity.Has mu) :
    Computes (grashof (.ok g) (.ok b) (.ok T2) (.ok T1) (.ok L) (.ok rho) (.ok mu)) num.dim fun μ =>
      (μ L ^ 3 * μ rho ^ 2 * μ b * (μ T2 - μ T1) * μ g) / μ mu ^ 2 := by
  checked (.pow (.var 4) 3 * .pow (.var 5) 2 * .var 1 * (.var 2 - .var 3) * .var 0) / .pow (.var 6) 2, num.dim,
    [acceleration, expansivity, temperature, temperature, length, density, viscosity],
    [g, b, T2, T1, L, rho, mu], ⟨hg, hb, hT2, hT1, hL, hrho, hmu, trivial⟩

theorem C75_thermal_beta {r1 r2 T2 T1 : Val ℝ} (hr1 : density.Has r1) (hr2 : density.Has r2) (hT2 : temperature.Has T2) (hT1 : temperature.Has
    T1) :
    Computes (thermalBeta (.ok r1) (.ok r2) (.ok T2) (.ok T1)) expansivity.dim fun μ =>
      (μ r1 - μ r2) / (((μ r1 + μ r2) / 2) * (μ T2 - μ T1)) := by
  checked (.var 0 - .var 1) / (((.var 0 + .var 1) / .lit 2) * (.var 2 - .var 3)), expansivity.dim,
    [density, density, temperature, temperature],
    [r1, r2, T2, T1], ⟨hr1, hr2, hT2, hT1, trivial⟩

/-! ## Process safety and reactors -/

theorem C75_vessel_cylinder {s x r : Val ℝ} (hs : pressure.Has s) (hx : length.Has x) (hr : length.Has r) :
    Computes (maxVesselPressure (.ok s) (.ok x) (.ok r) c!"cylinder") pressure.dim fun μ =>
      (μ s * μ x) / (μ r + 6 / 10 * μ x) := by
  checked (.var 0 * .var 1) / (.var 2 + (.lit (6 / 10) * .var 1)), pressure.dim,
    [pressure, length, length],
    [s, x, r], ⟨hs, hx, hr, trivial⟩

theorem C75_vessel_sphere {s x r : Val ℝ} (hs : pressure.Has s) (hx : length.Has x) (hr : length.Has r) :
    Computes (maxVesselPressure (.ok s) (.ok x) (.ok r) c!"sphere") pressure.dim fun μ =>
      (2 * μ x * μ s) / (μ r + 2 / 10 * μ x) := by
  checked (.lit 2 * .var 1 * .var 0) / (.var 2 + .lit (2 / 10) * .var 1), pressure.dim,
    [pressure, length, length],
    [s, x, r], ⟨hs, hx, hr, trivial⟩

theorem C75_far {n t : Val ℝ} (hn : num.Has n) (ht : time.Has t) :
    Computes (far (.ok n) (.ok t)) rate.dim fun μ =>
      (μ n * (10 * 10 ^ 8)) / μ t := by
  checked (.var 0 * .lit (10 * 10 ^ 8)) / .var 1, rate.dim,
    [num, time],
    [n, t], ⟨hn, ht, trivial⟩

theorem C75_osha {n t : Val ℝ} (hn : num.Has n) (ht : time.Has t) :
    Computes (oshaRate (.ok n) (.ok t)) rate.dim fun μ =>
      (μ n * 200000) / μ t := by
  checked (.var 0 * .lit 200000) / .var 1, rate.dim,
    [num, time],
    [n, t], ⟨hn, ht, trivial⟩

theorem C75_evaporation {M k A P R T : Val ℝ} (hM : molarMass.Has M) (hk : velocity.Has k) (hA : area.Has A) (hP : pressure.Has P) (hR :
    gasConstant.Has R) (hT : temperature.Has T) :
    Computes (qmEvaporation (.ok M) (.ok k) (.ok A) (.ok P) (.ok R) (.ok T)) massRate.dim fun μ =>
      (μ M * μ k * μ A * μ P) / (μ R * μ T) := by
  checked (.var 0 * .var 1 * .var 2 * .var 3) / (.var 4 * .var 5), massRate.dim,
    [molarMass, velocity, area, pressure, gasConstant, temperature],
    [M, k, A, P, R, T], ⟨hM, hk, hA, hP, hR, hT, trivial⟩

theorem C75_enclosure {Q R T k V P M : Val ℝ} (hQ : massRate.Has Q) (hR : gasConstant.Has R) (hT : temperature.Has T) (hk : num.Has k) (hV :
    volumeRate.Has V) (hP : pressure.Has P) (hM : molarMass.Has M) :
    Computes (enclosureConcentration (.ok Q) (.ok R) (.ok T) (.ok k) (.ok V) (.ok P) (.ok M)) num.dim fun μ =>
      ((10 * 10 ^ 6) * (μ Q * μ R * μ T)) / (μ k * μ V * μ P * μ M) := by
  checked (.lit (10 * 10 ^ 6) * (.var 0 * .var 1 * .var 2)) / (.var 3 * .var 4 * .var 5 * .var 6), num.dim,
    [massRate, gasConstant, temperature, num, volumeRate, pressure, molarMass],
    [Q, R, T, k, V, P, M], ⟨hQ, hR, hT, hk, hV, hP, hM, trivial⟩

theorem C75_ppm {C R T P M : Val ℝ} (hC : num.Has C) (hR : gasConstant.Has R) (hT : temperature.Has T) (hP : pressure.Has P) (hM :
    molarMass.Has M) :
    Computes (ppmToOther (.ok C) (.ok R) (.ok T) (.ok P) (.ok M)) density.dim fun μ =>
      μ C / (((10 * 10 ^ 6) * (μ R * μ T)) / (μ P * μ M)) := by
  checked .var 0 / ((.lit (10 * 10 ^ 6) * (.var 1 * .var 2)) / (.var 3 * .var 4)), density.dim,
    [num, gasConstant, temperature, pressure, molarMass],
    [C, R, T, P, M], ⟨hC, hR, hT, hP, hM, trivial⟩

theorem C75_cstr {F0 F r : Val ℝ} (hF0 : molarRate.Has F0) (hF : molarRate.Has F) (hr : reactionRate.Has r) :
    Computes (cstrVolume (.ok F0) (.ok F) (.ok r)) volume.dim fun μ =>
      (μ F0 - μ F) / (-μ r) := by
  checked (.var 0 - .var 1) / (-.var 2), volume.dim,
    [molarRate, molarRate, reactionRate],
    [F0, F, r], ⟨hF0, hF, hr, trivial⟩

end Verif
