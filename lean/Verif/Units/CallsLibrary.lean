import Verif.Units.Calls
import Verif.Units.CodeLibrary
import Verif.Thermo.Cubic

/-!
# The functions of the library that are more than one expression, as bodies

Parameters are the local variables 0, 1, … in the order of the Python signature; local variables that are only a name for a
number written in the source are left out, and so are the calls of one-line functions (their expression is put in).
-/

namespace Verif

section
variable {K : Type} [Zero K] [One K] [Add K] [Sub K] [Mul K] [Div K] [Neg K] [NatCast K] [RatCast K] [LinearOrder K] [PyPow K]

open Code

/-- heat_transfer_coefficients.py:57-63 (25-63 with 332/1000) and 98-104: Re, Pr, L, k, psi_v. -/
def laminarBody (fmt : ℚ → Sym) (c : ℚ) : Body K :=
  .assign 5 (lit c * pow (var 0) (1 / 2) * pow (var 1) (1 / 3) * var 4) <|
  .assign 6 ((var 5 * var 3) / var 2) <|
  .inplace 6 (fun env => if c!"BTU" <:+: reprUnits fmt (env 3) then c!"BTU/hr*ft^2*F" else c!"W/m^2*K") <|
  .recast 6 (.sub c!"HeatTransferCoefficient")

/-- phase_changes.py:103-107 `flux_max_boiling`. -/
def fluxMaxBoilingBody : Body K :=
  .assign 5 (lit (15 / 100) * var 0 * pow (var 1) (1 / 2) * pow (var 3 * var 4 * (var 2 - var 1)) (1 / 4)) <|
  .drop (conv (var 5) c!"W/m^2") <|
  .ret (var 5)

/-- heat_exchangers.py:62-71 `deltat_logmean`. -/
def logmeanBody (cocurrent : Bool) : Body K :=
  if cocurrent then
    .assign 4 (var 2) <| .assign 0 (var 2) <| .assign 5 (var 1 - var 3) <|
    .assign 6 ((var 4 - var 5) / fn .log (var 4 / var 5)) <| .ret (var 6)
  else
    .assign 4 (var 0 - var 3) <| .assign 5 (var 1 - var 2) <|
    .assign 6 ((var 4 - var 5) / fn .log (var 4 / var 5)) <| .ret (var 6)

/-- heat_exchangers.py:102-109 `shell_htc_full`. -/
def shellHtcBody : Body K :=
  .assign 10 (var 0 * ((pi * pow (var 1) 2) / lit 4) - var 3 * ((pi * pow (var 2) 2) / lit 4)) <|
  .assign 11 (var 4 * var 1 * (lit 1 - var 2 / var 5)) <|
  .assign 12 (pow ((var 6 / var 10) * (var 6 / var 11)) (1 / 2)) <|
  .assign 13 ((var 2 * var 12) / var 7) <|
  .assign 14 ((var 7 * var 8) / var 9) <|
  .assign 15 (((lit (2 / 10) * pow ((var 2 * var 12) / var 7) (6 / 10) * pow (var 14) (33 / 100) * lit 1) * var 9) / var 2) <|
  .ret (var 15)

/-- `for i in range(n): z_in = z_iter; z_iter = step`, `return z_iter`; `z_iter` is 10, `z_in` is 11. -/
def Body.iterate (step : Code) : ℕ → Body K
  | 0 => .ret (var 10)
  | n + 1 => .assign 11 (var 10) (.assign 10 step (Body.iterate step n))

/-- cubic_equations.py:53 with z_in. -/
def Code.vapourStep : Code := lit 1 + var 8 - var 9 * var 8 * ((var 11 - var 8) / (var 11 * (var 11 + var 8)))
/-- cubic_equations.py:61. -/
def Code.liquidStep : Code := var 8 + var 11 * (var 11 + var 8) * ((lit 1 + var 8 - var 11) / (var 9 * var 8))
/-- cubic_equations.py:237, with `sigma` and `epsilon` put in. -/
def Code.prStep : Code :=
  var 8 + (var 11 + (lit 1 - pow (lit 2) (1 / 2)) * var 8) * (var 11 + (lit 1 + pow (lit 2) (1 / 2)) * var 8) *
    ((lit 1 + var 8 - var 11) / (var 9 * var 8))

/-- cubic_equations.py:171. -/
def Code.soaveAlpha : Code := pow (lit 1 + (lit (480 / 1000) + lit (1574 / 1000) * var 4 - lit (176 / 1000) * pow (var 4) 2) *
      (lit 1 - pow (var 6) (1 / 2))) 2
/-- cubic_equations.py:231. -/
def Code.prAlpha : Code := pow (lit 1 + (lit (37464 / 100000) + lit (154226 / 100000) * var 4 - lit (26992 / 100000) * pow (var 4) 2) *
      (lit 1 - pow (var 6) (1 / 2))) 2

/-- cubic_equations.py, all four functions: T, P, Tcrit, Pcrit, acentric factor.  In any other state `return z_iter` raises
UnboundLocalError. -/
def cubicBody (omega psi : ℚ) (alpha firstV firstL : Code) (state : Sym) (iterations : ℤ) : Body K :=
  .assign 5 (var 1 / var 3) <| .assign 6 (var 0 / var 2) <| .assign 7 alpha <|
  .assign 8 (lit omega * (var 5 / var 6)) <| .assign 9 ((lit psi * var 7) / (lit omega * var 6)) <|
  if state = c!"vapor" then .assign 11 (lit 1) <| .assign 10 firstV <| .iterate Code.vapourStep iterations.toNat
  else if state = c!"liquid" then .assign 11 (var 8) <| .assign 10 firstL <| .iterate Code.liquidStep iterations.toNat
  else .guard (fun _ => .error .unboundLocal) (.ret (lit 0))

/-- `rendlich_kwong`. -/
def rendlichKwongBody (state : Sym) (iterations : ℤ) : Body K :=
  cubicBody (8664 / 100000) (42748 / 100000) (pow (var 6) (-1 / 2)) Code.vapourStep Code.liquidStep state iterations
/-- `van_der_waals`. -/
def vanDerWaalsBody (state : Sym) (iterations : ℤ) : Body K :=
  cubicBody (1 / 8) (27 / 64) (lit 1) Code.vapourStep Code.liquidStep state iterations
/-- `soave_rendlich_kwong`. -/
def soaveBody (state : Sym) (iterations : ℤ) : Body K :=
  cubicBody (8664 / 100000) (42748 / 100000)
    Code.soaveAlpha Code.vapourStep Code.liquidStep state iterations
/-- `peng_robinson`. -/
def pengRobinsonBody (state : Sym) (iterations : ℤ) : Body K :=
  cubicBody (7780 / 100000) (45724 / 100000)
    Code.prAlpha Code.prStep Code.prStep state iterations

end

open Code

/-- radiation.py:21-22 `radiative_heat_flow`. -/
noncomputable def radiativeBody : Body ℝ :=
  .assign 4 (const .multi (5670 / 10 ^ 11) c!"W/m^2*K^4" * var 0 * var 1 * (pow (var 2) 4 - pow (var 3) 4)) <|
  .build 4 fun x => match valueAttr (.ok x) with
    | .error e => .error e
    | .ok v => .ok (c!"Power", v, c!"W")

/-- diffusion_coefficients.py:55-58 and 182-185. -/
noncomputable def castBuild (scale : ℝ) : Val ℝ → PyM (Sym × ℝ × Sym)
  | .multi m => if m.cls = .multi then .ok (c!"DiffusionCoefficient", m.value / scale, c!"cm^2/s") else .error .notRepresentable
  | .num x => .ok (c!"DiffusionCoefficient", x, c!"cm^2/s")
  | _ => .error .notRepresentable

/-- diffusion_coefficients.py:52-58 `wilke_chang`. -/
noncomputable def wilkeChangBody : Body ℝ :=
  .assign 5 ((lit (74 / 10 ^ 9) * pow (var 1 * var 2) (1 / 2) * var 0) / (var 3 * pow (var 4) (6 / 10))) <|
  .build 5 (castBuild 1)

/-- `check_units(x, unit, …)`. -/
noncomputable def Body.checkUnits (x : ℕ) (unit : Sym) (rest : Body ℝ) : Body ℝ :=
  .guard (fun env => match Verif.checkUnits (env x) unit with
    | .error e => .error e
    | .ok _ => .ok ()) rest

/-- diffusion_coefficients.py:168-185 `fullers`. -/
noncomputable def fullersBody : Body ℝ :=
  .checkUnits 0 c!"K" <| .checkUnits 1 c!"atm" <| .checkUnits 2 c!"g/mol" <| .checkUnits 3 c!"g/mol" <|
  .checkUnits 4 c!"cm^3/mol" <| .checkUnits 5 c!"cm^3/mol" <|
  .assign 6 (lit 2 / ((lit 1 / var 2) + (lit 1 / var 3))) <|
  .assign 7 ((lit (143 / 100000) * pow (var 0) (175 / 100)) /
    (var 1 * pow (var 6) (5 / 10) * pow (pow (var 4) (1 / 3) + pow (var 5) (1 / 3)) 2)) <|
  .build 7 (castBuild 10000)

end Verif
